import Verif.Model.Arith
/-
The literals of the mesh generators are the nearest `f32` to the decimal text in the source.
-/
namespace Vpin

example : fHalf = f32OfFrac 1 2 ∧ fTwo = f32OfFrac 2 1 ∧ fThree = f32OfFrac 3 1 ∧
    fFour = f32OfFrac 4 1 ∧ fTen = f32OfFrac 10 1 ∧ fOneHalf = f32OfFrac 3 2 ∧
    fTwenty = f32OfFrac 20 1 ∧ f180 = f32OfFrac 180 1 ∧ f360 = f32OfFrac 360 1 ∧
    f1em4 = f32OfFrac 1 (10 ^ 4) ∧ f1em6 = f32OfFrac 1 (10 ^ 6) ∧
    f1em12 = f32OfFrac 1 (10 ^ 12) ∧ f0p1 = f32OfFrac 1 10 ∧ f1p3 = f32OfFrac 13 10 ∧
    fQuarter = f32OfFrac 1 4 ∧ f3Quarter = f32OfFrac 3 4 ∧
    fPi = f32OfFrac 314159265358979323846 (10 ^ 20) := by
  decide +kernel

/-- the largest finite number, and infinity just above it -/
example : fMax.isFinite = true ∧ fMax + 1 = fInf ∧ fInf.isInf = true ∧ fMin = fMax.neg ∧
    fNegInf = fInf.neg := by
  decide +kernel

/-- arithmetic on concrete numbers is rounded to nearest even: 0.1 + 1.3, 1.3 * 0.1, 1 / 3, sqrt 2 -/
example : ieeeAdd f0p1 f1p3 = f32OfFrac 14 10 ∧ ieeeMul fThree fHalf = fOneHalf ∧
    ieeeDiv f32One fThree = f32OfFrac 1 3 ∧ ieeeSqrt fFour = fTwo ∧
    ieeeSqrt fTwo = f32OfFrac 141421356237 (10 ^ 11) := by
  decide +kernel

end Vpin
