import Verif.Props.RampMesh
/-
Failures of C64, C66 and C67 in IEEE arithmetic: tubes that collapse at a right angle, and ramps that turn back.
-/
namespace Vpin
attribute [local instance] ieeeExact

/-- a rubber along a square with sharp corners, at the given height -/
def sharpSquare (height : F32) : Rubber :=
  { Rubber.default with
    hit_height := some height
    drag_points := [dragAt fTwenty fTen false, dragAt f180 fTen false, dragAt f180 f360 false, dragAt fTwenty f360 false] }

/-- How many different places the vertices number 0, 3, 6 and 9 of each of the first `n` rings of 12 have: a quarter, a half
and three quarters around. -/
def quarterPlaces (n : Nat) (vs : List Vertex) : List Nat :=
  (List.range n).map fun i => (([0, 3, 6, 9].filterMap fun j => vs[12 * i + j]?.map Vertex.place).eraseDups).length

/-- **C64**, failure: a rubber at height 0 with sharp right-angled corners is a tube only up to its first corner; all other
rings have no extent. At any other height, like 10, all rings are there. -/
theorem C64_collapse_counterexample :
    (∃ m c, buildRubberMesh 6 (sharpSquare 0) 10 = .ok (some (m, c)) ∧ m.vertices.length = 4 * 12 ∧
      quarterPlaces 4 m.vertices = [4, 1, 1, 1]) ∧
    (∃ m c, buildRubberMesh 6 (sharpSquare fTen) 10 = .ok (some (m, c)) ∧ m.vertices.length = 4 * 12 ∧
      quarterPlaces 4 m.vertices = [4, 4, 4, 4]) := by
  have key : ((buildRubberMesh 6 (sharpSquare 0) 10).toOption.bind fun r => r.map fun (m : GenMesh × Vec3) =>
        (m.1.vertices.length, quarterPlaces 4 m.1.vertices)) = some (4 * 12, [4, 1, 1, 1]) ∧
      ((buildRubberMesh 6 (sharpSquare fTen) 10).toOption.bind fun r => r.map fun (m : GenMesh × Vec3) =>
        (m.1.vertices.length, quarterPlaces 4 m.1.vertices)) = some (4 * 12, [4, 4, 4, 4]) := by decide +kernel
  have get : ∀ h l, ((buildRubberMesh 6 (sharpSquare h) 10).toOption.bind fun r => r.map fun (m : GenMesh × Vec3) =>
        (m.1.vertices.length, quarterPlaces 4 m.1.vertices)) = some (4 * 12, l) →
      ∃ m c, buildRubberMesh 6 (sharpSquare h) 10 = .ok (some (m, c)) ∧ m.vertices.length = 4 * 12 ∧
        quarterPlaces 4 m.vertices = l := by
    intro h l hk
    cases hb : buildRubberMesh 6 (sharpSquare h) 10 with
    | error e => rw [hb] at hk; cases hk
    | ok r =>
      cases r with
      | none => rw [hb] at hk; cases hk
      | some m =>
        rw [hb] at hk
        injection hk with hk
        injection hk with h1 h2
        exact ⟨m.1, m.2, rfl, h1, h2⟩
  exact ⟨get _ _ key.1, get _ _ key.2⟩

/-- a ramp of one wire with a sharp right-angled corner, that rises by the given height -/
def sharpWire (rise : F32) : Ramp :=
  { cornerRampOf .OneWire with
    height_bottom := 0
    height_top := rise
    drag_points := [dragAt fTwenty fTen false, dragAt f180 fTen false, dragAt f180 f360 false] }

/-- **C67**, failure: a level wire with a sharp right-angled corner ends there; all other rings have no extent. If it rises,
like by 10, all rings are there. -/
theorem C67_collapse_counterexample :
    (∃ m, buildRampMesh 6 (sharpWire 0) ⟨0, 0, f360, f360⟩ 10 false = .ok (some m) ∧ m.vertices.length = 3 * 12 ∧
      quarterPlaces 3 m.vertices = [4, 1, 1]) ∧
    (∃ m, buildRampMesh 6 (sharpWire fTen) ⟨0, 0, f360, f360⟩ 10 false = .ok (some m) ∧ m.vertices.length = 3 * 12 ∧
      quarterPlaces 3 m.vertices = [4, 4, 4]) := by
  have key : ((buildRampMesh 6 (sharpWire 0) ⟨0, 0, f360, f360⟩ 10 false).toOption.bind fun r => r.map fun (m : GenMesh) =>
        (m.vertices.length, quarterPlaces 3 m.vertices)) = some (3 * 12, [4, 1, 1]) ∧
      ((buildRampMesh 6 (sharpWire fTen) ⟨0, 0, f360, f360⟩ 10 false).toOption.bind fun r => r.map fun (m : GenMesh) =>
        (m.vertices.length, quarterPlaces 3 m.vertices)) = some (3 * 12, [4, 4, 4]) := by decide +kernel
  have get : ∀ h l, ((buildRampMesh 6 (sharpWire h) ⟨0, 0, f360, f360⟩ 10 false).toOption.bind fun r =>
        r.map fun (m : GenMesh) => (m.vertices.length, quarterPlaces 3 m.vertices)) = some (3 * 12, l) →
      ∃ m, buildRampMesh 6 (sharpWire h) ⟨0, 0, f360, f360⟩ 10 false = .ok (some m) ∧ m.vertices.length = 3 * 12 ∧
        quarterPlaces 3 m.vertices = l := by
    intro h l hk
    cases hb : buildRampMesh 6 (sharpWire h) ⟨0, 0, f360, f360⟩ 10 false with
    | error e => rw [hb] at hk; cases hk
    | ok r =>
      cases r with
      | none => rw [hb] at hk; cases hk
      | some m =>
        rw [hb] at hk
        injection hk with hk
        injection hk with h1 h2
        exact ⟨m, rfl, h1, h2⟩
  exact ⟨get _ _ key.1, get _ _ key.2⟩

/-- a flat ramp, 75 to 60 wide, that goes to the right and back over itself -/
def backRamp : Ramp :=
  { cornerRampOf .Flat with drag_points := [dragAt f180 fTen false, dragAt f360 fTen false, dragAt fTwenty fTen false] }

/-- 10000.0 -/
def f10000 : F32 := 0x461c4000

/-- **C66**, failure: where the curve of a ramp turns back on itself, the floor is more than 10000 units away from it to both
sides, although the ramp is less than 75 wide and its drag points are at most 360 from the corner of the table. -/
theorem C66_turn_back_counterexample :
    (∀ d ∈ backRamp.drag_points, Arith.le 0 d.x ∧ Arith.le d.x f360 ∧ d.y = fTen) ∧
    ∃ m v w, buildRampMesh 6 backRamp ⟨0, 0, f360, f360⟩ 10 false = .ok (some m) ∧
      m.vertices[2]? = some v ∧ m.vertices[3]? = some w ∧
      Arith.lt f10000 v.x ∧ Arith.lt w.x f10000.neg := by
  refine ⟨by decide +kernel, ?_⟩
  have key : ((buildRampMesh 6 backRamp ⟨0, 0, f360, f360⟩ 10 false).toOption.bind fun r => r.bind fun (m : GenMesh) =>
      m.vertices[2]?.bind fun v => m.vertices[3]?.map fun w => (Arith.lt f10000 v.x, Arith.lt w.x f10000.neg)) =
      some (true, true) := by decide +kernel
  cases hb : buildRampMesh 6 backRamp ⟨0, 0, f360, f360⟩ 10 false with
  | error e => rw [hb] at key; cases key
  | ok r =>
    cases r with
    | none => rw [hb] at key; cases key
    | some m =>
      rw [hb] at key
      replace key : (m.vertices[2]?.bind fun v => m.vertices[3]?.map fun w =>
        (Arith.lt f10000 v.x, Arith.lt w.x f10000.neg)) = some (true, true) := key
      cases hv : m.vertices[2]? with
      | none => rw [hv] at key; cases key
      | some v =>
        cases hw : m.vertices[3]? with
        | none => rw [hv, hw] at key; cases key
        | some w =>
          rw [hv, hw] at key
          replace key : some (Arith.lt f10000 v.x, Arith.lt w.x f10000.neg) = some (true, true) := key
          injection key with key
          injection key with h1 h2
          exact ⟨m, v, w, rfl, hv, hw, h1, h2⟩

end Vpin
