import Verif.Props.GltfItems
import Verif.Props.RampHeight
import Verif.Lemmas.QuantizeMono
import Verif.Props.FlipperShape
import Verif.Props.Structs
import Verif.Spec.SceneDetail
/-!
# C64, C67, C74, C79: the level of detail; C19, C83: limits
-/
namespace Vpin
open Arith Scene

theorem detail_spec {g : GameData} {n : UInt32} (h : AsksDetail g n) : g.detailLevel = n := by
  unfold GameData.detailLevel
  rcases h with ⟨h, e⟩ | ⟨h, e, rfl⟩ | ⟨h, rfl⟩
  · rw [if_pos h, e]; rfl
  · rw [if_pos h, e]; rfl
  · rw [if_neg h]

section
variable [Arith]

/-- **C74**: the meshes of visible ramps and rubbers in the OBJ file are made with the level of detail the
table asks for. -/
theorem C74_detail {Z : Zlib} {S : Stock} {fuel : Nat} {o : ObjExportOptions} {vpx : VPX} {n : UInt32}
    (hd : AsksDetail vpx.gamedata n) :
    (∀ (r : Ramp) (m : GenMesh), r.is_visible = true →
      buildRampMesh fuel r ⟨vpx.gamedata.left, vpx.gamedata.top, vpx.gamedata.right, vpx.gamedata.bottom⟩
        n ((materialByName vpx.gamedata r.material).any (·.opacity_active)) = .ok (some m) →
      ∃ b, itemBlocks Z S fuel o vpx (.ramp r) = .ok [b] ∧ b.vertices = m.vertices ∧ b.faces = m.tris.map Tri.face) ∧
    (∀ (r : Rubber) (m : GenMesh) (c : Vec3), r.is_visible = true → buildRubberMesh fuel r n = .ok (some (m, c)) →
      ∃ b, itemBlocks Z S fuel o vpx (.rubber r) = .ok [b] ∧ b.vertices = m.vertices ∧ b.faces = m.tris.map Tri.face) := by
  have e := detail_spec hd
  constructor
  · intro r m hv hm
    rw [← e] at hm
    obtain ⟨b, h1, h2, h3, -⟩ := C74_ramp (Z := Z) (S := S) (o := o) hv hm
    exact ⟨b, h1, h2, h3⟩
  · intro r m c hv hm
    rw [← e] at hm
    obtain ⟨b, h1, h2, h3, -⟩ := C74_rubber (Z := Z) (S := S) (o := o) hv hm
    exact ⟨b, h1, h2, h3⟩

/-- **C79**: the same in the glTF scene. -/
theorem C79_detail {E : GltfEnv} {fuel : Nat} {o : GltfOptions} {vpx : VPX} {n : UInt32}
    (hd : AsksDetail vpx.gamedata n) :
    (∀ (r : Ramp) (m : GenMesh), o.exportInvisible = true ∨ r.is_visible = true →
      buildRampMesh fuel r ⟨vpx.gamedata.left, vpx.gamedata.top, vpx.gamedata.right, vpx.gamedata.bottom⟩ n
        (((vpx.gamedata.materials.getD []).find? fun m =>
          m.name.map asciiLower == r.material.map asciiLower).any (·.opacity_active)) = .ok (some m) →
      ∃ c x, collectItem E fuel o vpx (.ramp r) = .ok c ∧ c.meshes = [x] ∧ x.vertices = m.vertices ∧
        x.faces = m.tris.map Tri.face) ∧
    (∀ (r : Rubber) (m : GenMesh) (p : Vec3), o.exportInvisible = true ∨ r.is_visible = true →
      buildRubberMesh fuel r n = .ok (some (m, p)) →
      ∃ c x, collectItem E fuel o vpx (.rubber r) = .ok c ∧ c.meshes = [x] ∧ x.vertices = m.vertices ∧
        x.faces = m.tris.map Tri.face) := by
  have e := detail_spec hd
  constructor
  · intro r m hv hm
    rw [← e] at hm
    obtain ⟨c, x, h1, h2, h3, h4, -⟩ := C79_ramp (E := E) (o := o) hv hm
    exact ⟨c, x, h1, h2, h3, h4⟩
  · intro r m p hv hm
    rw [← e] at hm
    obtain ⟨c, x, h1, h2, h3, h4, -⟩ := C79_rubber (E := E) (o := o) hv hm
    exact ⟨c, x, h1, h2, h3, h4⟩

/-- **C83**: the sine of the angle of the tangents of a flipper, which need not be one if the circles of its
ends lie in each other, is limited to -1 to 1 (bits `0xbf800000` and `0x3f800000`). -/
theorem C83_limited (x : F32) :
    (x <ᶠ (0xbf800000 : F32) → clampOne x = 0xbf800000) ∧
    (¬ x <ᶠ (0xbf800000 : F32) → (0x3f800000 : F32) <ᶠ x → clampOne x = 0x3f800000) ∧
    (¬ x <ᶠ (0xbf800000 : F32) → ¬ (0x3f800000 : F32) <ᶠ x → clampOne x = x) := by
  have e : F32.neg f32One = 0xbf800000 := by decide
  have e' : f32One = 0x3f800000 := rfl
  unfold clampOne
  rw [e, e']
  refine ⟨fun h => if_pos h, fun h h' => ?_, fun h h' => ?_⟩
  · rw [if_neg h, if_pos h']
  · rw [if_neg h, if_neg h']

end

theorem f32_nonneg {x : F32} (hx : x.toNat < 0x7f800000) :
    x.isNaN = false ∧ x.isInf = false ∧ x.isNeg = false := by
  have h1 : x.toNat % 0x80000000 = x.toNat := Nat.mod_eq_of_lt (by omega)
  unfold F32.isNaN F32.isInf F32.isNeg
  rw [h1]
  refine ⟨by simp; omega, by simp; omega, by simp; omega⟩

theorem ieeeMul_nonneg {x y : F32} (hx : x.toNat < 0x7f800000) (hy : y.toNat < 0x7f800000) :
    ieeeMul x y = f32OfFrac (x.mag * y.mag) (2 ^ 298) := by
  obtain ⟨h1, h2, h3⟩ := f32_nonneg hx
  obtain ⟨k1, k2, k3⟩ := f32_nonneg hy
  unfold ieeeMul f32Signed
  rw [h1, h2, h3, k1, k2, k3]
  simp only [Bool.or_self, Bool.false_eq_true, if_false, bne_self_eq_false]

/-- the number of sides for a detail of 8 and more -/
def manySides (n : Nat) : Nat := f32AsU32 (ieeeMul (f32OfFrac n 1) f1p3)

theorem sides_mul_mono {n n' : Nat} (h : n ≤ n') (hn : n' < 2 ^ 32) :
    (ieeeMul (f32OfFrac n 1) f1p3).toNat ≤ (ieeeMul (f32OfFrac n' 1) f1p3).toNat := by
  have hp : ∀ n, n < 2 ^ 32 → (f32OfFrac n 1).toNat < 0x7f800000 := by
    intro n hn
    have h1 := f32OfFrac_mono (d := 1) (by decide) (show n ≤ 2 ^ 32 by omega)
    have h2 : (f32OfFrac (2 ^ 32) 1).toNat < 0x7f800000 := by decide +kernel
    omega
  have hq : f1p3.toNat < 0x7f800000 := by decide
  rw [ieeeMul_nonneg (hp n (by omega)) hq, ieeeMul_nonneg (hp n' hn) hq]
  exact f32OfFrac_mono (Nat.pow_pos (by decide)) (Nat.mul_le_mul_right _
    (F32.mag_mono (f32OfFrac_lt _ _) (f32OfFrac_mono (by decide) h)))

theorem sides_mul_lt {n : Nat} (hn : n < 2 ^ 32) : (ieeeMul (f32OfFrac n 1) f1p3).toNat < 0x7f800000 := by
  have h1 := sides_mul_mono (show n ≤ 2 ^ 32 - 1 by omega) (by decide)
  have h2 : (ieeeMul (f32OfFrac (2 ^ 32 - 1) 1) f1p3).toNat < 0x7f800000 := by decide +kernel
  omega

theorem manySides_mono {n n' : Nat} (h : n ≤ n') (hn : n' < 2 ^ 32) : manySides n ≤ manySides n' := by
  obtain ⟨a1, a2, a3⟩ := f32_nonneg (sides_mul_lt (show n < 2 ^ 32 by omega))
  obtain ⟨b1, b2, b3⟩ := f32_nonneg (sides_mul_lt hn)
  unfold manySides f32AsU32
  rw [a1, a2, a3, b1, b2, b3]
  simp only [Bool.or_self, Bool.false_eq_true, if_false]
  have h1 := sides_mul_lt hn
  have := Nat.div_le_div_right (c := 2 ^ 149)
    (F32.mag_mono (Nat.lt_trans h1 (by decide)) (sides_mul_mono h hn))
  exact Nat.le_min.2 ⟨Nat.min_le_left _ _, Nat.le_trans (Nat.min_le_right _ _) this⟩

theorem manySides_8 : manySides 8 = 10 := by decide +kernel
theorem manySides_9 : manySides 9 = 11 := by decide +kernel
theorem manySides_10 : manySides 10 = 13 := by decide +kernel

theorem ringSegments_ieee (sin cos : F32 → F32) (pow : F32 → F32 → F32) (d : UInt32) :
    @ringSegments (ieee sin cos pow) d false =
      if d.toNat < 5 then 6 else if d.toNat < 8 then 8 else manySides d.toNat := by
  unfold ringSegments manySides
  have h5 : d < 5 ↔ d.toNat < 5 := UInt32.lt_iff_toNat_lt
  have h8 : d < 8 ↔ d.toNat < 8 := UInt32.lt_iff_toNat_lt
  simp only [Bool.false_eq_true, if_false, h5, h8]
  congr 2

/-- **C67**, **C64**: the number of sides of wires and rubbers, with IEEE numbers: 12 if they are rendered
once, otherwise 6 below detail 5, 8 below 8, and 10, 11 and 13 at 8, 9 and 10. It is never less than 6, and
more detail never makes it less. -/
theorem C67_segments (sin cos : F32 → F32) (pow : F32 → F32 → F32) (d : UInt32) :
    letI := ieee sin cos pow
    ringSegments d true = 12 ∧
    (d.toNat < 5 → ringSegments d false = 6) ∧
    (5 ≤ d.toNat → d.toNat < 8 → ringSegments d false = 8) ∧
    (d.toNat = 8 → ringSegments d false = 10) ∧ (d.toNat = 9 → ringSegments d false = 11) ∧
    (d.toNat = 10 → ringSegments d false = 13) ∧
    (∀ static, 6 ≤ ringSegments d static) ∧
    (∀ d' : UInt32, d.toNat ≤ d'.toNat → ringSegments d false ≤ ringSegments d' false) := by
  have hd := d.toNat_lt
  have hmany : ∀ d : UInt32, ¬ d.toNat < 8 → 10 ≤ manySides d.toNat := by
    intro d h
    have := manySides_mono (show 8 ≤ d.toNat by omega) d.toNat_lt
    rw [manySides_8] at this
    exact this
  refine ⟨rfl, ?_, ?_, ?_, ?_, ?_, ?_, ?_⟩
  · intro h; rw [ringSegments_ieee, if_pos h]
  · intro h h'; rw [ringSegments_ieee, if_neg (by omega), if_pos h']
  · intro h; rw [ringSegments_ieee, h]; exact manySides_8
  · intro h; rw [ringSegments_ieee, h]; exact manySides_9
  · intro h; rw [ringSegments_ieee, h]; exact manySides_10
  · intro static
    cases static
    · rw [ringSegments_ieee]
      have := hmany d
      generalize manySides d.toNat = k at *
      split <;> [omega; (split <;> omega)]
    · exact (by decide : 6 ≤ 12)
  · intro d' h
    rw [ringSegments_ieee, ringSegments_ieee]
    have h1 := manySides_mono h d'.toNat_lt
    have h2 := hmany d'
    generalize manySides d.toNat = k at *
    generalize manySides d'.toNat = k' at *
    split <;> split <;> (try split) <;> (try split) <;> omega

/-- **C19**: the limits of the values in a legacy material: what lies between them is kept, what is below
becomes the lower and what is above the upper one, 1. (`F32.val` is the number in units of `2^-149`.) -/
theorem C19_limits {lo x : F32} (hlo : lo.toNat ≤ 0x3f800000) (hx : x.isNaN = false) :
    (lo.val ≤ x.val → x.val ≤ (0x3f800000 : F32).val → (f32Clamp lo 0x3f800000 x).val = x.val) ∧
    (x.val < lo.val → f32Clamp lo 0x3f800000 x = lo) ∧
    ((0x3f800000 : F32).val < x.val → f32Clamp lo 0x3f800000 x = 0x3f800000) := by
  have hhi : (0x3f800000 : F32).toNat = 0x3f800000 := rfl
  have hval : ∀ {y : F32}, y.toNat < 0x80000000 → y.val = y.mag := by
    intro y hy
    unfold F32.val F32.isNeg
    rw [if_neg (by simp; omega)]
  have hlv := hval (y := lo) (by omega)
  have hhv := hval (y := 0x3f800000) (by omega)
  unfold f32Clamp
  rw [hx]
  simp only [Bool.false_eq_true, if_false]
  by_cases hn : x.isNeg = true
  · have hxv : x.val = -(x.mag : Int) := by unfold F32.val; rw [if_pos hn]
    rw [if_pos hn, hxv, hlv, hhv]
    refine ⟨fun h _ => ?_, fun h => ?_, fun h => by omega⟩
    · split
      · rw [hxv]
      · rw [hlv]; omega
    · rw [if_neg]
      rintro ⟨h1, rfl⟩
      have : (0 : F32).mag = 0 := by decide
      omega
  · have hxl : x.toNat < 0x80000000 := by
      unfold F32.isNeg at hn
      simpa using hn
    have hxv := hval hxl
    rw [if_neg hn, hxv, hlv, hhv]
    have h1 : x < lo ↔ x.toNat < lo.toNat := UInt32.lt_iff_toNat_lt
    have h2 : x > 0x3f800000 ↔ 0x3f800000 < x.toNat := UInt32.lt_iff_toNat_lt
    refine ⟨fun h h' => ?_, fun h => ?_, fun h => ?_⟩
    · split
      · next a =>
        have a := h1.1 a
        have := F32.mag_mono (x := x) (y := lo) (by omega) (by omega)
        rw [hlv]; omega
      · split
        · next a =>
          have a := h2.1 a
          have := F32.mag_mono (x := 0x3f800000) (y := x) hxl (by omega)
          rw [hhv]; omega
        · exact hxv
    · rw [if_pos]
      refine h1.2 (Nat.lt_of_not_le fun a => ?_)
      have := F32.mag_mono hxl a
      omega
    · have a : 0x3f800000 < x.toNat := Nat.lt_of_not_le fun a => by
        have := F32.mag_mono (x := x) (y := 0x3f800000) (by omega) (by omega)
        omega
      rw [if_neg (by rw [h1]; omega), if_pos (h2.2 a)]

/-! ### The hypotheses are met -/

/-- a table that overrides the level of detail asks for its own, here 7 -/
example (g : GameData) : AsksDetail { g with overwrite_global_detail_level := some true, user_detail_level := some 7 } 7 :=
  .inl ⟨rfl, rfl⟩

/-- a table that does not asks for 10 whatever its own is -/
example (g : GameData) : AsksDetail { g with overwrite_global_detail_level := some false, user_detail_level := some 7 } 10 :=
  .inr (.inr ⟨by simp, rfl⟩)

/-- 0.03 as a thickness becomes 0.05, and 2 becomes 1 -/
example : f32Clamp 0x3d4ccccd 0x3f800000 0x3cf5c28f = 0x3d4ccccd ∧ f32Clamp 0x3d4ccccd 0x3f800000 0x40000000 = 0x3f800000 :=
  ⟨(C19_limits (by decide) (by decide)).2.1 (by decide +kernel), (C19_limits (by decide) (by decide)).2.2 (by decide +kernel)⟩

/-- -2, 2 and 0.5 as sines -/
example :
    letI := ieeeExact
    clampOne 0xc0000000 = 0xbf800000 ∧ clampOne 0x40000000 = 0x3f800000 ∧ clampOne 0x3f000000 = 0x3f000000 := by
  decide +kernel

end Vpin
