import Verif.Props.RoundingParts
import Verif.Model.ItemMesh
/-! C96, continued: the tables of the code, and what the bounds come to on a table of ordinary size. -/
namespace Vpin
open Rounding Geometry

/-- the numbers of a packed vertex, apart from the texture coordinates: the position at most the number of the bit pattern
`b`, the normal at most one -/
def packedBox (b : Nat) (vs : List Nat) : Bool :=
  vs.all fun n =>
    decide (n / 2 ^ 224 % 2 ^ 31 ≤ b) && decide (n / 2 ^ 192 % 2 ^ 31 ≤ b) && decide (n / 2 ^ 160 % 2 ^ 31 ≤ b) &&
    decide (n / 2 ^ 128 % 2 ^ 31 ≤ 0x3f800000) && decide (n / 2 ^ 96 % 2 ^ 31 ≤ 0x3f800000) &&
    decide (n / 2 ^ 64 % 2 ^ 31 ≤ 0x3f800000)

theorem atMost_of_bits {x : F32} {b : Nat} {m : ℕ} (h : x.toNat % 0x80000000 ≤ b) (hb : b < 0x7f800000)
    (hm : bitsMag 0x800000 b ≤ m * 2 ^ 149) : AtMost m x := by
  refine ⟨by unfold F32.isFinite; exact decide_eq_true (by omega), ?_⟩
  rw [abs_value, F32.mag_eq]
  have h1 := (bitsMag_mono (by norm_num) h).trans hm
  rw [div_le_iff₀ (by positivity)]
  exact_mod_cast h1

theorem packed_box {vs ts : List Nat} {b m : Nat} (hb : b < 0x7f800000) (hm : bitsMag 0x800000 b ≤ m * 2 ^ 149)
    (h : packedBox b vs = true) : TableIn m (unpackTable vs ts) ∧ NormalsIn (unpackTable vs ts) := by
  have one : bitsMag 0x800000 0x3f800000 ≤ 1 * 2 ^ 149 := by decide +kernel
  have get : ∀ v ∈ (unpackTable vs ts).vertices, InBox m v.pos ∧ InBox (1 : ℕ) v.normal := by
    intro v hv
    obtain ⟨n, hn, rfl⟩ := List.mem_map.mp hv
    have h := List.all_eq_true.mp h n hn
    simp only [Bool.and_eq_true, decide_eq_true_eq] at h
    obtain ⟨⟨⟨⟨⟨h1, h2⟩, h3⟩, h4⟩, h5⟩, h6⟩ := h
    have low : ∀ k, (UInt32.ofNat (n / 2 ^ k)).toNat % 0x80000000 = n / 2 ^ k % 2 ^ 31 := fun k => by
      rw [UInt32.toNat_ofNat']
      omega
    refine ⟨⟨atMost_of_bits ((low 224).le.trans h1) hb hm, atMost_of_bits ((low 192).le.trans h2) hb hm,
      atMost_of_bits ((low 160).le.trans h3) hb hm⟩, atMost_of_bits ((low 128).le.trans h4) (by norm_num) one,
      atMost_of_bits ((low 96).le.trans h5) (by norm_num) one, atMost_of_bits ((low 64).le.trans h6) (by norm_num) one⟩
  refine ⟨fun v hv => (get v hv).1, fun v hv => ?_⟩
  have := (get v hv).2
  rwa [Nat.cast_one] at this

theorem small_table {vs ts : List Nat} (h : packedBox 0x40000000 vs = true) :
    TableIn 2 (unpackTable vs ts) ∧ NormalsIn (unpackTable vs ts) := by
  have := packed_box (m := 2) (ts := ts) (by norm_num) (by decide +kernel) h
  rwa [Nat.cast_ofNat] at this

/-- what is shown of a table -/
def Rounding.SmallTable (t : MeshTable) : Prop := TableIn 2 t ∧ NormalsIn t

theorem bumperBase_small : SmallTable bumperBaseTable := small_table (by decide +kernel)
theorem bumperSocket_small : SmallTable bumperSocketTable := small_table (by decide +kernel)
theorem bumperRing_small : SmallTable bumperRingTable := small_table (by decide +kernel)
theorem bumperCap_small : SmallTable bumperCapTable := small_table (by decide +kernel)
theorem gateBracket_small : SmallTable gateBracketTable := small_table (by decide +kernel)
theorem gateWire_small : SmallTable gateWireTable := small_table (by decide +kernel)
theorem gateWireRectangle_small : SmallTable gateWireRectangleTable := small_table (by decide +kernel)
theorem gatePlate_small : SmallTable gatePlateTable := small_table (by decide +kernel)
theorem gateLongPlate_small : SmallTable gateLongPlateTable := small_table (by decide +kernel)
theorem dropTargetT2_small : SmallTable dropTargetT2Table := small_table (by decide +kernel)
theorem dropTargetT3_small : SmallTable dropTargetT3Table := small_table (by decide +kernel)
theorem dropTargetT4_small : SmallTable dropTargetT4Table := small_table (by decide +kernel)
theorem hitTargetRound_small : SmallTable hitTargetRoundTable := small_table (by decide +kernel)
theorem hitTargetRectangle_small : SmallTable hitTargetRectangleTable := small_table (by decide +kernel)
theorem hitTargetFatRectangle_small : SmallTable hitTargetFatRectangleTable := small_table (by decide +kernel)
theorem hitTargetFatSquare_small : SmallTable hitTargetFatSquareTable := small_table (by decide +kernel)
theorem hitTargetT1Slim_small : SmallTable hitTargetT1SlimTable := small_table (by decide +kernel)
theorem hitTargetT2Slim_small : SmallTable hitTargetT2SlimTable := small_table (by decide +kernel)
theorem kickerPlate_small : SmallTable kickerPlateTable := small_table (by decide +kernel)
theorem kickerCup_small : SmallTable kickerCupTable := small_table (by decide +kernel)
theorem kickerWilliams_small : SmallTable kickerWilliamsTable := small_table (by decide +kernel)
theorem kickerGottlieb_small : SmallTable kickerGottliebTable := small_table (by decide +kernel)
theorem kickerT1_small : SmallTable kickerT1Table := small_table (by decide +kernel)
theorem kickerHole_small : SmallTable kickerHoleTable := small_table (by decide +kernel)
theorem kickerSimpleHole_small : SmallTable kickerSimpleHoleTable := small_table (by decide +kernel)
theorem spinnerBracket_small : SmallTable spinnerBracketTable := small_table (by decide +kernel)
theorem spinnerPlate_small : SmallTable spinnerPlateTable := small_table (by decide +kernel)
theorem triggerStar_small : SmallTable triggerStarTable := small_table (by decide +kernel)
theorem triggerButton_small : SmallTable triggerButtonTable := small_table (by decide +kernel)
theorem ball_small : SmallTable ballTable := small_table (by decide +kernel)
theorem bulbLight_small : SmallTable bulbLightTable := small_table (by decide +kernel)
theorem bulbSocket_small : SmallTable bulbSocketTable := small_table (by decide +kernel)

/-- **C96**: in every table of the code, except the three of the wires of triggers, no coordinate is larger than 2 and no
coordinate of a normal is larger than 1. -/
theorem C96_tables :
    let M := meshTables
    (SmallTable M.bumperBase ∧ SmallTable M.bumperSocket ∧ SmallTable M.bumperRing ∧ SmallTable M.bumperCap) ∧
    (SmallTable M.gateBracket ∧ ∀ g, SmallTable (M.gate g)) ∧ (∀ h, SmallTable (M.hitTarget h)) ∧
    (SmallTable M.kickerPlate ∧ ∀ [Arith] (k : Kicker), SmallTable (kickerBody M k).1) ∧
    (SmallTable M.spinnerBracket ∧ SmallTable M.spinnerPlate) ∧ (SmallTable M.triggerStar ∧ SmallTable M.triggerButton) ∧
    SmallTable M.ball ∧ SmallTable M.bulbLight ∧ SmallTable M.bulbSocket := by
  refine ⟨⟨bumperBase_small, bumperSocket_small, bumperRing_small, bumperCap_small⟩, ⟨gateBracket_small, fun g => ?_⟩,
    fun h => ?_, ⟨kickerPlate_small, fun k => ?_⟩, ⟨spinnerBracket_small, spinnerPlate_small⟩,
    ⟨triggerStar_small, triggerButton_small⟩, ball_small, bulbLight_small, bulbSocket_small⟩
  · cases g
    · exact gateWire_small
    · exact gateWireRectangle_small
    · exact gatePlate_small
    · exact gateLongPlate_small
    · exact gateWire_small
  · cases h
    · exact dropTargetT2_small
    · exact dropTargetT3_small
    · exact hitTargetRound_small
    · exact hitTargetRectangle_small
    · exact hitTargetFatRectangle_small
    · exact hitTargetFatSquare_small
    · exact dropTargetT4_small
    · exact hitTargetT2Slim_small
    · exact hitTargetT1Slim_small
  · unfold kickerBody
    cases k.kicker_type
    · exact kickerSimpleHole_small
    · exact kickerHole_small
    · exact kickerCup_small
    · exact kickerSimpleHole_small
    · exact kickerWilliams_small
    · exact kickerGottlieb_small
    · exact kickerT1_small

theorem Rounding.Follows.wider {e e' : ℝ} {m : RawMesh} {t : MeshTable} {f : V3 ℝ → V3 ℝ} (h : Follows e m t f)
    (he : e ≤ e') : Follows e' m t f :=
  h.imp fun _ _ ⟨a, b, c, d⟩ => ⟨a, b.trans he, c.trans he, d.trans he⟩

variable {sin cos : F32 → F32} {pow : F32 → F32 → F32}

/-- **C96**: on a table of ordinary size no rounding can be seen. If the sizes of an item are at most 1000 units and its
angle at most one full turn, then every vertex of its mesh is less than a fiftieth of a unit away, in every direction, from
where it should be. (A ball has a radius of 25 units.) -/
theorem C96_invisible (T : CloseTrig sin cos) :
    letI := ieee sin cos pow
    let M := meshTables
    (∀ b : Ball, AtMost 1000 b.radius →
      Follows (1 / 50) (buildBallMesh M b) M.ball (stretch ⟨value b.radius, value b.radius, value b.radius⟩)) ∧
    (∀ b : Bumper, AtMost 360 b.orientation → AtMost 1000 b.radius → AtMost 1000 b.height_scale →
      let r := value b.radius
      let h := value b.height_scale
      let turn := turnedBy (value b.orientation)
      (∀ m, (buildBumperMeshes M b).base = some m →
        Follows (1 / 50) m M.bumperBase fun p => stretch ⟨r, r, h⟩ (turn p)) ∧
      (∀ m, (buildBumperMeshes M b).ring = some m →
        Follows (1 / 50) m M.bumperRing fun p => stretch ⟨r, r, h⟩ (turn p)) ∧
      (∀ m, (buildBumperMeshes M b).socket = some m →
        Follows (1 / 50) m M.bumperSocket fun p => move ⟨0, 0, 5⟩ (stretch ⟨r, r, h⟩ (turn p))) ∧
      (∀ m, (buildBumperMeshes M b).cap = some m →
        Follows (1 / 50) m M.bumperCap fun p => move ⟨0, 0, h⟩ (stretch ⟨2 * r, 2 * r, h⟩ (turn p)))) ∧
    (∀ (h : HitTarget) (m : RawMesh), AtMost 360 h.rot_z → AtMost 1000 h.size.x → AtMost 1000 h.size.y →
      AtMost 1000 h.size.z → buildHitTargetMesh M h = some m →
      Follows (1 / 50) m (M.hitTarget h.target_type) fun p =>
        turnedBy (value h.rot_z) (stretch ⟨value h.size.x, value h.size.y, value h.size.z⟩ p)) ∧
    (∀ (k : Kicker) (m : RawMesh), AtMost 360 k.orientation → AtMost 1000 k.radius → (buildKickerMeshes M k).2 = some m →
      let r := value k.radius
      Follows (1 / 50) m (kickerBody M k).1 fun p =>
        stretch ⟨r, r, r⟩ (turnedBy (bodyAngle k) (move ⟨0, 0, cupOffset k.kicker_type⟩ p))) := by
  obtain ⟨⟨t1, t2, t3, t4⟩, -, t5, ⟨-, t6⟩, -, -, t7, -⟩ := C96_tables
  have hV : (1 : ℝ) ≤ 2 := by norm_num
  have hR : (1 : ℝ) ≤ 1000 := by norm_num
  have hVR : (2 : ℝ) * 1000 ≤ 2 ^ 90 := by norm_num
  have turn : ∀ {x : F32}, AtMost 360 x → AtMost (360 * ((1 : ℕ) : ℝ)) x := fun h => by
    rw [Nat.cast_one, mul_one]; exact h
  refine ⟨fun b hb => ?_, ?_, fun h m ha hx hy hz hm => ?_, ?_⟩
  · exact ((C96_scaled (sin := sin) (cos := cos) (pow := pow) meshTables hV hR (by norm_num)).1 b hb t7.1).wider
      (by norm_num)
  · intro b ha hr hh r h turn'
    obtain ⟨h1, h2, h3, h4⟩ := C96_bumper (pow := pow) meshTables T hV hR hVR le_rfl (by norm_num) b (turn ha) hr hh
    exact ⟨fun m hm => (h1 m hm t1.1).wider (by norm_num), fun m hm => (h2 m hm t3.1).wider (by norm_num),
      fun m hm => (h3 m hm t2.1).wider (by norm_num), fun m hm => (h4 m hm t4.1).wider (by norm_num)⟩
  · exact (C96_hit_target (pow := pow) meshTables T hV hR hVR le_rfl (by norm_num) h (turn ha) hx hy hz (t5 _).1 m hm).wider
      (by norm_num)
  · intro k m ha hr hm r
    exact ((C96_kicker (pow := pow) meshTables T hV hR hVR le_rfl (by norm_num) k (turn ha) hr).2 m hm
      (@t6 (ieee sin cos pow) k).1).wider
      (by norm_num)

/-! ### Cases that meet the hypotheses -/

/-- a hit target turned by 30 degrees, 32 units in size -/
def turnedTarget : HitTarget :=
  { HitTarget.default with rot_z := 0x41f00000, size := ⟨0x42000000, 0x42000000, 0x42000000⟩, is_visible := true }

example : AtMost (360 : ℕ) turnedTarget.rot_z ∧ AtMost (1000 : ℕ) turnedTarget.size.x ∧
    (@buildHitTargetMesh (ieee id id fun x _ => x) meshTables turnedTarget).isSome :=
  ⟨atMost_of_bits (b := 0x41f00000) (by decide +kernel) (by norm_num) (by decide +kernel),
    atMost_of_bits (b := 0x42000000) (by decide +kernel) (by norm_num) (by decide +kernel), rfl⟩

/-- a bumper turned by 30 degrees, with all its parts -/
def turnedBumper : Bumper :=
  { Bumper.default with
    orientation := 0x41f00000, radius := 0x42340000, height_scale := 0x42b40000
    is_cap_visible := true, is_base_visible := true }

example : AtMost (360 : ℕ) turnedBumper.orientation ∧ AtMost (1000 : ℕ) turnedBumper.radius ∧
    AtMost (1000 : ℕ) turnedBumper.height_scale ∧
    (@buildBumperMeshes (ieee id id fun x _ => x) meshTables turnedBumper).cap.isSome ∧
    (@buildBumperMeshes (ieee id id fun x _ => x) meshTables turnedBumper).base.isSome :=
  ⟨atMost_of_bits (b := 0x41f00000) (by decide +kernel) (by norm_num) (by decide +kernel),
    atMost_of_bits (b := 0x42340000) (by decide +kernel) (by norm_num) (by decide +kernel),
    atMost_of_bits (b := 0x42b40000) (by decide +kernel) (by norm_num) (by decide +kernel), rfl, rfl⟩

/-- a kicker of the type that is turned by 90 degrees more -/
def turnedKicker : Kicker := { Kicker.default with kicker_type := .Williams, orientation := 0x41f00000, radius := 0x41c80000 }

example : AtMost (360 : ℕ) turnedKicker.orientation ∧ AtMost (1000 : ℕ) turnedKicker.radius ∧
    (@buildKickerMeshes (ieee id id fun x _ => x) meshTables turnedKicker).2.isSome :=
  ⟨atMost_of_bits (b := 0x41f00000) (by decide +kernel) (by norm_num) (by decide +kernel),
    atMost_of_bits (b := 0x41c80000) (by decide +kernel) (by norm_num) (by decide +kernel), rfl⟩

/-- a primitive turned about all three axes, twice -/
def turnedPrimitive : Primitive :=
  { Primitive.default with
    position := { Primitive.default.position with x := 0x43fa0000, y := 0x447a0000, z := 0x41a00000 }
    size := { Primitive.default.size with x := 0x42c80000, y := 0x42c80000, z := 0x42c80000 }
    rot_and_tra0 := 0x41f00000, rot_and_tra1 := 0x42340000, rot_and_tra2 := 0x42b40000, rot_and_tra3 := 0x41200000
    rot_and_tra4 := 0x41200000, rot_and_tra5 := 0x41200000, rot_and_tra6 := 0x41f00000, rot_and_tra7 := 0x42340000
    rot_and_tra8 := 0x42b40000 }

example : InBox (1000 : ℕ) ⟨turnedPrimitive.position.x, turnedPrimitive.position.y, turnedPrimitive.position.z⟩ ∧
    InBox (100 : ℕ) ⟨turnedPrimitive.size.x, turnedPrimitive.size.y, turnedPrimitive.size.z⟩ ∧
    AtMost (360 : ℕ) turnedPrimitive.rot_and_tra0 ∧ AtMost (10 : ℕ) turnedPrimitive.rot_and_tra3 :=
  ⟨⟨atMost_of_bits (b := 0x447a0000) (by decide +kernel) (by norm_num) (by decide +kernel),
      atMost_of_bits (b := 0x447a0000) (by decide +kernel) (by norm_num) (by decide +kernel),
      atMost_of_bits (b := 0x447a0000) (by decide +kernel) (by norm_num) (by decide +kernel)⟩,
    ⟨atMost_of_bits (b := 0x42c80000) (by decide +kernel) (by norm_num) (by decide +kernel),
      atMost_of_bits (b := 0x42c80000) (by decide +kernel) (by norm_num) (by decide +kernel),
      atMost_of_bits (b := 0x42c80000) (by decide +kernel) (by norm_num) (by decide +kernel)⟩,
    atMost_of_bits (b := 0x41f00000) (by decide +kernel) (by norm_num) (by decide +kernel),
    atMost_of_bits (b := 0x41200000) (by decide +kernel) (by norm_num) (by decide +kernel)⟩

/-- a tenth plus two tenths is not three tenths, but no number is closer to the sum -/
example : Rounds (ieeeAdd 0x3dcccccd 0x3e4ccccd) (value 0x3dcccccd + value 0x3e4ccccd) ∧
    ieeeAdd 0x3dcccccd 0x3e4ccccd = 0x3e99999a := by
  refine ⟨add_rounds (by decide +kernel) (by decide +kernel) ?_, by decide +kernel⟩
  have h1 : AtMost (1 : ℕ) 0x3dcccccd := atMost_of_bits (b := 0x3dcccccd) (by decide +kernel) (by norm_num) (by decide +kernel)
  have h2 : AtMost (1 : ℕ) 0x3e4ccccd := atMost_of_bits (b := 0x3e4ccccd) (by decide +kernel) (by norm_num) (by decide +kernel)
  have := abs_add_le (value 0x3dcccccd) (value 0x3e4ccccd)
  have a := h1.2
  have b := h2.2
  rw [Nat.cast_one] at a b
  linarith [show (2 : ℝ) ≤ 2 ^ 127 by norm_num]

end Vpin
