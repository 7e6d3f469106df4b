import Verif.Model.ItemMesh
/-
The tables of /repo: their triangles use vertices of the table. The kernel goes through all of them.
-/
namespace Vpin

/-- the corners of the triangles are vertices of the table -/
def MeshTable.Inside (t : MeshTable) : Prop :=
  ∀ x ∈ t.tris, x.1 < t.vertices.length ∧ x.2.1 < t.vertices.length ∧ x.2.2 < t.vertices.length

/-- the same of the packed form, to be computed -/
def packedInside (k : Nat) (tris : List Nat) : Bool :=
  tris.all fun n => decide (n / 2 ^ 32 < k) && decide (n / 2 ^ 16 % 2 ^ 16 < k) && decide (n % 2 ^ 16 < k)

theorem unpack_inside {vs ts : List Nat} (k : Nat) (h1 : vs.length = k) (h2 : packedInside k ts = true) :
    (unpackTable vs ts).Inside := by
  intro x hx
  obtain ⟨n, hn, rfl⟩ := List.mem_map.mp hx
  have h := List.all_eq_true.mp h2 n hn
  simp only [Bool.and_eq_true, decide_eq_true_eq] at h
  obtain ⟨⟨a, b⟩, c⟩ := h
  simp only [unpackTable, List.length_map, h1]
  exact ⟨a, b, c⟩

theorem ball_inside : ballTable.Inside :=
  unpack_inside 181 (by decide +kernel) (by decide +kernel)

theorem bumperBase_inside : bumperBaseTable.Inside :=
  unpack_inside 517 (by decide +kernel) (by decide +kernel)

theorem bumperCap_inside : bumperCapTable.Inside :=
  unpack_inside 839 (by decide +kernel) (by decide +kernel)

theorem bumperRing_inside : bumperRingTable.Inside :=
  unpack_inside 481 (by decide +kernel) (by decide +kernel)

theorem bumperSocket_inside : bumperSocketTable.Inside :=
  unpack_inside 482 (by decide +kernel) (by decide +kernel)

theorem flipperBase_inside : flipperBaseTable.Inside :=
  unpack_inside 104 (by decide +kernel) (by decide +kernel)

theorem gateBracket_inside : gateBracketTable.Inside :=
  unpack_inside 184 (by decide +kernel) (by decide +kernel)

theorem gateLongPlate_inside : gateLongPlateTable.Inside :=
  unpack_inside 62 (by decide +kernel) (by decide +kernel)

theorem gatePlate_inside : gatePlateTable.Inside :=
  unpack_inside 70 (by decide +kernel) (by decide +kernel)

theorem gateWire_inside : gateWireTable.Inside :=
  unpack_inside 186 (by decide +kernel) (by decide +kernel)

theorem gateWireRectangle_inside : gateWireRectangleTable.Inside :=
  unpack_inside 144 (by decide +kernel) (by decide +kernel)

theorem dropTargetT2_inside : dropTargetT2Table.Inside :=
  unpack_inside 88 (by decide +kernel) (by decide +kernel)

theorem dropTargetT3_inside : dropTargetT3Table.Inside :=
  unpack_inside 36 (by decide +kernel) (by decide +kernel)

theorem dropTargetT4_inside : dropTargetT4Table.Inside :=
  unpack_inside 68 (by decide +kernel) (by decide +kernel)

theorem hitTargetFatRectangle_inside : hitTargetFatRectangleTable.Inside :=
  unpack_inside 302 (by decide +kernel) (by decide +kernel)

theorem hitTargetFatSquare_inside : hitTargetFatSquareTable.Inside :=
  unpack_inside 302 (by decide +kernel) (by decide +kernel)

theorem hitTargetRectangle_inside : hitTargetRectangleTable.Inside :=
  unpack_inside 161 (by decide +kernel) (by decide +kernel)

theorem hitTargetRound_inside : hitTargetRoundTable.Inside :=
  unpack_inside 209 (by decide +kernel) (by decide +kernel)

theorem hitTargetT1Slim_inside : hitTargetT1SlimTable.Inside :=
  unpack_inside 145 (by decide +kernel) (by decide +kernel)

theorem hitTargetT2Slim_inside : hitTargetT2SlimTable.Inside :=
  unpack_inside 302 (by decide +kernel) (by decide +kernel)

theorem kickerCup_inside : kickerCupTable.Inside :=
  unpack_inside 373 (by decide +kernel) (by decide +kernel)

theorem kickerGottlieb_inside : kickerGottliebTable.Inside :=
  unpack_inside 2333 (by decide +kernel) (by decide +kernel)

theorem kickerHole_inside : kickerHoleTable.Inside :=
  unpack_inside 192 (by decide +kernel) (by decide +kernel)

theorem kickerPlate_inside : kickerPlateTable.Inside :=
  unpack_inside 49 (by decide +kernel) (by decide +kernel)

theorem kickerSimpleHole_inside : kickerSimpleHoleTable.Inside :=
  unpack_inside 42 (by decide +kernel) (by decide +kernel)

theorem kickerT1_inside : kickerT1Table.Inside :=
  unpack_inside 657 (by decide +kernel) (by decide +kernel)

theorem kickerWilliams_inside : kickerWilliamsTable.Inside :=
  unpack_inside 1243 (by decide +kernel) (by decide +kernel)

theorem bulbLight_inside : bulbLightTable.Inside :=
  unpack_inside 67 (by decide +kernel) (by decide +kernel)

theorem bulbSocket_inside : bulbSocketTable.Inside :=
  unpack_inside 592 (by decide +kernel) (by decide +kernel)

theorem spinnerBracket_inside : spinnerBracketTable.Inside :=
  unpack_inside 152 (by decide +kernel) (by decide +kernel)

theorem spinnerPlate_inside : spinnerPlateTable.Inside :=
  unpack_inside 228 (by decide +kernel) (by decide +kernel)

theorem triggerButton_inside : triggerButtonTable.Inside :=
  unpack_inside 528 (by decide +kernel) (by decide +kernel)

theorem triggerInder_inside : triggerInderTable.Inside :=
  unpack_inside 152 (by decide +kernel) (by decide +kernel)

theorem triggerSimple_inside : triggerSimpleTable.Inside :=
  unpack_inside 49 (by decide +kernel) (by decide +kernel)

theorem triggerStar_inside : triggerStarTable.Inside :=
  unpack_inside 231 (by decide +kernel) (by decide +kernel)

theorem triggerWireD_inside : triggerWireDTable.Inside :=
  unpack_inside 203 (by decide +kernel) (by decide +kernel)

end Vpin
