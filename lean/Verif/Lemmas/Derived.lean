import Verif.Lemmas.ExpandedRead
import Verif.Spec.Derived
/-
The files with derived meshes: their names, and that they are the ones of `Derives`.
-/
namespace Vpin

theorem toVpx_bytes (v : Vertex) : v.toVpx = v.bytes := by
  unfold Vertex.toVpx Vertex.bytes
  simp

theorem trimJson_type {item : GameItemEnum} : trimJson (item.type_name ++ ".json".toList) = item.type_name := by
  unfold trimJson
  have e : (item.type_name ++ ".json".toList).reverse = 'n' :: 'o' :: 's' :: 'j' :: '.' :: item.type_name.reverse := by
    rw [List.reverse_append]; rfl
  rw [e, trimJsonRev]
  rcases trimJsonRev_cases item.type_name.reverse with h | ⟨rest, h⟩
  · rw [h, List.reverse_reverse]
  · have : '.' ∈ item.type_name.reverse := by rw [h]; simp
    exact absurd (List.mem_reverse.1 this) (type_no_dot item)

/-- a stem loses `.json` only if that is all of its name -/
theorem StemOf.trim {U : Unicode} {n : Str} {item : GameItemEnum} (h : StemOf U n item) :
    trimJson n = n ∨ n = item.type_name ++ ".json".toList ∧ trimJson n = item.type_name := by
  by_cases hj : ∃ a, n = a ++ ".json".toList
  · obtain ⟨a, ha⟩ := hj
    obtain ⟨r, e, h1, -, -⟩ := h.shape
    have e2 : item.type_name ++ '.' :: r = a ++ '.' :: "json".toList := by rw [← e, ha]; rfl
    obtain ⟨-, hr⟩ := cut_unique e2 h1 (by decide)
    have e3 : n = item.type_name ++ ".json".toList := by rw [e, hr]; rfl
    exact .inr ⟨e3, by rw [e3, trimJson_type]⟩
  · exact .inl (trimJson_of_not fun a ha => hj ⟨a, ha⟩)

/-- the parts of the names of files behind the stem -/
def derivedEnds : GameItemEnum → List Str
  | .wall _ | .ramp _ | .rubber _ | .flasher _ | .flipper _ | .hitTarget _ | .trigger _ => ["-generated".toList]
  | .spinner _ => ["-bracket-generated".toList, "-plate-generated".toList]
  | .bumper _ => ["-base.json-generated".toList, "-socket.json-generated".toList, "-ring.json-generated".toList,
      "-cap.json-generated".toList]
  | .gate _ => ["-bracket.json-generated".toList, "-wire.json-generated".toList]
  | .plunger _ => ["-flat.json-generated".toList, "-rod.json-generated".toList, "-spring.json-generated".toList,
      "-ring.json-generated".toList, "-tip.json-generated".toList]
  | .light _ => ["-bulb".toList, "-socket".toList]
  | _ => []

/-- what the names begin with -/
def derivedBase (stem : Str) : GameItemEnum → Str
  | .spinner _ | .bumper _ | .gate _ | .plunger _ | .light _ => trimJson stem
  | _ => stem

theorem derivedEnds_nodup (item : GameItemEnum) : (derivedEnds item).Nodup := by
  cases item <;> simp only [derivedEnds] <;> decide +kernel

theorem derivedEnds_shape (item : GameItemEnum) : ∀ s ∈ derivedEnds item, s.head? = some '-' ∧ '/' ∉ s := by
  cases item <;> simp only [derivedEnds] <;> decide +kernel

theorem wholeMesh_stems (stem name : Str) (m : Option Mesh) :
    ((wholeMesh stem name m).map (·.stem)).Sublist [stem ++ "-generated".toList] := by
  cases m with
  | none => exact List.nil_sublist _
  | some m => exact List.Sublist.refl _

theorem partOf_stems (stem name : Str) (file object : String) (m : Option RawMesh) :
    ((partOf stem name file object m).map (·.stem)).Sublist
      [trimJson stem ++ (file.toList ++ ".json-generated".toList)] := by
  cases m with
  | none => exact List.nil_sublist _
  | some m =>
    have : (partOf stem name file object (some m)).map (·.stem)
        = [trimJson stem ++ (file.toList ++ ".json-generated".toList)] := by
      show [generatedStem _] = _
      unfold generatedStem
      rw [List.append_assoc, List.append_assoc]
      rfl
    rw [this]
    exact List.Sublist.refl _

theorem spinnerPart_stems (stem name : Str) (file object : String) (m : Option RawMesh) :
    ((spinnerPart stem name file object m).map (·.stem)).Sublist
      [trimJson stem ++ (file.toList ++ "-generated".toList)] := by
  cases m with
  | none => exact List.nil_sublist _
  | some m =>
    have : (spinnerPart stem name file object (some m)).map (·.stem)
        = [trimJson stem ++ (file.toList ++ "-generated".toList)] := by
      show [generatedStem _] = _
      unfold generatedStem
      rw [List.append_assoc]
    rw [this]
    exact List.Sublist.refl _

theorem lightPart_stems (stem : Str) (file : String) (m : Option RawMesh) :
    ((lightPart stem file m).map (·.stem)).Sublist [trimJson stem ++ file.toList] := by
  cases m with
  | none => exact List.nil_sublist _
  | some m => exact List.Sublist.refl _

/-! ### The meshes -/

theorem mem_wholeMesh {stem name : Str} {m : Option Mesh} {d : DerivedMesh} :
    d ∈ wholeMesh stem name m ↔ ∃ x, m = some x ∧ d = ⟨stem ++ "-generated".toList, name, x⟩ := by
  unfold wholeMesh generatedStem
  cases m <;> simp

theorem mem_partOf {stem name : Str} {file object : String} {m : Option RawMesh} {d : DerivedMesh} :
    d ∈ partOf stem name file object m ↔ ∃ x, m = some x ∧
      d = ⟨trimJson stem ++ (file.toList ++ ".json-generated".toList), name ++ object.toList, x.zeroed⟩ := by
  have e : ∀ b : Str, generatedStem (b ++ file.toList ++ ".json".toList)
      = b ++ (file.toList ++ ".json-generated".toList) := by
    intro b
    unfold generatedStem
    rw [List.append_assoc, List.append_assoc]
    rfl
  unfold partOf
  cases m with
  | none => simp
  | some m => rw [e]; simp

theorem mem_spinnerPart {stem name : Str} {file object : String} {m : Option RawMesh} {d : DerivedMesh} :
    d ∈ spinnerPart stem name file object m ↔ ∃ x, m = some x ∧
      d = ⟨trimJson stem ++ (file.toList ++ "-generated".toList), name ++ object.toList, x.zeroed⟩ := by
  unfold spinnerPart generatedStem
  cases m with
  | none => simp
  | some m => rw [List.append_assoc]; simp

theorem mem_lightPart {stem : Str} {file : String} {m : Option RawMesh} {d : DerivedMesh} :
    d ∈ lightPart stem file m ↔ ∃ x, m = some x ∧
      d = ⟨trimJson stem ++ file.toList, trimJson stem ++ file.toList, x.zeroed⟩ := by
  unfold lightPart
  cases m <;> simp

section
variable [Arith] (A : ItemFns) (T : MeshTables) (fuel : Nat)

/-- the names of the files -/
theorem derived_stems {stem : Str} {item : GameItemEnum} {ms : List DerivedMesh}
    (h : derivedMeshes A T fuel stem item = .ok ms) :
    (ms.map (·.stem)).Sublist ((derivedEnds item).map (derivedBase stem item ++ ·)) := by
  cases item <;> simp only [derivedMeshes] at h
  case wall w => obtain ⟨m, -, h⟩ := Res.unbind h; cases h; exact wholeMesh_stems _ _ _
  case ramp w => obtain ⟨m, -, h⟩ := Res.unbind h; cases h; exact wholeMesh_stems _ _ _
  case rubber w => obtain ⟨m, -, h⟩ := Res.unbind h; cases h; exact wholeMesh_stems _ _ _
  case flasher w => obtain ⟨m, -, h⟩ := Res.unbind h; cases h; exact wholeMesh_stems _ _ _
  case flipper f => cases h; exact wholeMesh_stems _ _ _
  case hitTarget f => cases h; exact wholeMesh_stems _ _ _
  case trigger f => cases h; exact wholeMesh_stems _ _ _
  case spinner s =>
    cases h
    rw [List.map_append]
    exact (spinnerPart_stems stem s.name "-bracket" "Bracket" _).append (spinnerPart_stems stem s.name "-plate" "Plate" _)
  case bumper b =>
    cases h
    simp only [List.map_append]
    exact (((partOf_stems stem b.name "-base" "Base" _).append (partOf_stems stem b.name "-socket" "Socket" _)).append
      (partOf_stems stem b.name "-ring" "Ring" _)).append (partOf_stems stem b.name "-cap" "Cap" _)
  case gate g =>
    split at h
    · cases h; exact List.nil_sublist _
    · cases h
      rw [List.map_append]
      exact (partOf_stems stem g.name "-bracket" "Bracket" _).append (partOf_stems stem g.name "-wire" "Wire" _)
  case plunger p =>
    cases h
    simp only [List.map_append]
    exact ((((partOf_stems stem p.name "-flat" "Flat" _).append (partOf_stems stem p.name "-rod" "Rod" _)).append
      (partOf_stems stem p.name "-spring" "Spring" _)).append (partOf_stems stem p.name "-ring" "Ring" _)).append
      (partOf_stems stem p.name "-tip" "Tip" _)
  case light l =>
    split at h
    · cases h; exact List.nil_sublist _
    · cases h
      rw [List.map_append]
      exact (lightPart_stems stem "-bulb" _).append (lightPart_stems stem "-socket" _)
  all_goals (cases h; exact List.nil_sublist _)

/-- the meshes are the ones of `Derives` -/
theorem derived_iff {stem : Str} (ht : trimJson stem = stem) {item : GameItemEnum} {ms : List DerivedMesh}
    (h : derivedMeshes A T fuel stem item = .ok ms) (d : DerivedMesh) :
    d ∈ ms ↔ ∃ m, Derives A T fuel stem item d.stem d.name m ∧ d.mesh = m.wrapped item := by
  constructor
  · intro hd
    cases item <;> simp only [derivedMeshes] at h
    case wall w =>
      obtain ⟨m, hm, h⟩ := Res.unbind h; cases h
      obtain ⟨x, hx, rfl⟩ := mem_wholeMesh.1 hd
      cases m with
      | none => cases hx
      | some m => cases hx; exact ⟨m.raw, .wall hm, rfl⟩
    case ramp w =>
      obtain ⟨m, hm, h⟩ := Res.unbind h; cases h
      obtain ⟨x, hx, rfl⟩ := mem_wholeMesh.1 hd
      cases m with
      | none => cases hx
      | some m => cases hx; exact ⟨m.raw, .ramp hm, rfl⟩
    case rubber w =>
      obtain ⟨m, hm, h⟩ := Res.unbind h; cases h
      obtain ⟨x, hx, rfl⟩ := mem_wholeMesh.1 hd
      cases m with
      | none => cases hx
      | some m => cases hx; exact ⟨m.1.raw, .rubber hm, rfl⟩
    case flasher w =>
      obtain ⟨m, hm, h⟩ := Res.unbind h; cases h
      obtain ⟨x, hx, rfl⟩ := mem_wholeMesh.1 hd
      cases m with
      | none => cases hx
      | some m => cases hx; exact ⟨m.1, .flasher hm, rfl⟩
    case flipper f =>
      cases h
      obtain ⟨x, hx, rfl⟩ := mem_wholeMesh.1 hd
      obtain ⟨m, hm, rfl⟩ := Option.map_eq_some_iff.1 hx
      exact ⟨m, .flipper hm, rfl⟩
    case hitTarget f =>
      cases h
      obtain ⟨x, hx, rfl⟩ := mem_wholeMesh.1 hd
      obtain ⟨m, hm, rfl⟩ := Option.map_eq_some_iff.1 hx
      exact ⟨m, .hitTarget hm, rfl⟩
    case trigger f =>
      cases h
      obtain ⟨x, hx, rfl⟩ := mem_wholeMesh.1 hd
      obtain ⟨m, hm, rfl⟩ := Option.map_eq_some_iff.1 hx
      exact ⟨m, .trigger hm, rfl⟩
    case spinner s =>
      cases h
      rcases List.mem_append.1 hd with hd | hd <;> obtain ⟨x, hx, rfl⟩ := mem_spinnerPart.1 hd <;> rw [ht]
      · exact ⟨x, .spinnerBracket hx, rfl⟩
      · cases hx; exact ⟨_, .spinnerPlate rfl, rfl⟩
    case bumper b =>
      cases h
      simp only [List.mem_append] at hd
      rcases hd with ((hd | hd) | hd) | hd <;> obtain ⟨x, hx, rfl⟩ := mem_partOf.1 hd <;> rw [ht]
      · exact ⟨x, .bumperBase hx, rfl⟩
      · exact ⟨x, .bumperSocket hx, rfl⟩
      · exact ⟨x, .bumperRing hx, rfl⟩
      · exact ⟨x, .bumperCap hx, rfl⟩
    case gate g =>
      split at h
      · cases h; cases hd
      · next m hm =>
        cases h
        obtain ⟨m1, m2⟩ := m
        rcases List.mem_append.1 hd with hd | hd <;> obtain ⟨x, hx, rfl⟩ := mem_partOf.1 hd <;> rw [ht]
        · dsimp only at hx
          subst hx
          exact ⟨x, .gateBracket hm, rfl⟩
        · cases hx
          exact ⟨_, .gateWire hm, rfl⟩
    case plunger p =>
      cases h
      simp only [List.mem_append] at hd
      rcases hd with (((hd | hd) | hd) | hd) | hd <;> obtain ⟨x, hx, rfl⟩ := mem_partOf.1 hd <;> rw [ht]
      · exact ⟨x, .plungerFlat hx, rfl⟩
      · exact ⟨x, .plungerRod hx, rfl⟩
      · exact ⟨x, .plungerSpring hx, rfl⟩
      · exact ⟨x, .plungerRing hx, rfl⟩
      · exact ⟨x, .plungerTip hx, rfl⟩
    case light l =>
      split at h
      · cases h; cases hd
      · next m hm =>
        cases h
        obtain ⟨m1, m2⟩ := m
        rcases List.mem_append.1 hd with hd | hd <;> obtain ⟨x, hx, rfl⟩ := mem_lightPart.1 hd <;> rw [ht] <;>
          dsimp only at hx <;> subst hx
        · exact ⟨x, .lightBulb hm, rfl⟩
        · exact ⟨x, .lightSocket hm, rfl⟩
    all_goals (cases h; cases hd)
  · rintro ⟨m, hd, hm⟩
    obtain ⟨dstem, dname, dmesh⟩ := d
    dsimp only at hd hm
    subst hm
    cases hd <;> simp only [derivedMeshes] at h
    case wall w m hm =>
      obtain ⟨x, hx, h⟩ := Res.unbind h; cases h
      rw [hm] at hx; cases hx
      exact mem_wholeMesh.2 ⟨_, rfl, rfl⟩
    case ramp w m hm =>
      obtain ⟨x, hx, h⟩ := Res.unbind h; cases h
      have hx : buildRampMesh fuel w ⟨0, 0, 0x446e0000, 0x45072000⟩ 10 false = .ok x := hx
      rw [hm] at hx; cases hx
      exact mem_wholeMesh.2 ⟨_, rfl, rfl⟩
    case rubber w m c hm =>
      obtain ⟨x, hx, h⟩ := Res.unbind h; cases h
      rw [hm] at hx; cases hx
      exact mem_wholeMesh.2 ⟨_, rfl, rfl⟩
    case flasher w c hm =>
      obtain ⟨x, hx, h⟩ := Res.unbind h; cases h
      have hx : buildFlasherMesh fuel w ⟨0, 0, 0x446e0000, 0x45072000⟩ = .ok x := hx
      rw [hm] at hx; cases hx
      exact mem_wholeMesh.2 ⟨_, rfl, rfl⟩
    case flipper f hm => cases h; rw [hm]; exact mem_wholeMesh.2 ⟨_, rfl, rfl⟩
    case hitTarget f hm => cases h; rw [hm]; exact mem_wholeMesh.2 ⟨_, rfl, rfl⟩
    case trigger f hm => cases h; rw [hm]; exact mem_wholeMesh.2 ⟨_, rfl, rfl⟩
    case spinnerBracket s hm =>
      cases h; rw [hm]
      exact List.mem_append_left _ (mem_spinnerPart.2 ⟨_, rfl, by rw [ht]; rfl⟩)
    case spinnerPlate s hm =>
      cases h; rw [hm]
      exact List.mem_append_right _ (mem_spinnerPart.2 ⟨_, rfl, by rw [ht]; rfl⟩)
    case bumperBase b hm =>
      cases h; rw [hm]; simp only [List.mem_append]
      exact .inl (.inl (.inl (mem_partOf.2 ⟨_, rfl, by rw [ht]; rfl⟩)))
    case bumperSocket b hm =>
      cases h; rw [hm]; simp only [List.mem_append]
      exact .inl (.inl (.inr (mem_partOf.2 ⟨_, rfl, by rw [ht]; rfl⟩)))
    case bumperRing b hm =>
      cases h; rw [hm]; simp only [List.mem_append]
      exact .inl (.inr (mem_partOf.2 ⟨_, rfl, by rw [ht]; rfl⟩))
    case bumperCap b hm =>
      cases h; rw [hm]; simp only [List.mem_append]
      exact .inr (mem_partOf.2 ⟨_, rfl, by rw [ht]; rfl⟩)
    case gateBracket g w hm =>
      rw [hm] at h; cases h
      exact List.mem_append_left _ (mem_partOf.2 ⟨_, rfl, by rw [ht]; rfl⟩)
    case gateWire g w hm =>
      rw [hm] at h; cases h
      exact List.mem_append_right _ (mem_partOf.2 ⟨_, rfl, by rw [ht]; rfl⟩)
    case plungerFlat p hm =>
      cases h; rw [hm]; simp only [List.mem_append]
      exact .inl (.inl (.inl (.inl (mem_partOf.2 ⟨_, rfl, by rw [ht]; rfl⟩))))
    case plungerRod p hm =>
      cases h; rw [hm]; simp only [List.mem_append]
      exact .inl (.inl (.inl (.inr (mem_partOf.2 ⟨_, rfl, by rw [ht]; rfl⟩))))
    case plungerSpring p hm =>
      cases h; rw [hm]; simp only [List.mem_append]
      exact .inl (.inl (.inr (mem_partOf.2 ⟨_, rfl, by rw [ht]; rfl⟩)))
    case plungerRing p hm =>
      cases h; rw [hm]; simp only [List.mem_append]
      exact .inl (.inr (mem_partOf.2 ⟨_, rfl, by rw [ht]; rfl⟩))
    case plungerTip p hm =>
      cases h; rw [hm]; simp only [List.mem_append]
      exact .inr (mem_partOf.2 ⟨_, rfl, by rw [ht]; rfl⟩)
    case lightBulb l s hm =>
      rw [hm] at h; cases h
      exact List.mem_append_left _ (mem_lightPart.2 ⟨_, rfl, by rw [ht]; rfl⟩)
    case lightSocket l s hm =>
      rw [hm] at h; cases h
      exact List.mem_append_right _ (mem_lightPart.2 ⟨_, rfl, by rw [ht]; rfl⟩)

end
end Vpin
