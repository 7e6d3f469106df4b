import Verif.Lemmas.MeshTables
import Verif.Props.Polygon
import Verif.Lemmas.Res
import Verif.Spec.GltfItems
/-
The meshes of items only use their own vertices.
-/
namespace Vpin
open Scene

section
variable [Arith]
open Arith

omit [Arith] in
theorem tris_inside {n : Nat} {ts : List Tri} (h : ∀ x ∈ ts, x.1 < n ∧ x.2.1 < n ∧ x.2.2 < n) :
    FacesInside n (ts.map Tri.face) := by
  intro f hf i hi
  obtain ⟨x, hx, rfl⟩ := List.mem_map.mp hf
  have := h x hx
  simp only [Tri.face, List.mem_cons, List.not_mem_nil, or_false] at hi
  omega

omit [Arith] in
theorem table_inside {t : MeshTable} (h : t.Inside) (point normal : V3 F32 → V3 F32) :
    MeshInside (t.mesh point normal) := by
  unfold MeshInside MeshTable.mesh
  simp only [List.length_map]
  exact tris_inside h

/-- all tables -/
structure MeshTables.Inside (T : MeshTables) : Prop where
  bumperBase : T.bumperBase.Inside
  bumperSocket : T.bumperSocket.Inside
  bumperRing : T.bumperRing.Inside
  bumperCap : T.bumperCap.Inside
  gateBracket : T.gateBracket.Inside
  gate : ∀ g, (T.gate g).Inside
  hitTarget : ∀ h, (T.hitTarget h).Inside
  kickerPlate : T.kickerPlate.Inside
  kicker : ∀ k, (kickerBody T k).1.Inside
  spinnerBracket : T.spinnerBracket.Inside
  spinnerPlate : T.spinnerPlate.Inside
  trigger : ∀ s t, T.trigger s = some t → t.Inside
  ball : T.ball.Inside
  bulbLight : T.bulbLight.Inside
  bulbSocket : T.bulbSocket.Inside
  flipperBase : T.flipperBase.Inside

theorem meshTables_inside : meshTables.Inside where
  bumperBase := bumperBase_inside
  bumperSocket := bumperSocket_inside
  bumperRing := bumperRing_inside
  bumperCap := bumperCap_inside
  gateBracket := gateBracket_inside
  gate g := by
    cases g
    · exact gateWire_inside
    · exact gateWireRectangle_inside
    · exact gatePlate_inside
    · exact gateLongPlate_inside
    · exact gateWire_inside
  hitTarget h := by
    cases h
    · exact dropTargetT2_inside
    · exact dropTargetT3_inside
    · exact hitTargetRound_inside
    · exact hitTargetRectangle_inside
    · exact hitTargetFatRectangle_inside
    · exact hitTargetFatSquare_inside
    · exact dropTargetT4_inside
    · exact hitTargetT2Slim_inside
    · exact hitTargetT1Slim_inside
  kickerPlate := kickerPlate_inside
  kicker k := by
    unfold kickerBody
    cases k.kicker_type
    · exact kickerSimpleHole_inside
    · exact kickerHole_inside
    · exact kickerCup_inside
    · exact kickerSimpleHole_inside
    · exact kickerWilliams_inside
    · exact kickerGottlieb_inside
    · exact kickerT1_inside
  spinnerBracket := spinnerBracket_inside
  spinnerPlate := spinnerPlate_inside
  trigger s t h := by
    cases s <;> cases h
    · exact triggerSimple_inside
    · exact triggerStar_inside
    · exact triggerSimple_inside
    · exact triggerButton_inside
    · exact triggerSimple_inside
    · exact triggerWireD_inside
    · exact triggerInder_inside
  ball := ball_inside
  bulbLight := bulbLight_inside
  bulbSocket := bulbSocket_inside
  flipperBase := flipperBase_inside

/-! ### Plungers -/

omit [Arith] in
theorem inside_mono {n k : Nat} {fs : List Face} (h : FacesInside n fs) (hk : n ≤ k) : FacesInside k fs := by
  intro f hf i hi
  have := h f hf i hi
  omega

omit [Arith] in
theorem inside_append {n : Nat} {fs gs : List Face} (h : FacesInside n fs) (h' : FacesInside n gs) :
    FacesInside n (fs ++ gs) := by
  intro f hf
  rcases List.mem_append.1 hf with hf | hf
  · exact h f hf
  · exact h' f hf

omit [Arith] in
/-- a `u16` index that was made from a place in the list of vertices, wrapped or not, is not past it -/
theorem index16_le {base : UInt16} {L : Nat} (h : base.toNat = L % 65536) (k : Nat) :
    (base + UInt16.ofNat k).toNat ≤ L + k := by
  rw [UInt16.toNat_add, UInt16.toNat_ofNat', h]
  have : (L % 65536 + k % 65536) % 65536 ≤ L + k := by omega
  simpa using this

omit [Arith] in
theorem index16_le2 {base : UInt16} {L : Nat} (h : base.toNat = L % 65536) (j k : Nat) :
    (base + UInt16.ofNat j + UInt16.ofNat k).toNat ≤ L + j + k := by
  rw [UInt16.toNat_add, UInt16.toNat_add, UInt16.toNat_ofNat', UInt16.toNat_ofNat', h]
  have : ((L % 65536 + j % 65536) % 65536 + k % 65536) % 65536 ≤ L + j + k := by omega
  simpa using this

omit [Arith] in
theorem face16_inside {n : Nat} {a b c : UInt16} (ha : a.toNat < n) (hb : b.toNat < n) (hc : c.toNat < n) :
    ∀ i ∈ [(face16 a b c).i0, (face16 a b c).i1, (face16 a b c).i2], 0 ≤ i ∧ i < (n : Int) := by
  intro i hi
  simp only [face16, List.mem_cons, List.not_mem_nil, or_false] at hi
  omega

omit [Arith] in
theorem ringFaces_inside {n L : Nat} {base : UInt16} (h : base.toNat = L % 65536) :
    FacesInside (L + 2 * n) (ringFaces n base) := by
  intro f hf
  unfold ringFaces at hf
  obtain ⟨i, hi, hf⟩ := List.mem_flatMap.1 hf
  have hi := List.mem_range.1 hi
  have hj : (i + 1) % n < n := Nat.mod_lt _ (by omega)
  have h0 := index16_le h i
  have h1 := index16_le h ((i + 1) % n)
  have h2 := index16_le2 h n i
  have h3 := index16_le2 h n ((i + 1) % n)
  simp only [List.mem_cons, List.not_mem_nil, or_false] at hf
  rcases hf with rfl | rfl
  · exact face16_inside (by omega) (by omega) (by omega)
  · exact face16_inside (by omega) (by omega) (by omega)

theorem ringVertices_length {ring normals : List (V3 F32)} (h : normals.length = ring.length) (tv : F32) :
    (ringVertices ring normals tv).length = ring.length := by
  simp [ringVertices, h]

theorem latheRing_length (y c r : F32) : (latheRing y c r).length = 16 := by simp [latheRing, nLathe]

theorem ringNormals_length (c : F32) (ring : List (V3 F32)) : (ringNormals c ring).length = ring.length := by
  simp [ringNormals]

/-- a mesh under construction, with the index of its next vertex -/
structure Growing (m : RawMesh) (base : UInt16) : Prop where
  inside : MeshInside m
  next : base.toNat = m.vertices.length % 65536

omit [Arith] in
theorem growing_start : Growing ⟨[], []⟩ 0 := ⟨(by intro f hf; cases hf), rfl⟩

theorem connectRings_length {m : RawMesh} {r1 r2 n1 n2 : List (V3 F32)} (h2 : r2.length = r1.length)
    (h3 : n1.length = r1.length) (h4 : n2.length = r1.length) (base : UInt16) (t1 t2 : F32) :
    (connectRings m r1 r2 n1 n2 base t1 t2).1.vertices.length = m.vertices.length + 2 * r1.length := by
  simp only [connectRings, List.length_append, ringVertices_length h3, ringVertices_length (h4.trans h2.symm)]
  omega

theorem connectRings_growing {m : RawMesh} {base : UInt16} (h : Growing m base) {r1 r2 n1 n2 : List (V3 F32)}
    (h2 : r2.length = r1.length) (h3 : n1.length = r1.length) (h4 : n2.length = r1.length) (t1 t2 : F32) :
    Growing (connectRings m r1 r2 n1 n2 base t1 t2).1 (connectRings m r1 r2 n1 n2 base t1 t2).2 := by
  have hl := connectRings_length (m := m) h2 h3 h4 base t1 t2
  refine ⟨?_, ?_⟩
  · unfold MeshInside
    rw [hl]
    exact inside_append (inside_mono h.inside (by omega)) (ringFaces_inside h.next)
  · rw [hl]
    simp only [connectRings, UInt16.toNat_add, UInt16.toNat_ofNat', h.next]
    omega

theorem connectAll_inside (base : UInt16) (m : RawMesh) (h : Growing m base) :
    ∀ rings : List (List (V3 F32) × List (V3 F32) × F32), (∀ r ∈ rings, r.1.length = 16 ∧ r.2.1.length = 16) →
      MeshInside (connectAll m base rings) := by
  intro rings
  induction rings generalizing m base with
  | nil => intro _; exact h.inside
  | cons a rest ih =>
    intro hr
    cases rest with
    | nil => exact h.inside
    | cons b rest =>
      obtain ⟨a1, a2⟩ := hr a (by simp)
      obtain ⟨b1, b2⟩ := hr b (by simp)
      rw [connectAll]
      exact ih _ _ (connectRings_growing h (by omega) (by omega) (by omega) _ _) fun r hr' => hr r (by simp [hr'])

theorem addDiscCap_inside {m : RawMesh} (h : MeshInside m) (ring : List (V3 F32)) (flip : Bool) (normal : V3 F32)
    (tv : F32) : MeshInside (addDiscCap m ring flip normal tv) := by
  have hl : (addDiscCap m ring flip normal tv).vertices.length = m.vertices.length + 1 + ring.length := by
    simp [addDiscCap]; omega
  unfold MeshInside
  rw [hl]
  refine inside_append (inside_mono h (by omega)) ?_
  intro f hf
  obtain ⟨i, hi, rfl⟩ := List.mem_map.1 hf
  have hi := List.mem_range.1 hi
  have hj : (i + 1) % ring.length < ring.length := Nat.mod_lt _ (by omega)
  have hb : (UInt16.ofNat m.vertices.length).toNat = m.vertices.length % 65536 := by simp
  have h0 : (UInt16.ofNat m.vertices.length).toNat < m.vertices.length + 1 + ring.length := by rw [hb]; omega
  have h1 : (UInt16.ofNat m.vertices.length + 1 + UInt16.ofNat i).toNat ≤ _ := index16_le2 hb 1 i
  have h2 : (UInt16.ofNat m.vertices.length + 1 + UInt16.ofNat ((i + 1) % ring.length)).toNat ≤ _ :=
    index16_le2 hb 1 ((i + 1) % ring.length)
  dsimp only
  split
  · exact face16_inside h0 (by omega) (by omega)
  · exact face16_inside h0 (by omega) (by omega)

theorem flatRodMesh_inside (p : Plunger) : MeshInside (flatRodMesh p) := by
  unfold flatRodMesh
  refine addDiscCap_inside (addDiscCap_inside (connectRings_growing growing_start ?_ ?_ ?_ _ _).inside _ _ _ _) _ _ _ _ <;>
    simp only [ringNormals_length, latheRing_length]

theorem rodMesh_inside (A : ItemFns) (p : Plunger) : MeshInside (rodMesh A p) := by
  unfold rodMesh
  refine addDiscCap_inside (connectAll_inside _ _ growing_start _ ?_) _ _ _ _
  intro r hr
  obtain ⟨i, _, rfl⟩ := List.mem_map.1 hr
  simp only [rodRing, ringNormals_length, latheRing_length, and_self]

theorem tipMesh_inside (A : ItemFns) (p : Plunger) : MeshInside (tipMesh A p) := by
  unfold tipMesh
  dsimp only
  split
  · exact growing_start.inside
  · refine connectAll_inside _ _ growing_start _ ?_
    intro r hr
    obtain ⟨i, _, rfl⟩ := List.mem_map.1 hr
    simp only [ringNormals_length, latheRing_length, and_self]

theorem collarMesh_inside (A : ItemFns) (p : Plunger) : MeshInside (collarMesh A p) := by
  unfold collarMesh
  refine (connectRings_growing (connectRings_growing (connectRings_growing growing_start ?_ ?_ ?_ _ _) ?_ ?_ ?_ _ _)
    ?_ ?_ ?_ _ _).inside <;> simp [ringNormals_length, latheRing_length, nLathe]

omit [Arith] in
theorem coilFaces_inside {L : Nat} {base : UInt16} (h : base.toNat = L % 65536) :
    FacesInside (L + 16) (coilFaces base) := by
  intro f hf
  unfold coilFaces at hf
  obtain ⟨i, hi, hf⟩ := List.mem_flatMap.1 hf
  have hi := List.mem_range.1 hi
  have hj : (i + 1) % 8 < 8 := Nat.mod_lt _ (by omega)
  have h0 := index16_le h i
  have h1 := index16_le h ((i + 1) % 8)
  have h2 := index16_le2 h 8 i
  have h3 := index16_le2 h 8 ((i + 1) % 8)
  simp only [List.mem_cons, List.not_mem_nil, or_false] at hf
  rcases hf with rfl | rfl
  · exact face16_inside (by omega) (by omega) (by
      have : (base + 8 + UInt16.ofNat i).toNat ≤ L + 8 + i := h2
      omega)
  · exact face16_inside (by omega) (by
      have : (base + 8 + UInt16.ofNat ((i + 1) % 8)).toNat ≤ L + 8 + (i + 1) % 8 := h3
      omega) (by
      have : (base + 8 + UInt16.ofNat i).toNat ≤ L + 8 + i := h2
      omega)

theorem helixLoop_length (s : SpringPlan) (k : Nat) : ∀ y dy i, (helixLoop s y dy i k).length = k := by
  induction k with
  | zero => intros; rfl
  | succ k ih => intros; simp [helixLoop, ih]

theorem springFold (gauge : F32) (segs : Nat) : ∀ (l : List HelixPoint) (i : Nat) (m : RawMesh), i + l.length = segs →
    m.vertices.length = 8 * i → FacesInside (8 * min (i + 1) segs) m.faces →
    let out := (l.zipIdx i).foldl (fun m (h, i) =>
      let base := UInt16.ofNat m.vertices.length
      (⟨m.vertices ++ coilRing gauge h, if i < segs - 1 then m.faces ++ coilFaces base else m.faces⟩ : RawMesh)) m
    out.vertices.length = 8 * segs ∧ FacesInside (8 * segs) out.faces := by
  intro l
  induction l with
  | nil =>
    intro i m h1 h2 h3
    simp only [List.length_nil, Nat.add_zero] at h1
    subst h1
    exact ⟨h2, inside_mono h3 (by omega)⟩
  | cons x l ih =>
    intro i m h1 h2 h3
    simp only [List.length_cons] at h1
    rw [List.zipIdx_cons, List.foldl_cons]
    refine ih (i + 1) _ (by omega) (by simp [coilRing, h2]; omega) ?_
    dsimp only
    split
    · refine inside_append (inside_mono h3 (by omega)) ?_
      refine inside_mono (coilFaces_inside (L := 8 * i) (by simp [h2])) (by omega)
    · exact inside_mono h3 (by omega)

theorem springMesh_spec (A : ItemFns) (p : Plunger) :
    (springMesh A p).vertices.length = (if (springPlan A p).segments < 2 then 0 else 8 * (springPlan A p).segments) ∧
      MeshInside (springMesh A p) := by
  unfold springMesh
  dsimp only
  split
  · exact ⟨rfl, growing_start.inside⟩
  · obtain ⟨h1, h2⟩ := springFold p.spring_gauge (springPlan A p).segments
      (helixLoop (springPlan A p) (springPlan A p).yStart (springPlan A p).dyEnd 0 (springPlan A p).segments) 0 ⟨[], []⟩
      (by simp [helixLoop_length]) rfl (by intro f hf; cases hf)
    refine ⟨h1, ?_⟩
    unfold MeshInside
    rw [h1]
    exact h2

/-! ### Flashers and inserts -/

omit [Arith] in
theorem inRange_inside {n : Nat} {ts : List Tri} (h : InRange n ts) : FacesInside n (ts.map Tri.face) :=
  tris_inside h

theorem flasher_inside {fuel : Nat} {f : Flasher} {d : TableDims} {m : RawMesh} {c : Vec3}
    (h : buildFlasherMesh fuel f d = .ok (some (m, c))) : MeshInside m := by
  unfold buildFlasherMesh at h
  split at h
  · cases h
  obtain ⟨vs, h1, h⟩ := Res.unbind h
  split at h
  · cases h
  rename_i h3
  obtain ⟨ts, h2, h⟩ := Res.unbind h
  split at h
  · cases h
  cases h
  obtain ⟨cw, ts', -, h4, -, hr, -⟩ := C60_polygon vs (by omega)
  rw [h4] at h2
  cases h2
  unfold MeshInside
  simp only [List.length_map]
  exact inRange_inside hr

theorem insert_inside {fuel : Nat} {l : Light} {d : TableDims} {m : RawMesh} {c : Vec3}
    (h : buildLightInsertMesh fuel l d = .ok (some (m, c))) : MeshInside m := by
  unfold buildLightInsertMesh at h
  split at h
  · cases h
  obtain ⟨vs, h1, h⟩ := Res.unbind h
  split at h
  · cases h
  rename_i h3
  obtain ⟨ts, h2, h⟩ := Res.unbind h
  split at h
  · cases h
  cases h
  obtain ⟨cw, ts', -, h4, -, hr, -⟩ := C60_polygon vs (by omega)
  rw [h4] at h2
  cases h2
  unfold MeshInside
  simp only [List.length_map]
  exact inRange_inside hr

end
end Vpin
