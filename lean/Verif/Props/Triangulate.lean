import Verif.Lemmas.Triangulate
import Verif.Props.Obj
/-!
C56: OBJ files of other programs, with polygons and corners that mix positions, texture coordinates and normals.
-/
namespace Vpin

/-- C56: the triangles are exactly the fans of the polygons: looking up the numbers of each triangle in the list of
corners gives the corners of the fan, in order. No corner is listed twice, every listed corner is used, and all of
them exist in the file. -/
theorem C56_triangles {faces : List (List FaceCorner)} {np nt nn : Nat} {reverse : Bool} {corners : List Corner}
    {triangles : List (Nat × Nat × Nat)}
    (h : triangulateAndDedup faces np nt nn reverse = .ok (corners, triangles)) :
    triangles.map (fun t => (corners[t.1]?, corners[t.2.1]?, corners[t.2.2]?))
      = faces.flatMap (fun f => fanTriangles (faceCorners reverse f)) ∧
    corners.Nodup ∧
    (∀ c ∈ corners, c.1 < np ∧ c.2.1 < nt ∧ c.2.2 < nn) ∧
    (∀ t ∈ triangles, t.1 < corners.length ∧ t.2.1 < corners.length ∧ t.2.2 < corners.length) ∧
    (∀ i, i < corners.length → ∃ t ∈ triangles, i = t.1 ∨ i = t.2.1 ∨ i = t.2.2) := by
  obtain ⟨ts, h1, h⟩ := Res.unbind h
  have h2 : dedup [] ts = (corners, triangles) := Except.ok.inj h
  obtain ⟨n1, -, e1, m1⟩ := dedup_spec ts [] corners triangles List.nodup_nil h2
  have hlt : ∀ t ∈ triangles, ∃ u ∈ ts, (corners[t.1]?, corners[t.2.1]?, corners[t.2.2]?) = someCorners u := by
    intro t ht
    have : (corners[t.1]?, corners[t.2.1]?, corners[t.2.2]?) ∈ ts.map someCorners := by
      rw [← e1]; exact List.mem_map.2 ⟨t, ht, rfl⟩
    obtain ⟨u, hu, e⟩ := List.mem_map.1 this
    exact ⟨u, hu, e.symm⟩
  refine ⟨by rw [e1, (triangulate_ok h1).1], n1, ?_, ?_, ?_⟩
  · intro c hc
    rcases (m1 c).1 hc with hc | ⟨t, ht, hc⟩
    · cases hc
    · exact triangulate_range h1 t ht c hc
  · intro t ht
    obtain ⟨u, -, e⟩ := hlt t ht
    have ea := congrArg (·.1) e
    have eb := congrArg (·.2.1) e
    have ec := congrArg (·.2.2) e
    exact ⟨(List.getElem?_eq_some_iff.1 ea).1, (List.getElem?_eq_some_iff.1 eb).1,
      (List.getElem?_eq_some_iff.1 ec).1⟩
  · intro i hi
    rcases (m1 corners[i]).1 (List.getElem_mem hi) with hc | ⟨u, hu, hc⟩
    · cases hc
    · have : someCorners u ∈ triangles.map (fun t => (corners[t.1]?, corners[t.2.1]?, corners[t.2.2]?)) := by
        rw [e1]; exact List.mem_map.2 ⟨u, hu, rfl⟩
      obtain ⟨t, ht, e⟩ := List.mem_map.1 this
      have key : ∀ j, corners[j]? = some corners[i] → i = j := by
        intro j hj
        obtain ⟨hj', e⟩ := List.getElem?_eq_some_iff.1 hj
        exact ((List.getElem_inj n1).1 e).symm
      refine ⟨t, ht, ?_⟩
      have ea := congrArg (·.1) e
      have eb := congrArg (·.2.1) e
      have ec := congrArg (·.2.2) e
      rcases hc with hc | hc | hc
      · exact Or.inl (key _ (hc ▸ ea))
      · exact Or.inr (Or.inl (key _ (hc ▸ eb)))
      · exact Or.inr (Or.inr (key _ (hc ▸ ec)))

/-- C56: polygons are accepted exactly when each has three or more corners and all their numbers exist. -/
theorem C56_accepts {faces : List (List FaceCorner)} {np nt nn : Nat} {reverse : Bool} :
    (∃ r, triangulateAndDedup faces np nt nn reverse = .ok r) ↔ ∀ f ∈ faces, FaceOk np nt nn f := by
  constructor
  · rintro ⟨r, h⟩
    obtain ⟨ts, h1, -⟩ := Res.unbind h
    exact (triangulate_ok h1).2
  · intro h
    obtain ⟨ts, h1⟩ := triangulate_some (reverse := reverse) h
    refine ⟨dedup [] ts, ?_⟩
    unfold triangulateAndDedup
    rw [h1]; rfl

/-- C56: a file with a face that is not a plain triangle is read so that every triangle shows the positions, texture
coordinates and normals its corners name in the file. -/
theorem C56_geometry {T : FloatText} {ls : List ObjLine} {reverse : Bool} {d : ObjData}
    (h : readObjData T ls reverse = .ok d) (hn : ¬ ∀ f ∈ objPolygons ls, PlainTriangle f) :
    d.faces.map (fun f => [f.i0, f.i1, f.i2].map fun i =>
        (d.vertices[i.toNat]?, d.texcoords[i.toNat]?, d.normals[i.toNat]?.map fun n => (n.x, n.y, n.z)))
      = ((objPolygons ls).flatMap fun f => fanTriangles (faceCorners reverse f)).map fun t =>
        [t.1, t.2.1, t.2.2].map fun c =>
        ((c.bind fun c => (objPositions T ls)[c.1]?.join), (c.bind fun c => (objTexcoords T ls)[c.2.1]?.join),
          (c.bind fun c => (objNormals T ls)[c.2.2]?.join)) := by
  rw [readObjData_eq] at h
  obtain ⟨r, hr, h⟩ := Res.unbind h
  have hh := ObjReader.lines_holds ls [] {} r (ObjReader.start_holds T) hr
  rw [List.nil_append] at hh
  split at h
  · cases h
  rw [if_pos (by
    cases hb : r.normalize
    · exact absurd (hh.normalize.1 hb) hn
    · rfl)] at h
  obtain ⟨⟨corners, triangles⟩, ht, h⟩ := Res.unbind h
  obtain ⟨vs, hv, h⟩ := Res.unbind h
  obtain ⟨tcs, htc, h⟩ := Res.unbind h
  obtain ⟨ns, hns, h⟩ := Res.unbind h
  cases h
  obtain ⟨e1, -, -, -, -⟩ := C56_triangles ht
  rw [← hh.faces, ← e1, List.map_map, List.map_map]
  have gv : ∀ i : Nat, vs[i]? = corners[i]?.bind fun c => (objPositions T ls)[c.1]?.join := by
    intro i
    rw [map_some_get (mapM_get_spec _ _ _ _ hv) i, ← hh.vertices]
    congr 1; funext c; rw [List.getElem?_map]; cases r.vertices[c.1]? <;> rfl
  have gt : ∀ i : Nat, tcs[i]? = corners[i]?.bind fun c => (objTexcoords T ls)[c.2.1]?.join := by
    intro i
    rw [map_some_get (mapM_get_spec _ _ _ _ htc) i, ← hh.texcoords]
    congr 1; funext c; rw [List.getElem?_map]; cases r.texcoords[c.2.1]? <;> rfl
  have gn : ∀ i : Nat, (ns[i]?.map fun n => (n.x, n.y, n.z)) =
      corners[i]?.bind fun c => (objNormals T ls)[c.2.2]?.join := by
    intro i
    rw [map_some_get (mapM_get_spec _ _ _ _ hns) i, ← hh.normals]
    cases corners[i]? with
    | none => rfl
    | some c =>
      show Option.map _ r.normals[c.2.2]? = Option.join (List.map _ r.normals)[c.2.2]?
      rw [List.getElem?_map]; cases r.normals[c.2.2]? <;> rfl
  apply List.map_congr_left
  intro t _
  simp only [Function.comp_apply, List.map_cons, List.map_nil, Int.toNat_natCast, gv, gt, gn]

/-- C56: a file whose faces are all plain triangles is read as it is; the corners are put in reverse order if asked. -/
theorem C56_plain {T : FloatText} {ls : List ObjLine} {reverse : Bool} {d : ObjData}
    (h : readObjData T ls reverse = .ok d) (hp : ∀ f ∈ objPolygons ls, PlainTriangle f) :
    d.vertices.map some = objPositions T ls ∧ d.texcoords.map some = objTexcoords T ls ∧
      d.normals.map (fun n => some (n.x, n.y, n.z)) = objNormals T ls ∧
      d.faces.map (fun f => [f.i0, f.i1, f.i2]) = (objPolygons ls).map fun f =>
        (if reverse then f.reverse else f).map fun c => ((c.v % 2 ^ 32 : Nat) : Int) - 1 := by
  rw [readObjData_eq] at h
  obtain ⟨r, hr, h⟩ := Res.unbind h
  have hh := ObjReader.lines_holds ls [] {} r (ObjReader.start_holds T) hr
  rw [List.nil_append] at hh
  split at h
  · cases h
  rw [if_neg (by rw [hh.normalize.2 hp]; decide)] at h
  obtain ⟨fs, hf, h⟩ := Res.unbind h
  cases h
  refine ⟨hh.vertices, hh.texcoords, hh.normals, ?_⟩
  rw [← hh.faces]
  have : ∀ (l : List (List FaceCorner)) (out : List Face), (∀ f ∈ l, f.length = 3) →
      l.mapM (fastFace reverse) = .ok out → out.map (fun f => [f.i0, f.i1, f.i2]) = l.map fun f =>
        (if reverse then f.reverse else f).map fun c => ((c.v % 2 ^ 32 : Nat) : Int) - 1 := by
    intro l
    induction l with
    | nil => intro out _ h; cases h; rfl
    | cons a l ih =>
      intro out h3 h
      rw [List.mapM_cons] at h
      obtain ⟨x, h1, h⟩ := Res.unbind h
      obtain ⟨xs, h2, h⟩ := Res.unbind h
      cases h
      rw [List.map_cons, List.map_cons, ih _ (fun f hf => h3 f (List.mem_cons_of_mem _ hf)) h2]
      congr 1
      match a, h3 a List.mem_cons_self with
      | [a, b, c], _ => cases reverse <;> cases h1 <;> rfl
  exact this _ _ (fun f hf => (hp f (hh.faces ▸ hf)).1) hf

/-- C56: reading an OBJ file, whatever its faces name, gives a result or an error, and never aborts the program;
unless a `# vpx` comment before a normal holds something else than bytes. -/
theorem C56_no_panic (T : FloatText) (ls : List ObjLine) (reverse : Bool)
    (hc : ∀ s, ObjLine.comment s ∈ ls → parseVpxComment s ≠ .error .panic) :
    readObjData T ls reverse ≠ .error .panic := by
  have ht := ObjReader.lines_tame (T := T) ls {} ⟨nofun, fun _ f hf => nomatch hf⟩ hc
  rw [readObjData_eq]
  intro h
  rcases Res.bind_err h with h | ⟨r, hr, h⟩
  · exact ht.2 h
  have hr' := ht.1 r hr
  split at h
  · cases h
  split at h
  · rcases Res.bind_err h with h | ⟨⟨corners, triangles⟩, h1, h⟩
    · unfold triangulateAndDedup at h
      rcases Res.bind_err h with h | ⟨ts, -, h⟩
      · cases triangulate_err h
      · cases h
    obtain ⟨-, -, hin, -, -⟩ := C56_triangles h1
    obtain ⟨a, ea⟩ := mapM_get_some r.vertices (fun c : Corner => c.1) corners fun c hc => (hin c hc).1
    obtain ⟨b, eb⟩ := mapM_get_some r.texcoords (fun c : Corner => c.2.1) corners fun c hc => (hin c hc).2.1
    obtain ⟨c, ec⟩ := mapM_get_some r.normals (fun c : Corner => c.2.2) corners fun c hc => (hin c hc).2.2
    rw [ea] at h
    rcases Res.bind_err h with h | ⟨_, _, h⟩
    · cases h
    rw [eb] at h
    rcases Res.bind_err h with h | ⟨_, _, h⟩
    · cases h
    rw [ec] at h
    rcases Res.bind_err h with h | ⟨_, _, h⟩
    · cases h
    cases h
  · next hn =>
    obtain ⟨fs, hf⟩ := fastFaces_some (reverse := reverse) r.faces (hr'.2 (by simpa using hn))
    rw [hf] at h
    rcases Res.bind_err h with h | ⟨_, _, h⟩
    · cases h
    cases h

/-- C56: the condition on comments is needed: a comment that starts with `vpx` but holds something else aborts the
program. -/
theorem C56_comment_counterexample : readObjData byteText
    [.object "a".toList, .comment "vpx zz".toList,
      .vn (byteText.show32 0) (byteText.show32 0) (byteText.show32 0)] true = .error .panic := by
  decide +kernel

/-- a square with a shared corner, in the form other programs write: two triangles, four different corners -/
example : triangulateAndDedup [[⟨1, 1, 1⟩, ⟨2, 2, 1⟩, ⟨3, 3, 1⟩, ⟨4, 4, 1⟩]] 4 4 1 false
    = .ok ([(0, 0, 0), (1, 1, 0), (2, 2, 0), (3, 3, 0)], [(0, 1, 2), (0, 2, 3)]) := by decide +kernel

/-- the same in reverse order, and a corner that does not exist -/
example : triangulateAndDedup [[⟨1, 1, 1⟩, ⟨2, 2, 1⟩, ⟨3, 3, 1⟩]] 4 4 1 true
    = .ok ([(2, 2, 0), (1, 1, 0), (0, 0, 0)], [(0, 1, 2)]) ∧
    triangulateAndDedup [[⟨1, 1, 1⟩, ⟨2, 2, 2⟩, ⟨3, 3, 1⟩]] 4 4 1 true = .error .io := by decide +kernel

/-- a file with such a square is read, and not all its faces are plain triangles -/
example : ∃ d, readObjData byteText
    [.object "a".toList,
      .v (byteText.show32 0) (byteText.show32 0) (byteText.show32 0),
      .v (byteText.show32 0x3f800000) (byteText.show32 0) (byteText.show32 0),
      .v (byteText.show32 0x3f800000) (byteText.show32 0x3f800000) (byteText.show32 0),
      .v (byteText.show32 0) (byteText.show32 0x3f800000) (byteText.show32 0),
      .vt (byteText.show32 0) (byteText.show32 0),
      .vn (byteText.show32 0) (byteText.show32 0) (byteText.show32 0x3f800000),
      .f [(1, some 1, some 1), (2, some 1, some 1), (3, some 1, some 1), (4, some 1, some 1)]] true = .ok d ∧
    d.faces = [⟨0, 1, 2⟩, ⟨0, 2, 3⟩] ∧ d.vertices.length = 4 ∧ d.normals.length = 4 := by
  refine ⟨_, rfl, ?_⟩
  decide +kernel

end Vpin
