import Verif.Model.Gltf
import Verif.Spec.Mesh
import Verif.Lemmas.Mesh
import Verif.Lemmas.Res
import Verif.Lemmas.Hex
/-! Helper lemmas: glTF files. -/
namespace Vpin

/-! ### Parts of a sequence of records of the same size -/

theorem flatMap_slice {α : Type} (g : α → Bytes) (k : Nat) (h : ∀ a, (g a).length = k) : ∀ (l : List α) (rest : Bytes)
    (i : Nat) (hi : i < l.length), ((l.flatMap g ++ rest).drop (i * k)).take k = g l[i]
  | a :: l, rest, 0, _ => by
    rw [Nat.zero_mul, List.drop_zero, List.flatMap_cons, List.append_assoc, List.take_left' (h a)]
    rfl
  | a :: l, rest, i + 1, hi => by
    rw [Nat.succ_mul, Nat.add_comm, ← List.drop_drop, List.flatMap_cons, List.append_assoc, List.drop_left' (h a)]
    exact flatMap_slice g k h l rest i (by simpa using hi)

theorem slice_behind (pre : Bytes) (bs : Bytes) (n : Nat) : (pre ++ bs).drop (pre.length + n) = bs.drop n := by
  rw [← List.drop_drop, List.drop_left]

theorem gltfFloats_at {α : Type} (g : α → Bytes) (n : Nat) (h : ∀ a, (g a).length = 4 * n) (pre rest : Bytes)
    (l : List α) (i : Nat) (hi : i < l.length) :
    gltfFloats (pre ++ (l.flatMap g ++ rest)) (pre.length + i * (4 * n)) n = .ok (g l[i]) := by
  have hl : (l.flatMap g).length = 4 * n * l.length := flatMap_length_const g _ h l
  have hm : (i + 1) * (4 * n) ≤ l.length * (4 * n) := Nat.mul_le_mul_right _ hi
  have e1 : 4 * n * l.length = l.length * (4 * n) := Nat.mul_comm _ _
  have e2 : (i + 1) * (4 * n) = i * (4 * n) + 4 * n := Nat.succ_mul _ _
  have hlen : (pre ++ (l.flatMap g ++ rest)).length = pre.length + (4 * n * l.length + rest.length) := by
    rw [List.length_append, List.length_append, hl]
  unfold gltfFloats
  rw [if_neg (by omega), if_neg (by omega), slice_behind, flatMap_slice g _ h l rest i hi]

theorem mapM_range' {α : Type} (f : Nat → Res α) : ∀ (l : List α) (s : Nat),
    (∀ i (hi : i < l.length), f (s + i) = .ok l[i]) → (List.range' s l.length).mapM f = .ok l
  | [], _, _ => rfl
  | a :: l, s, h => by
    rw [List.length_cons, List.range'_succ, List.mapM_cons]
    have h0 : f s = .ok a := h 0 (by simp)
    have ih := mapM_range' f l (s + 1) fun i hi => by
      have := h (i + 1) (by simpa using hi)
      rw [show s + (i + 1) = s + 1 + i by omega] at this
      exact this
    rw [h0, ih]; rfl

theorem mapM_range {α : Type} (f : Nat → Res α) (l : List α) (h : ∀ i (hi : i < l.length), f i = .ok l[i]) :
    (List.range l.length).mapM f = .ok l := by
  rw [List.range_eq_range']
  exact mapM_range' f l 0 fun i hi => by rw [Nat.zero_add]; exact h i hi

/-! ### The data -/

theorem f32At3 (a b c : F32) : f32At (le32 a ++ le32 b ++ le32 c) 0 = a ∧ f32At (le32 a ++ le32 b ++ le32 c) 1 = b ∧
    f32At (le32 a ++ le32 b ++ le32 c) 2 = c := by
  rw [List.append_assoc]
  have e : le32 c = le32 c ++ [] := (List.append_nil _).symm
  rw [e]
  exact ⟨f32At_le32 _ _, by rw [f32At_skip, f32At_le32], by rw [f32At_skip, f32At_skip, f32At_le32]⟩

theorem f32At2 (a b : F32) : f32At (le32 a ++ le32 b) 0 = a ∧ f32At (le32 a ++ le32 b) 1 = b := by
  have e : le32 b = le32 b ++ [] := (List.append_nil _).symm
  rw [e]
  exact ⟨f32At_le32 _ _, by rw [f32At_skip, f32At_le32]⟩

/-- what is read for a vertex: normals that are no numbers are zero, the bytes are as they were -/
def gltfBack (w : VertexWrapper) : VertexWrapper :=
  ⟨le32 w.vertex.x ++ le32 w.vertex.y ++ le32 w.vertex.z ++ (w.encoded.drop 12).take 12
    ++ le32 w.vertex.tu ++ le32 w.vertex.tv,
   { w.vertex with nx := nanZero w.vertex.nx, ny := nanZero w.vertex.ny, nz := nanZero w.vertex.nz }⟩

theorem gltfBack_encoded {w : VertexWrapper} (h : w.encoded = w.vertex.bytes) : (gltfBack w).encoded = w.encoded := by
  unfold gltfBack
  rw [h]
  rfl

theorem gltfVertex_at (m : Mesh) (h32 : ∀ w ∈ m.vertices, w.encoded.length = 32) (rest : Bytes) (i : Nat)
    (hi : i < m.vertices.length) :
    gltfVertex (gltfPositions m.vertices ++ gltfNormals m.vertices ++ gltfTexcoords m.vertices ++ rest) 0
      (gltfPositions m.vertices).length ((gltfPositions m.vertices).length + (gltfNormals m.vertices).length)
      (some ((gltfVpxNormals m.vertices).map fun j => j.asStr?.getD [])) i = .ok (gltfBack m.vertices[i]) := by
  have p := gltfFloats_at (fun w : VertexWrapper => le32 w.vertex.x ++ le32 w.vertex.y ++ le32 w.vertex.z) 3
    (fun _ => rfl) [] (gltfNormals m.vertices ++ gltfTexcoords m.vertices ++ rest) m.vertices i hi
  have n := gltfFloats_at (fun w : VertexWrapper => le32 (nanZero w.vertex.nx) ++ le32 (nanZero w.vertex.ny)
    ++ le32 (nanZero w.vertex.nz)) 3 (fun _ => rfl) (gltfPositions m.vertices)
    (gltfTexcoords m.vertices ++ rest) m.vertices i hi
  have t := gltfFloats_at (fun w : VertexWrapper => le32 w.vertex.tu ++ le32 w.vertex.tv) 2
    (fun _ => rfl) (gltfPositions m.vertices ++ gltfNormals m.vertices) rest m.vertices i hi
  have hb : gltfPositions m.vertices ++ gltfNormals m.vertices ++ gltfTexcoords m.vertices ++ rest
      = [] ++ (gltfPositions m.vertices ++ (gltfNormals m.vertices ++ gltfTexcoords m.vertices ++ rest)) := by
    simp [List.append_assoc]
  have hb2 : gltfPositions m.vertices ++ gltfNormals m.vertices ++ gltfTexcoords m.vertices ++ rest
      = gltfPositions m.vertices ++ (gltfNormals m.vertices ++ (gltfTexcoords m.vertices ++ rest)) := by
    simp [List.append_assoc]
  have hb3 : gltfPositions m.vertices ++ gltfNormals m.vertices ++ gltfTexcoords m.vertices ++ rest
      = (gltfPositions m.vertices ++ gltfNormals m.vertices) ++ (gltfTexcoords m.vertices ++ rest) := by
    simp [List.append_assoc]
  have hn : gltfNormalBytes (some ((gltfVpxNormals m.vertices).map fun j => j.asStr?.getD [])) i
      = (m.vertices[i].encoded.drop 12).take 12 := by
    unfold gltfNormalBytes gltfVpxNormals
    rw [List.map_map]
    dsimp only
    rw [List.getElem?_map, List.getElem?_eq_getElem hi]
    show (match hexDecode (hexEncode _) with | some bs => _ | none => _) = _
    rw [hexDecode_encode]
    dsimp only
    have := h32 _ (List.getElem_mem hi)
    rw [if_pos (by rw [List.length_take, List.length_drop]; omega)]
  unfold gltfVertex
  rw [hn]
  have p' : gltfFloats (gltfPositions m.vertices ++ gltfNormals m.vertices ++ gltfTexcoords m.vertices ++ rest)
    (0 + i * 12) 3 = .ok (le32 m.vertices[i].vertex.x ++ le32 m.vertices[i].vertex.y ++ le32 m.vertices[i].vertex.z) := by rw [hb]; exact p
  have n' : gltfFloats (gltfPositions m.vertices ++ gltfNormals m.vertices ++ gltfTexcoords m.vertices ++ rest)
    ((gltfPositions m.vertices).length + i * 12) 3 = .ok (le32 (nanZero m.vertices[i].vertex.nx)
      ++ le32 (nanZero m.vertices[i].vertex.ny) ++ le32 (nanZero m.vertices[i].vertex.nz)) := by rw [hb2]; exact n
  have t' : gltfFloats (gltfPositions m.vertices ++ gltfNormals m.vertices ++ gltfTexcoords m.vertices ++ rest)
    ((gltfPositions m.vertices).length + (gltfNormals m.vertices).length + i * 8) 2 = .ok (le32 m.vertices[i].vertex.tu ++ le32 m.vertices[i].vertex.tv) := by
      rw [hb3, ← List.length_append]; exact t
  rw [Res.thenOk p', Res.thenOk n', Res.thenOk t']
  obtain ⟨p0, p1, p2⟩ := f32At3 m.vertices[i].vertex.x m.vertices[i].vertex.y m.vertices[i].vertex.z
  obtain ⟨n0, n1, n2⟩ := f32At3 (nanZero m.vertices[i].vertex.nx) (nanZero m.vertices[i].vertex.ny)
    (nanZero m.vertices[i].vertex.nz)
  obtain ⟨t0, t1⟩ := f32At2 m.vertices[i].vertex.tu m.vertices[i].vertex.tv
  simp only [p0, p1, p2, n0, n1, n2, t0, t1]
  rfl

theorem gltfIndex_write {wide : Bool} {i : Int} (h0 : 0 ≤ i) (h : i < (256 ^ (if wide then 4 else 2) : Nat))
    (rest : Bytes) : gltfIndex wide (writeIndex (if wide then 4 else 2) i ++ rest) = .ok (i, rest) := by
  cases wide with
  | false =>
    have := readIndex_write2 h0 (by simpa using h) rest
    unfold writeIndex readIndex at this
    unfold gltfIndex writeIndex readExact
    simp only [Bool.false_eq_true, if_false, if_true] at this ⊢
    exact this
  | true =>
    have := readIndex_write4 h0 (by simpa using h) rest
    unfold writeIndex readIndex at this
    unfold gltfIndex writeIndex readExact
    simp only [if_true] at this ⊢
    exact this

theorem gltfFace_at (pre rest : Bytes) (wide : Bool) (fs : List Face)
    (hf : ∀ f ∈ fs, f.Below (256 ^ (if wide then 4 else 2))) (i : Nat) (hi : i < fs.length) :
    gltfFace (pre ++ (gltfIndices wide fs ++ rest)) pre.length wide i = .ok fs[i] := by
  let w := if wide then 4 else 2
  have hw : w = 2 ∨ w = 4 := by cases wide <;> simp [w]
  have e : (if wide then 12 else 6) = 3 * w := by cases wide <;> rfl
  have hl : (gltfIndices wide fs).length = 3 * w * fs.length := flatMap_length_const _ _ (faceBytes_length hw) fs
  have hm : i * (3 * w) ≤ fs.length * (3 * w) := Nat.mul_le_mul_right _ (by omega)
  have e1 : 3 * w * fs.length = fs.length * (3 * w) := Nat.mul_comm _ _
  unfold gltfFace
  rw [e]
  dsimp only
  rw [if_neg (by rw [List.length_append, List.length_append, hl]; omega), slice_behind]
  have hd : ∀ (l : List Face) (i : Nat) (hi : i < l.length),
      ∃ r, (l.flatMap (faceBytes w) ++ rest).drop (i * (3 * w)) = faceBytes w l[i] ++ r := by
    intro l
    induction l with
    | nil => intro i hi; exact absurd hi (by simp)
    | cons a l ih =>
      intro i hi
      cases i with
      | zero => exact ⟨_, by rw [Nat.zero_mul, List.drop_zero, List.flatMap_cons, List.append_assoc]; rfl⟩
      | succ i =>
        rw [Nat.succ_mul, Nat.add_comm, ← List.drop_drop, List.flatMap_cons, List.append_assoc,
          List.drop_left' (faceBytes_length hw a)]
        exact ih i (by simpa using hi)
  obtain ⟨r, hr⟩ := hd fs i hi
  have hr' : (gltfIndices wide fs ++ rest).drop (i * (3 * w)) = faceBytes w fs[i] ++ r := hr
  obtain ⟨a1, a2, b1, b2, c1, c2⟩ := hf _ (List.getElem_mem hi)
  rw [hr']
  unfold faceBytes
  rw [List.append_assoc, List.append_assoc]
  rw [Res.thenOk (gltfIndex_write a1 a2 _)]
  dsimp only
  rw [Res.thenOk (gltfIndex_write b1 b2 _)]
  dsimp only
  rw [Res.thenOk (gltfIndex_write c1 c2 _)]
  rfl

/-! ### The whole payload -/

theorem unwrap_bind {α β : Type} (x : α) (f : α → Res β) : (unwrap (some x) >>= f) = f x := rfl
theorem orIo_bind {α β : Type} (x : α) (f : α → Res β) : (orIo (some x) >>= f) = f x := rfl


theorem pad4_eq (bs : Bytes) : ∃ n, pad4 bs = bs ++ List.replicate n 0 := ⟨_, rfl⟩

theorem gltfLengths (m : Mesh) (uri : Option Str) : (buildGltf name m uri).bin.length < 18446744073709551616 →
    m.vertices.length < 18446744073709551616 ∧ m.faces.length * 3 < 18446744073709551616 ∧
    (gltfPositions m.vertices).length < 18446744073709551616 ∧
    (gltfNormals m.vertices).length < 18446744073709551616 ∧
    (gltfTexcoords m.vertices).length < 18446744073709551616 ∧
    (gltfIndices (m.vertices.length > 65535) m.faces).length < 18446744073709551616 ∧
    (gltfPositions m.vertices).length + (gltfNormals m.vertices).length < 18446744073709551616 ∧
    (gltfPositions m.vertices).length + (gltfNormals m.vertices).length + (gltfTexcoords m.vertices).length
      < 18446744073709551616 := by
  intro h
  have h : (pad4 (gltfPositions m.vertices ++ gltfNormals m.vertices ++ gltfTexcoords m.vertices ++
    gltfIndices (m.vertices.length > 65535) m.faces)).length < 18446744073709551616 := h
  obtain ⟨n, hn⟩ := pad4_eq (gltfPositions m.vertices ++ gltfNormals m.vertices ++ gltfTexcoords m.vertices ++
    gltfIndices (m.vertices.length > 65535) m.faces)
  rw [hn] at h
  simp only [List.length_append] at h
  have hp : (gltfPositions m.vertices).length = 12 * m.vertices.length :=
    flatMap_length_const (fun w : VertexWrapper => le32 w.vertex.x ++ le32 w.vertex.y ++ le32 w.vertex.z) 12
      (fun _ => rfl) m.vertices
  have hi : m.faces.length * 3 ≤ (gltfIndices (m.vertices.length > 65535) m.faces).length := by
    have hw : (if decide (m.vertices.length > 65535) = true then 4 else 2) = 2 ∨
      (if decide (m.vertices.length > 65535) = true then 4 else 2) = 4 := by split <;> simp
    have : (gltfIndices (m.vertices.length > 65535) m.faces).length
        = 3 * (if decide (m.vertices.length > 65535) = true then 4 else 2) * m.faces.length :=
      flatMap_length_const _ _ (faceBytes_length hw) m.faces
    rw [this]
    rcases hw with e | e <;> rw [e] <;> omega
  omega

theorem asU64_num {n : Nat} (h : n < 18446744073709551616) : (J.num n).asU64? = some n := by
  unfold J.asU64?
  dsimp only
  rw [if_pos (by omega)]
  simp

theorem J.Valid.nat {keeps : F32 → Prop} {n : Nat} (h : n < 18446744073709551616) : (J.num n).Valid keeps :=
  .num _ (by omega)

theorem validArr {keeps : F32 → Prop} {l : List J} (h : ∀ j ∈ l, j.Valid keeps) : (J.arr l).Valid keeps := .arr l h

theorem validCons {keeps : F32 → Prop} {j : J} {l : List J} (h : j.Valid keeps) (hl : ∀ j ∈ l, j.Valid keeps) :
    ∀ x ∈ j :: l, x.Valid keeps := by
  intro x hx
  rcases List.mem_cons.1 hx with rfl | hx
  · exact h
  · exact hl x hx

theorem validConsM {keeps : F32 → Prop} {k : Key} {j : J} {l : List (Key × J)} (h : j.Valid keeps)
    (hl : ∀ m ∈ l, m.2.Valid keeps) : ∀ x ∈ (k, j) :: l, x.2.Valid keeps := by
  intro x hx
  rcases List.mem_cons.1 hx with rfl | hx
  · exact h
  · exact hl x hx

theorem validNil {keeps : F32 → Prop} : ∀ x ∈ ([] : List J), x.Valid keeps := by simp
theorem validNilM {keeps : F32 → Prop} : ∀ x ∈ ([] : List (Key × J)), x.2.Valid keeps := by simp

theorem gltfAccessor_valid {keeps : F32 → Prop} {v c n : Nat} {t : String} (hv : v < 10) (hc : c < 10000)
    (hn : n < 18446744073709551616) : (gltfAccessor v c n t).Valid keeps :=
  .obj _ (by simp only [List.map_cons, List.map_nil]; decide)
    (validConsM (.nat (by omega)) (validConsM (.nat (by omega)) (validConsM (.nat hn) (validConsM (.str _)
      (validConsM (.num _ (by decide)) validNilM)))))

theorem gltfView_valid {keeps : F32 → Prop} {o l t : Nat} (ho : o < 18446744073709551616)
    (hl : l < 18446744073709551616) (ht : t < 100000) : (gltfView o l t).Valid keeps :=
  .obj _ (by simp only [List.map_cons, List.map_nil]; decide)
    (validConsM (.num _ (by decide)) (validConsM (.nat ho) (validConsM (.nat hl) (validConsM (.nat (by omega))
      validNilM))))

theorem buildGltf_valid (keeps : F32 → Prop) (name : Str) (m : Mesh) (uri : Option Str)
    (h : (buildGltf name m uri).bin.length < 18446744073709551616) : (buildGltf name m uri).json.Valid keeps := by
  obtain ⟨l1, l2, l3, l4, l5, l6, l7, l8⟩ := gltfLengths m uri h
  have hb : (match uri with
      | some uri => J.arr [.obj [(key!"byteLength", .num (buildGltf name m (some uri)).bin.length), (key!"uri", .str uri)]]
      | none => J.arr [.obj [(key!"byteLength", .num (buildGltf name m none).bin.length)]]).Valid keeps := by
    cases uri with
    | none =>
      exact .arr _ (validCons (.obj _ (by simp only [List.map_cons, List.map_nil]; decide)
        (validConsM (.nat h) validNilM)) validNil)
    | some uri =>
      exact .arr _ (validCons (.obj _ (by simp only [List.map_cons, List.map_nil]; decide)
        (validConsM (.nat h) (validConsM (.str _) validNilM))) validNil)
  have hnum : ∀ n : Int, 0 ≤ n → n < 100 → (J.num n).Valid keeps := fun n h1 h2 => .num n (by omega)
  unfold buildGltf
  refine .obj _ (by simp only [List.map_cons, List.map_nil]; decide) ?_
  refine validConsM (.obj _ (by simp only [List.map_cons, List.map_nil]; decide)
    (validConsM (.str _) (validConsM (.str _) validNilM))) ?_
  refine validConsM (hnum _ (by decide) (by decide)) ?_
  refine validConsM (.arr _ (validCons (.obj _ (by simp only [List.map_cons, List.map_nil]; decide)
    (validConsM (.arr _ (validCons (hnum _ (by decide) (by decide)) validNil)) validNilM)) validNil)) ?_
  refine validConsM (.arr _ (validCons (.obj _ (by simp only [List.map_cons, List.map_nil]; decide)
    (validConsM (hnum _ (by decide) (by decide)) (validConsM (.str _) validNilM))) validNil)) ?_
  refine validConsM (.arr _ (validCons (.obj _ (by simp only [List.map_cons, List.map_nil]; decide)
    (validConsM (.str _) (validConsM (.arr _ (validCons (.obj _ (by simp only [List.map_cons, List.map_nil]; decide)
      (validConsM (.obj _ (by simp only [List.map_cons, List.map_nil]; decide)
        (validConsM (hnum _ (by decide) (by decide)) (validConsM (hnum _ (by decide) (by decide))
          (validConsM (hnum _ (by decide) (by decide)) validNilM))))
      (validConsM (hnum _ (by decide) (by decide)) (validConsM (hnum _ (by decide) (by decide))
      (validConsM (.obj _ (by simp only [List.map_cons, List.map_nil]; decide)
        (validConsM (.arr _ (by
          intro j hj
          obtain ⟨w, -, rfl⟩ := List.mem_map.1 hj
          exact .str _)) validNilM)) validNilM))))) validNil)) validNilM))) validNil)) ?_
  refine validConsM (.arr _ (validCons (gltfAccessor_valid (by decide) (by decide) l1)
    (validCons (gltfAccessor_valid (by decide) (by decide) l1)
    (validCons (gltfAccessor_valid (by decide) (by decide) l1)
    (validCons (gltfAccessor_valid (by decide) (by split <;> decide) l2) validNil))))) ?_
  refine validConsM (.arr _ (validCons (gltfView_valid (by decide) l3 (by decide))
    (validCons (gltfView_valid l3 l4 (by decide))
    (validCons (gltfView_valid l7 l5 (by decide))
    (validCons (gltfView_valid l8 l6 (by decide)) validNil))))) ?_
  exact validConsM (by cases uri <;> exact hb) validNilM

theorem parseGltf_build (name : Str) (m : Mesh) (uri : Option Str) (h32 : ∀ w ∈ m.vertices, w.encoded.length = 32)
    (hf : ∀ f ∈ m.faces, f.Below (256 ^ indexWidth m.vertices.length))
    (h : (buildGltf name m uri).bin.length < 18446744073709551616) :
    parseGltf (buildGltf name m uri) = .ok (name, ⟨m.vertices.map gltfBack, m.faces⟩) := by
  obtain ⟨l1, l2, l3, l4, l5, l6, l7, l8⟩ := gltfLengths m uri h
  have a0 : ∀ (acc views : List J) (i v c n o l t : Nat) (ty : String), acc[i]? = some (gltfAccessor v c n ty) →
      views[v]? = some (gltfView o l t) → v < 18446744073709551616 → o < 18446744073709551616 →
      gltfAccess acc views i = .ok (gltfAccessor v c n ty, o) := by
    intro acc views i v c n o l t ty h1 h2 h3 h4
    unfold gltfAccess
    have g1 : (gltfAccessor v c n ty).at key!"bufferView" = .num v := rfl
    have g2 : (gltfView o l t).at key!"byteOffset" = .num o := rfl
    rw [h1, unwrap_bind, g1, asU64_num h3, unwrap_bind, h2, unwrap_bind, g2, asU64_num h4, unwrap_bind]
    rfl
  obtain ⟨k, hk⟩ := pad4_eq (gltfPositions m.vertices ++ gltfNormals m.vertices ++ gltfTexcoords m.vertices ++
    gltfIndices (m.vertices.length > 65535) m.faces)
  have hbin : (buildGltf name m uri).bin = gltfPositions m.vertices ++ gltfNormals m.vertices ++
    gltfTexcoords m.vertices ++ (gltfIndices (m.vertices.length > 65535) m.faces ++ List.replicate k 0) := by
    show pad4 _ = _
    rw [hk, List.append_assoc]
  have hbin2 : (buildGltf name m uri).bin = (gltfPositions m.vertices ++ gltfNormals m.vertices ++
    gltfTexcoords m.vertices) ++ (gltfIndices (m.vertices.length > 65535) m.faces ++ List.replicate k 0) := hbin
  have hvs : (List.range m.vertices.length).mapM (gltfVertex (buildGltf name m uri).bin 0
      (gltfPositions m.vertices).length ((gltfPositions m.vertices).length + (gltfNormals m.vertices).length)
      (some ((gltfVpxNormals m.vertices).map fun j => j.asStr?.getD []))) = .ok (m.vertices.map gltfBack) := by
    have := mapM_range (gltfVertex (buildGltf name m uri).bin 0
      (gltfPositions m.vertices).length ((gltfPositions m.vertices).length + (gltfNormals m.vertices).length)
      (some ((gltfVpxNormals m.vertices).map fun j => j.asStr?.getD []))) (m.vertices.map gltfBack)
      (fun i hi => by
        rw [List.length_map] at hi
        rw [hbin, gltfVertex_at m h32 _ i hi, List.getElem_map])
    rwa [List.length_map] at this
  have hw : (if decide (m.vertices.length > 65535) = true then 4 else 2) = indexWidth m.vertices.length := by
    unfold indexWidth maxVertices2
    by_cases hv : m.vertices.length > 65535 <;> simp [hv]
  have hcomp : ((if m.vertices.length > 65535 then 5125 else 5123) == 5125) = decide (m.vertices.length > 65535) := by
    by_cases hv : m.vertices.length > 65535 <;> simp [hv]
  have hfs : (List.range m.faces.length).mapM (gltfFace (buildGltf name m uri).bin
      ((gltfPositions m.vertices).length + (gltfNormals m.vertices).length + (gltfTexcoords m.vertices).length)
      (decide (m.vertices.length > 65535))) = .ok m.faces := by
    refine mapM_range _ m.faces fun i hi => ?_
    rw [hbin2, ← List.length_append, ← List.length_append]
    exact gltfFace_at _ _ _ m.faces (fun f hf' => by rw [hw]; exact hf f hf') i hi
  unfold parseGltf
  have e1 : ((buildGltf name m uri).json.at key!"accessors").asArr? = some [
      gltfAccessor 0 5126 m.vertices.length "VEC3", gltfAccessor 1 5126 m.vertices.length "VEC3",
      gltfAccessor 2 5126 m.vertices.length "VEC2",
      gltfAccessor 3 (if m.vertices.length > 65535 then 5125 else 5123) (m.faces.length * 3) "SCALAR"] := rfl
  have e2 : ((buildGltf name m uri).json.at key!"bufferViews").asArr? = some [
      gltfView 0 (gltfPositions m.vertices).length 34962,
      gltfView (gltfPositions m.vertices).length (gltfNormals m.vertices).length 34962,
      gltfView ((gltfPositions m.vertices).length + (gltfNormals m.vertices).length)
        (gltfTexcoords m.vertices).length 34962,
      gltfView ((gltfPositions m.vertices).length + (gltfNormals m.vertices).length
        + (gltfTexcoords m.vertices).length) (gltfIndices (m.vertices.length > 65535) m.faces).length 34963] := rfl
  have e3 : ((((buildGltf name m uri).json.at key!"meshes").idx 0).at key!"name").asStr? = some name := rfl
  have e4 : ((((((buildGltf name m uri).json.at key!"meshes").idx 0).at key!"primitives").idx 0).at
      key!"extras" |>.at key!"vpx_normals").asArr? = some (gltfVpxNormals m.vertices) := rfl
  rw [e1, e2, orIo_bind, orIo_bind]
  dsimp only
  rw [e3, e4]
  simp only [Option.map_some, Option.getD_some]
  rw [Res.thenOk (a0 _ _ 0 0 _ _ _ _ _ _ rfl rfl (by decide) (by decide))]
  dsimp only
  rw [show ((gltfAccessor 0 5126 m.vertices.length "VEC3").at key!"count").asU64? = some m.vertices.length from
    asU64_num l1, unwrap_bind]
  rw [Res.thenOk (a0 _ _ 1 1 _ _ _ _ _ _ rfl rfl (by decide) l3)]
  dsimp only
  rw [Res.thenOk (a0 _ _ 2 2 _ _ _ _ _ _ rfl rfl (by decide) l7)]
  dsimp only
  rw [Res.thenOk (a0 _ _ 3 3 _ _ _ _ _ _ rfl rfl (by decide) l8)]
  dsimp only
  rw [show ((gltfAccessor 3 (if m.vertices.length > 65535 then 5125 else 5123) (m.faces.length * 3) "SCALAR").at
    key!"count").asU64? = some (m.faces.length * 3) from asU64_num l2, unwrap_bind]
  rw [show ((gltfAccessor 3 (if m.vertices.length > 65535 then 5125 else 5123) (m.faces.length * 3) "SCALAR").at
    key!"componentType").asU64? = some (if m.vertices.length > 65535 then 5125 else 5123) from
      asU64_num (by split <;> decide), unwrap_bind]
  rw [Res.thenOk hvs, hcomp, Nat.mul_div_cancel _ (by decide), Res.thenOk hfs]
  rfl

end Vpin
