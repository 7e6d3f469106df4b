import Verif.Lemmas.Mesh
/-
C48: the faces of a primitive's mesh.
-/
namespace Vpin

/-- **C48** Faces whose indices are below the number of vertices come back unchanged, whatever the width. -/
theorem C48_faces_back (nv : Nat) (hv : nv ≤ 4294967296) (fs : List Face) (h : ∀ f ∈ fs, f.Below nv) :
    rawFaces (indexWidth nv) (encodeFaces nv fs) = .ok fs := by
  have hw := indexWidth_cases nv
  have hl : (encodeFaces nv fs).length = 3 * indexWidth nv * fs.length :=
    flatMap_length_const _ _ (faceBytes_length hw) fs
  have hn : (encodeFaces nv fs).length / indexWidth nv / 3 = fs.length := by
    rw [hl, Nat.mul_assoc, Nat.mul_left_comm, Nat.mul_div_cancel_left _ (by omega), Nat.mul_div_cancel_left _ (by omega)]
  unfold rawFaces
  rw [hn]
  have := rawFacesLoop_write hv fs [] h
  rwa [List.append_nil] at this

/-- **C48** An index takes two bytes for up to 65535 vertices and four for more. -/
theorem C48_width (nv : Nat) (fs : List Face) :
    (encodeFaces nv fs).length = (if nv ≤ 65535 then 6 else 12) * fs.length := by
  have h : (encodeFaces nv fs).length = 3 * indexWidth nv * fs.length :=
    flatMap_length_const _ _ (faceBytes_length (indexWidth_cases nv)) fs
  rw [h]
  unfold indexWidth maxVertices2
  split <;> split <;> omega

/-- **C48** Bytes of a file that hold whole faces are restored byte for byte. -/
theorem C48_bytes_back (nv : Nat) (bs : Bytes) (h : bs.length % (if nv ≤ 65535 then 6 else 12) = 0) :
    ∃ fs, rawFaces (indexWidth nv) bs = .ok fs ∧ encodeFaces nv fs = bs := by
  have hw := indexWidth_cases nv
  have h6 : (if nv ≤ 65535 then 6 else 12) = 3 * indexWidth nv := by
    unfold indexWidth maxVertices2; split <;> split <;> omega
  rw [h6] at h
  have hn : bs.length / indexWidth nv / 3 = bs.length / (3 * indexWidth nv) := by
    rw [Nat.div_div_eq_div_mul, Nat.mul_comm]
  have hl : 3 * indexWidth nv * (bs.length / (3 * indexWidth nv)) = bs.length :=
    Nat.mul_div_cancel' (Nat.dvd_of_mod_eq_zero h)
  obtain ⟨fs, hfs⟩ := rawFacesLoop_ok hw (bs.length / (3 * indexWidth nv)) bs (by omega)
  refine ⟨fs, by unfold rawFaces; rw [hn]; exact hfs, ?_⟩
  obtain ⟨h1, rest, h2, -⟩ := rawFacesLoop_inv hw _ _ _ hfs
  have hlen : (encodeFaces nv fs).length = 3 * indexWidth nv * fs.length :=
    flatMap_length_const _ _ (faceBytes_length hw) fs
  have hb := congrArg List.length h2
  rw [List.length_append] at hb
  have : rest = [] := by
    apply List.eq_nil_of_length_eq_zero
    rw [← encodeFaces_eq, hlen, h1] at hb
    omega
  rw [this, List.append_nil] at h2
  rw [encodeFaces_eq]; exact h2.symm

/-- **C48** An index that needs more than two bytes is not kept with two: a bound is needed. -/
theorem C48_wrong_width : rawFaces (indexWidth 3) (encodeFaces 3 [⟨65537, 1, 2⟩]) = .ok [⟨1, 1, 2⟩] := by decide +kernel

/-- **C48** Reading a mesh succeeds exactly when the counts in the file agree with the data: nothing is read
beyond the end, and otherwise it stops with a panic or an error. -/
theorem C48_read_mesh (Z : Zlib) (p : Primitive) (vd id raw ind : Bytes) (h1 : p.compressed_vertices_data = some vd)
    (h2 : p.compressed_indices_data = some id) (h3 : Z.decompress vd = .ok raw) (h4 : Z.decompress id = .ok ind) :
    (∃ m, p.readMesh Z = .ok (some m)) ↔
      raw.length / 32 = (p.num_vertices.getD 0).toNat ∧
      ind.length / indexWidth (raw.length / 32) = (p.num_indices.getD 0).toNat := by
  have hw : (if raw.length / 32 > maxVertices2 then ind.length / 4 else ind.length / 2)
      = ind.length / indexWidth (raw.length / 32) := by
    unfold indexWidth; split <;> rfl
  have e : p.readMesh Z = (do
      if raw.length / 32 ≠ (p.num_vertices.getD 0).toNat then throw .panic
      if ind.length / indexWidth (raw.length / 32) ≠ (p.num_indices.getD 0).toNat then throw .panic
      let vertices ← rawVertices (raw.length / 32) raw
      let faces ← rawFaces (indexWidth (raw.length / 32)) ind
      pure (some ⟨vertices, faces⟩)) := by
    unfold Primitive.readMesh
    rw [h1, h2]
    dsimp only
    rw [h3, h4]
    simp only [bind, Except.bind, hw]
  rw [e]
  constructor
  · rintro ⟨m, hm⟩
    by_cases c1 : raw.length / 32 ≠ (p.num_vertices.getD 0).toNat
    · rw [if_pos c1] at hm; cases hm
    · rw [if_neg c1] at hm
      by_cases c2 : ind.length / indexWidth (raw.length / 32) ≠ (p.num_indices.getD 0).toNat
      · rw [if_pos c2] at hm; cases hm
      · exact ⟨Classical.not_not.1 c1, Classical.not_not.1 c2⟩
  · rintro ⟨c1, c2⟩
    rw [if_neg (not_not_intro c1), if_neg (not_not_intro c2)]
    obtain ⟨vs, hv⟩ := rawVertices_ok (raw.length / 32) raw (by omega)
    have hw := indexWidth_cases (raw.length / 32)
    obtain ⟨fs, hf⟩ := rawFacesLoop_ok hw (ind.length / indexWidth (raw.length / 32) / 3) ind (by
      rw [Nat.div_div_eq_div_mul, Nat.mul_comm 3]
      exact Nat.mul_div_le _ _)
    refine ⟨⟨vs, fs⟩, ?_⟩
    have hf' : rawFaces (indexWidth (raw.length / 32)) ind = .ok fs := hf
    simp only [bind, Except.bind, hv, hf']
    rfl

/-! ### Examples -/

def sampleFaces : List Face := [⟨0, 1, 2⟩, ⟨2, 65534, 1⟩]
def bigFaces : List Face := [⟨0, 1, 2⟩, ⟨70000, 65535, 1⟩]

example : (∀ f ∈ sampleFaces, f.Below 65535) ∧ (encodeFaces 65535 sampleFaces).length = 12 := by
  simp [sampleFaces, Face.Below]
  decide
example : (∀ f ∈ bigFaces, f.Below 70001) ∧ (encodeFaces 70001 bigFaces).length = 24 := by
  simp [bigFaces, Face.Below]
  decide

/-- compression that does nothing -/
def plainZlib : Zlib := ⟨id, .ok, fun _ => rfl⟩

end Vpin
