import Verif.Lemmas.GltfValid
import Verif.Props.Gltf
import Verif.Props.GltfScene
/-
C77: the files of the glTF export. Whoever opens what was written, as GLB file or as `.gltf` file with a `.bin` file
beside it, finds the document and the data. `Gltf.openGlb` and `Gltf.openGltf` read them by the rules of glTF.
-/
namespace Vpin
open Gltf (File)

theorem leNat_len32 {n : Nat} (h : n < 4294967296) : leNat (len32 n) = n := by
  unfold len32
  rw [leNat_le32, UInt32.toNat_ofNat']
  omega

theorem glbChunk {bs d rest : Bytes} {n t : Nat} {a b : Bytes} (fuel : Nat) (he : bs = a ++ (b ++ (d ++ rest)))
    (ha : a.length = 4) (hn : leNat a = n) (hb : b.length = 4) (ht : leNat b = t) (hd : d.length = n) (hm : n % 4 = 0) :
    Gltf.glbChunks (fuel + 1) bs = (Gltf.glbChunks fuel rest).map fun r => (t, d) :: r := by
  subst he
  have hcons : ∃ x y, a ++ (b ++ (d ++ rest)) = x :: y := by
    cases a with
    | nil => cases ha
    | cons x y => exact ⟨x, _, rfl⟩
  obtain ⟨x, y, hxy⟩ := hcons
  have e1 : (x :: y).take 4 = a := by rw [← hxy, List.take_left' ha]
  have e2 : (x :: y).drop 4 = b ++ (d ++ rest) := by rw [← hxy, List.drop_left' ha]
  have e3 : (x :: y).drop 8 = d ++ rest := by
    rw [show 8 = 4 + 4 from rfl, ← List.drop_drop, e2, List.drop_left' hb]
  have e4 : (x :: y).drop (8 + n) = rest := by rw [← List.drop_drop, e3, List.drop_left' hd]
  have hlen : ¬ (x :: y).length < 8 + n := by
    rw [← hxy]
    simp only [List.length_append]
    omega
  rw [hxy, Gltf.glbChunks]
  · rw [e1, hn, if_neg (by omega), e4, e3, e2, List.take_left' hb, ht, List.take_left' hd]
  · intro h
    cases h

theorem readContainer_write (JT : JsonText) (p : GltfPayload) (hb : p.bin.length % 4 = 0)
    (hl : (writeGlb JT p).length < 4294967296) :
    ∃ pad, Gltf.readContainer (writeGlb JT p) = some (JT.print p.json ++ List.replicate pad 32, p.bin) := by
  obtain ⟨pad, e, h4, -⟩ := writeGlb_eq JT p
  refine ⟨pad, ?_⟩
  generalize hw : writeGlb JT p = w at *
  have hlen := congrArg List.length e
  simp only [List.length_append] at hlen
  have l1 : (JT.print p.json ++ List.replicate pad 32).length < 4294967296 := by rw [List.length_append]; omega
  have l2 : p.bin.length < 4294967296 := by omega
  generalize JT.print p.json ++ List.replicate pad 32 = text at *
  have e1 : w.take 4 = asciiBytes "glTF" := by rw [e]; exact List.take_left' rfl
  have d1 : w.drop 4 = le32 2 ++ (len32 w.length ++ (len32 text.length ++ (asciiBytes "JSON" ++ (text ++
      (len32 p.bin.length ++ (asciiBytes "BIN\x00" ++ p.bin)))))) := by
    conv => lhs; rw [e]
    exact List.drop_left' rfl
  have d2 : w.drop 8 = len32 w.length ++ (len32 text.length ++ (asciiBytes "JSON" ++ (text ++
      (len32 p.bin.length ++ (asciiBytes "BIN\x00" ++ p.bin))))) := by
    rw [show 8 = 4 + 4 from rfl, ← List.drop_drop, d1]
    exact List.drop_left' rfl
  have d3 : w.drop 12 = len32 text.length ++ (asciiBytes "JSON" ++ (text ++
      (len32 p.bin.length ++ (asciiBytes "BIN\x00" ++ p.bin)))) := by
    rw [show 12 = 8 + 4 from rfl, ← List.drop_drop, d2]
    exact List.drop_left' rfl
  have hc : Gltf.glbChunks 2 (w.drop 12) = some [(0x4E4F534A, text), (0x004E4942, p.bin)] := by
    rw [glbChunk 1 d3 rfl (leNat_len32 l1) rfl (t := 0x4E4F534A) (by decide) rfl h4,
      glbChunk (d := p.bin) (rest := []) 0 (by rw [List.append_nil]) rfl (leNat_len32 l2) rfl (t := 0x004E4942) (by decide)
        rfl hb]
    rfl
  unfold Gltf.readContainer
  rw [e1, d1, d2, List.take_left' (show (le32 2).length = 4 from rfl),
    List.take_left' (show (len32 w.length).length = 4 from rfl), leNat_len32 hl, hc]
  rw [if_pos ⟨by decide, by decide, rfl⟩]
  rfl

theorem unescape_plain : ∀ {s : Str}, '%' ∉ s → Gltf.unescape s = some s
  | [], _ => rfl
  | c :: r, h => by
    have hc : c ≠ '%' := fun hc => h (by simp [hc])
    have hr : '%' ∉ r := fun hr => h (by simp [hr])
    rw [Gltf.unescape, if_neg hc, unescape_plain hr]
    · rfl
    · intro a b r' he
      exact absurd he hc

section
variable [Arith]

/-- what the theorems about files ask for: JSON text keeps finite numbers, and the extra data of the items and of the
table can be printed -/
structure Printing (E : GltfEnv) (JT : JsonText) (vpx : VPX) : Prop where
  finite : ∀ x : F32, x.isFinite = true → JT.keeps x
  items : ∀ it ∈ vpx.gameitems, (E.extras it).Valid JT.keeps
  table : (E.tableExtras vpx.gamedata).Valid JT.keeps

theorem document_printable {E : GltfEnv} {JT : JsonText} {fuel : Nat} {o : GltfOptions} {vpx : VPX} {f : File}
    {bin : Bytes} (hp : Printing E JT vpx) (h : gltfDocument E fuel o vpx = .ok (f, bin)) (hs : f.Small)
    (hb : bin.length < 18446744073709551616) : f.Printable JT.keeps := by
  obtain ⟨meshes, groups, hc, hbuild⟩ := gltfDocument_ok h
  obtain ⟨h1, h2, _⟩ := collectMeshes_groups hc
  refine scene_printable hbuild ?_ hp.table (scene_tree hbuild h1 h2) hs hb
  intro g hg
  obtain ⟨it, hit, he⟩ := collectMeshes_extras hc g hg
  rw [he]
  exact hp.items it hit

theorem document_bin {E : GltfEnv} {fuel : Nat} {o : GltfOptions} {vpx : VPX} {f : File} {bin : Bytes}
    (h : gltfDocument E fuel o vpx = .ok (f, bin)) : f.buffers = [⟨bin.length, none⟩] ∧ bin.length % 4 = 0 := by
  obtain ⟨meshes, groups, hc, hb⟩ := gltfDocument_ok h
  obtain ⟨_, start, textured, gi, h1, h2, h3, hr⟩ := buildScene_ok hb
  obtain rfl : f = (sceneFile E o.units vpx meshes groups (collectMaterials vpx.gamedata) start textured gi).1 :=
    congrArg Prod.fst hr
  obtain rfl : bin = (sceneFile E o.units vpx meshes groups (collectMaterials vpx.gamedata) start textured gi).2 :=
    congrArg Prod.snd hr
  refine ⟨rfl, ?_⟩
  show (pad4 _).length % 4 = 0
  unfold pad4
  rw [List.length_append, List.length_replicate]
  omega

/-- C77: a GLB export is one file of the name that was asked for. Opened by the rules of glTF, it has the document and
all of the data; the reader of the library finds the same. Files of 4 GiB and more are not GLB files. -/
theorem C77_glb {E : GltfEnv} {JT : JsonText} {fuel : Nat} {o : GltfOptions} {vpx : VPX} {file : Str}
    {files : List (Str × Bytes)} (hp : Printing E JT vpx) (hf : o.format = .glb)
    (h : exportGltf E JT fuel o vpx file = .ok files) :
    ∃ f bin bytes, gltfDocument E fuel o vpx = .ok (f, bin) ∧ files = [(file, bytes)] ∧
      (f.Small → bytes.length < 2 ^ 32 → Gltf.openGlb JT.parse bytes = some (f, bin) ∧
        readGlbPayload JT bytes = .ok ⟨f.json, bin⟩) := by
  unfold exportGltf at h
  obtain ⟨⟨f, bin⟩, hd, h⟩ := Res.unbind h
  dsimp only at h
  rw [hf] at h
  cases h
  refine ⟨f, bin, _, hd, rfl, ?_⟩
  intro hs hl
  have hl : (writeGlb JT ⟨f.json, bin⟩).length < 4294967296 := hl
  obtain ⟨hbuf, hmod⟩ := document_bin hd
  obtain ⟨pad, hc⟩ := readContainer_write JT ⟨f.json, bin⟩ hmod hl
  have hbin : bin.length < 4294967296 := by
    obtain ⟨_, e, -, -⟩ := writeGlb_eq JT ⟨f.json, bin⟩
    have hlen := congrArg List.length e
    simp only [List.length_append] at hlen
    omega
  have hv := File.json_valid hp.finite (document_printable hp hd hs (by omega))
  refine ⟨?_, readGlbPayload_write JT _ hv hl⟩
  unfold Gltf.openGlb
  simp only [hc, JT.parse_print _ _ hv, C75_document_read hd, hbuf, Option.bind_eq_bind, Option.bind_some]
  rw [if_pos ⟨trivial, by omega, by omega⟩, List.take_length]
  rfl

/-- the document in the `.gltf` file -/
theorem gltf_document {E : GltfEnv} {JT : JsonText} {fuel : Nat} {o : GltfOptions} {vpx : VPX} (uri : Str) {f : File}
    {bin : Bytes} (hp : Printing E JT vpx) (hd : gltfDocument E fuel o vpx = .ok (f, bin)) (hs : f.Small)
    (hl : bin.length < 18446744073709551616) :
    JT.parse (JT.print ({ f with buffers := [⟨bin.length, some uri⟩] } : File).json) =
      some ({ f with buffers := [⟨bin.length, some uri⟩] } : File).json ∧
    File.read ({ f with buffers := [⟨bin.length, some uri⟩] } : File).json =
      some { f with buffers := [⟨bin.length, some uri⟩] } := by
  have hpr := document_printable hp hd hs hl
  have hv : ({ f with buffers := [⟨bin.length, some uri⟩] } : File).json.Valid JT.keeps := by
    refine File.json_valid hp.finite { hpr with buffers := ?_ }
    intro b hb
    rw [List.mem_singleton.mp hb]
    exact hl
  have hparse := JT.parse_print _ 0 hv
  rw [List.replicate_zero, List.append_nil] at hparse
  obtain ⟨meshes, groups, hc, hb⟩ := gltfDocument_ok hd
  have hextra := scene_read hb (collectMeshes_groups hc).2.2
  exact ⟨hparse, File.read_json _ hextra⟩

/-- the two files -/
theorem gltf_files {E : GltfEnv} {JT : JsonText} {fuel : Nat} {o : GltfOptions} {vpx : VPX} {file : Str}
    {files : List (Str × Bytes)} (hf : o.format = .gltf) (h : exportGltf E JT fuel o vpx file = .ok files) :
    ∃ f bin, gltfDocument E fuel o vpx = .ok (f, bin) ∧ files = [(fileStem file ++ ".bin".toList, bin),
      (file, JT.print ({ f with buffers := [⟨bin.length, some (fileStem file ++ ".bin".toList)⟩] } : File).json)] := by
  unfold exportGltf at h
  obtain ⟨⟨f, bin⟩, hd, h⟩ := Res.unbind h
  dsimp only at h
  rw [hf] at h
  cases h
  refine ⟨f, bin, hd, ?_⟩
  rw [(document_bin hd).1]
  rfl

omit [Arith] in
theorem written_last (a b : Str × Bytes) : Gltf.written [a, b] b.1 = some b.2 := by simp [Gltf.written]

omit [Arith] in
theorem written_other (a b : Str × Bytes) (x : Str) (h : b.1 ≠ x) :
    Gltf.written [a, b] x = if a.1 = x then some a.2 else none := by
  have : (b.1 == x) = false := by simpa using h
  unfold Gltf.written
  by_cases hx : a.1 = x
  · simp [this, hx]
  · simp [this, hx]

/-- C77: a `.gltf` export is a `.gltf` file of the name that was asked for and a `.bin` file with the same stem. Opened
by the rules of glTF, in the directory they were written to, they have the document and all of the data. Not if the
name asked for is that of the `.bin` file, or if it has a percent sign. -/
theorem C77_gltf {E : GltfEnv} {JT : JsonText} {fuel : Nat} {o : GltfOptions} {vpx : VPX} {file : Str}
    {files : List (Str × Bytes)} (hp : Printing E JT vpx) (hf : o.format = .gltf)
    (h : exportGltf E JT fuel o vpx file = .ok files) :
    ∃ f bin text, gltfDocument E fuel o vpx = .ok (f, bin) ∧
      files = [(fileStem file ++ ".bin".toList, bin), (file, text)] ∧
      (f.Small → bin.length < 2 ^ 64 → '%' ∉ fileStem file → file ≠ fileStem file ++ ".bin".toList →
        Gltf.openGltf JT.parse (Gltf.written files) file =
          some ({ f with buffers := [⟨bin.length, some (fileStem file ++ ".bin".toList)⟩] }, bin)) := by
  obtain ⟨f, bin, hd, rfl⟩ := gltf_files hf h
  refine ⟨f, bin, _, hd, rfl, ?_⟩
  intro hs hl hpc hne
  obtain ⟨hparse, hread⟩ := gltf_document (fileStem file ++ ".bin".toList) hp hd hs hl
  have hu : Gltf.unescape (fileStem file ++ ".bin".toList) = some (fileStem file ++ ".bin".toList) := by
    refine unescape_plain ?_
    rw [List.mem_append]
    rintro (h | h)
    · exact hpc h
    · revert h; decide
  unfold Gltf.openGltf
  rw [written_last (fileStem file ++ ".bin".toList, bin) (file, _)]
  simp only [hparse, hread, Option.bind_eq_bind, Option.bind_some, hu]
  rw [written_other _ _ _ hne, if_pos rfl, Option.bind_some, if_pos (Nat.le_refl _), List.take_length]
  rfl

end

/-! ### Examples -/

section
attribute [local instance] ieeeExact

/-- the conditions of C77 are met -/
theorem gltfSample_printing : Printing gltfSample sampleJsonText gltfTable where
  finite _ _ := trivial
  items _ _ := .obj _ (by simp only [List.map_cons, List.map_nil]; decide) (validConsM (.str _) validNilM)
  table := .obj _ (by simp only [List.map_cons, List.map_nil]; decide) (validConsM (.str _) validNilM)

theorem gltfOut_small : (gltfOut.toOption.any fun r => (writeGlb sampleJsonText ⟨r.1.json, r.2⟩).length < 4294967296 &&
    r.1.meshes.length == 7 && [r.1.lights.length, r.1.nodes.length, r.1.meshes.length, r.1.cameras.length,
    r.1.accessors.length, r.1.views.length, r.1.materials.length, r.1.textures.length, r.1.images.length,
    r.1.samplers.length].all (· < 18446744073709551616) && r.2.length < 18446744073709551616) = true := by
  decide +kernel

theorem gltfOut_ok : ∃ f bin, gltfOut = .ok (f, bin) ∧ (writeGlb sampleJsonText ⟨f.json, bin⟩).length < 4294967296 ∧
    f.meshes.length = 7 ∧ f.Small ∧ bin.length < 18446744073709551616 := by
  have h := gltfOut_small
  cases ho : gltfOut with
  | error e => rw [ho] at h; cases h
  | ok r =>
    rw [ho] at h
    have h : (_ && _ && _ && _) = true := h
    simp only [Bool.and_eq_true, decide_eq_true_eq, beq_iff_eq, List.all_eq_true] at h
    obtain ⟨⟨⟨h1, h2⟩, h3⟩, h4⟩ := h
    exact ⟨r.1, r.2, rfl, h1, h2, h3, h4⟩

/-- the GLB file of the example has the seven meshes -/
example : ∃ bytes f bin, exportGltf gltfSample sampleJsonText 10 .default gltfTable "t.glb".toList =
    .ok [("t.glb".toList, bytes)] ∧ Gltf.openGlb sampleJsonText.parse bytes = some (f, bin) ∧ f.meshes.length = 7 := by
  obtain ⟨f, bin, ho, h1, h2, h3, h4⟩ := gltfOut_ok
  have he : exportGltf gltfSample sampleJsonText 10 .default gltfTable "t.glb".toList =
      .ok [("t.glb".toList, writeGlb sampleJsonText ⟨f.json, bin⟩)] := by
    unfold exportGltf
    rw [Res.thenOk (show gltfDocument gltfSample 10 .default gltfTable = _ from ho)]
    rfl
  obtain ⟨f', bin', bytes, hd, hb, hopen⟩ := C77_glb gltfSample_printing rfl he
  have hd' : gltfOut = .ok (f', bin') := hd
  rw [ho] at hd'
  cases hd'
  have hb := congrArg (fun l : List (Str × Bytes) => l.map (·.2)) hb
  simp only [List.map_cons, List.map_nil, List.cons.injEq, and_true] at hb
  rw [← hb] at hopen
  exact ⟨_, f, bin, he, (hopen h3 h1).1, h2⟩

def asGltf : GltfOptions := { GltfOptions.default with format := .gltf }

theorem gltfOut_files (file : String) : ∃ f bin text, gltfDocument gltfSample 10 asGltf gltfTable = .ok (f, bin) ∧
    f.Small ∧ bin.length < 18446744073709551616 ∧ f.meshes.length = 7 ∧
    exportGltf gltfSample sampleJsonText 10 asGltf gltfTable file.toList =
      .ok [(fileStem file.toList ++ ".bin".toList, bin), (file.toList, text)] := by
  obtain ⟨f, bin, ho, h1, h2, h3, h4⟩ := gltfOut_ok
  have ho : gltfDocument gltfSample 10 asGltf gltfTable = .ok (f, bin) := ho
  refine ⟨f, bin, sampleJsonText.print ({ f with buffers := f.buffers.map fun (b : Gltf.Buffer) =>
    { b with uri := some (fileStem file.toList ++ ".bin".toList) } } : File).json, ho, h3, h4, h2, ?_⟩
  unfold exportGltf
  rw [Res.thenOk ho]
  rfl

/-- and so have the two files -/
example : ∃ files f bin, exportGltf gltfSample sampleJsonText 10 asGltf gltfTable "t.gltf".toList = .ok files ∧
    files.map (·.1) = ["t.bin".toList, "t.gltf".toList] ∧
    Gltf.openGltf sampleJsonText.parse (Gltf.written files) "t.gltf".toList = some (f, bin) ∧ f.meshes.length = 7 := by
  obtain ⟨f, bin, text, hd, hs, hl, hm, he⟩ := gltfOut_files "t.gltf"
  obtain ⟨f', bin', text', hd', hfs, hopen⟩ := C77_gltf gltfSample_printing rfl he
  rw [hd] at hd'
  cases hd'
  exact ⟨_, _, bin, he, rfl, hopen hs hl (by decide) (by decide), hm⟩

/-! ### What does not hold -/

/-- If the name that was asked for is that of the `.bin` file, the document overwrites the data: they are in no file. -/
theorem C77_bin_name_counterexample : ∃ files f bin, gltfDocument gltfSample 10 asGltf gltfTable = .ok (f, bin) ∧
    exportGltf gltfSample sampleJsonText 10 asGltf gltfTable "t.bin".toList = .ok files ∧
    ∀ name, Gltf.written files name ≠ some bin := by
  obtain ⟨f, bin, text, hd, hs, hl, hm, he⟩ := gltfOut_files "t.bin"
  obtain ⟨f', bin', hd', hfs⟩ := gltf_files rfl he
  rw [hd] at hd'
  cases hd'
  refine ⟨_, f, bin, hd, he, ?_⟩
  have hshort : (gltfOut.toOption.any fun r => (sampleJsonText.print ({ r.1 with buffers := [⟨r.2.length,
      some (fileStem "t.bin".toList ++ ".bin".toList)⟩] } : File).json).length != r.2.length) = true := by decide +kernel
  have hd : gltfOut = .ok (f, bin) := hd
  rw [hd] at hshort
  have hshort : (_ != _) = true := hshort
  have hne := bne_iff_ne.mp hshort
  have htext : text = sampleJsonText.print ({ f with buffers := [⟨bin.length,
      some (fileStem "t.bin".toList ++ ".bin".toList)⟩] } : File).json := by
    have := congrArg (fun l : List (Str × Bytes) => l.map (·.2)) hfs
    simpa using this
  rw [← htext] at hne
  intro name hw
  by_cases hn : "t.bin".toList = name
  · subst hn
    rw [written_last (_, bin) ("t.bin".toList, text)] at hw
    exact hne (congrArg List.length (Option.some.inj hw))
  · rw [written_other _ _ _ hn, if_neg (show fileStem "t.bin".toList ++ ".bin".toList ≠ name from hn)] at hw
    cases hw

/-- A percent sign in the name is not escaped in the document, so a reader looks for a file that was not written. -/
theorem C77_percent_counterexample : ¬ ∀ (file : String) (files : List (Str × Bytes)),
    exportGltf gltfSample sampleJsonText 10 asGltf gltfTable file.toList = .ok files →
    file.toList ≠ fileStem file.toList ++ ".bin".toList →
    (Gltf.openGltf sampleJsonText.parse (Gltf.written files) file.toList).isSome = true := by
  intro h
  obtain ⟨f, bin, text, hd, hs, hl, hm, he⟩ := gltfOut_files "a%20b.gltf"
  have h := h _ _ he (by decide)
  obtain ⟨f', bin', hd', hfs⟩ := gltf_files rfl he
  rw [hd] at hd'
  cases hd'
  obtain ⟨hparse, hread⟩ := gltf_document (fileStem "a%20b.gltf".toList ++ ".bin".toList) gltfSample_printing hd hs hl
  rw [hfs] at h
  unfold Gltf.openGltf at h
  rw [written_last (fileStem "a%20b.gltf".toList ++ ".bin".toList, bin) ("a%20b.gltf".toList, _)] at h
  have hu : Gltf.unescape (fileStem "a%20b.gltf".toList ++ ".bin".toList) = some "a b.bin".toList := by decide
  simp only [hparse, hread, Option.bind_eq_bind, Option.bind_some, hu] at h
  rw [written_other _ _ _ (show "a%20b.gltf".toList ≠ _ by decide),
    if_neg (show fileStem "a%20b.gltf".toList ++ ".bin".toList ≠ _ by decide)] at h
  cases h

end
end Vpin
