import Verif.Lemmas.Structs
import Verif.Lemmas.QuantizeMono
/-!
C14 (collections and custom info tags), C19 (materials), C20 (render probes).
-/
namespace Vpin

/-! ### C14 -/

/-- **C14.** A collection written to bytes reads back equal. -/
theorem C14_collection_roundtrip (c : Collection) (h : c.WF) :
    ∃ bs, c.write = .ok bs ∧ Collection.read bs = .ok c :=
  (Collection.reads h).roundtrip

example : Collection.sample.WF := Collection.sample_wf

/-- **C14.** A collection read from any bytes can be written, and the result reads back equal. -/
theorem C14_collection_reread (bs : Bytes) (c : Collection) (h : Collection.read bs = .ok c) :
    ∃ bs', c.write = .ok bs' ∧ Collection.read bs' = .ok c :=
  C14_collection_roundtrip c (readStruct_inv Collection.arms_inv Collection.init_wf h)

/-- **C14.** The list of custom info tag names written to bytes reads back equal, in order. -/
theorem C14_custominfotags_roundtrip (l : List Str) (h : ∀ t ∈ l, Text t) :
    ∃ bs, CustomInfoTags.write l = .ok bs ∧ CustomInfoTags.read bs = .ok l :=
  (CustomInfoTags.reads h).roundtrip

example : ∀ t ∈ ["b".toList, "é a".toList, [], "b".toList], Text t := by decide

/-- **C14.** Tag names read from any bytes can be written, and the result reads back equal. -/
theorem C14_custominfotags_reread (bs : Bytes) (l : List Str) (h : CustomInfoTags.read bs = .ok l) :
    ∃ bs', CustomInfoTags.write l = .ok bs' ∧ CustomInfoTags.read bs' = .ok l :=
  C14_custominfotags_roundtrip l (readStruct_inv CustomInfoTags.arms_inv CustomInfoTags.init_wf h)

/-! ### C19 -/

/-- **C19.** A modern material record reads back equal. -/
theorem C19_material_roundtrip (m : Material) (h : Text m.name) :
    ∃ bs, m.write = .ok bs ∧ Material.read bs = .ok m :=
  (Material.reads h).roundtrip

example : Text Material.sample.name := by decide

/-- **C19.** A material read from any bytes can be written, and the result reads back equal. -/
theorem C19_material_reread (bs : Bytes) (m : Material) (h : Material.read bs = .ok m) :
    ∃ bs', m.write = .ok bs' ∧ Material.read bs' = .ok m :=
  by
  have : m.WF := readStruct_inv Material.arms_inv Material.init_wf h
  exact C19_material_roundtrip m this

/-- **C19.** The fixed-size legacy material array: any list of materials is written as 76 bytes
each, and reading as many entries gives the list back, whatever follows. -/
theorem C19_legacy_roundtrip (l : List SaveMaterial) (h : ∀ m ∈ l, Name31 m.name) (rest : Bytes) :
    ∃ bs, bytesList SaveMaterial.bytes l = .ok bs ∧ bs.length = 76 * l.length ∧
      bmList bmSaveMaterial l.length (bs ++ rest) = .ok (l, rest) := by
  obtain ⟨p, h1, h2, h3⟩ := bmList_rt l fun m hm => SaveMaterial.bt (h m hm)
  exact ⟨p, h1, h2, h3 rest⟩

example : ∀ m ∈ [SaveMaterial.sample, { SaveMaterial.sample with name := [] }], Name31 m.name := by
  decide

/-- **C19.** The same for the legacy physics array, 48 bytes each. -/
theorem C19_legacy_physics_roundtrip (l : List SavePhysicsMaterial) (h : ∀ m ∈ l, Name31 m.name)
    (rest : Bytes) :
    ∃ bs, bytesList SavePhysicsMaterial.bytes l = .ok bs ∧ bs.length = 48 * l.length ∧
      bmList bmSavePhysicsMaterial l.length (bs ++ rest) = .ok (l, rest) := by
  obtain ⟨p, h1, h2, h3⟩ := bmList_rt l fun m hm => SavePhysicsMaterial.bt (h m hm)
  exact ⟨p, h1, h2, h3 rest⟩

example : ∀ m ∈ [SavePhysicsMaterial.sample], Name31 m.name := by decide

theorem BM.bind_inv {α β : Type} {g : BM α} {k : α → BM β} {bs bs' : Bytes} {u : β}
    (h : (g >>= k) bs = .ok (u, bs')) : ∃ v b1, g bs = .ok (v, b1) ∧ k v b1 = .ok (u, bs') := by
  change (do let (a, s') ← g bs; k a s') = _ at h
  cases hg : g bs with
  | error e => rw [hg] at h; cases h
  | ok p => rw [hg] at h; exact ⟨p.1, p.2, rfl, h⟩

theorem bmPaddedCstring_inv {bs bs' : Bytes} {s : Str} (h : bmPaddedCstring bs = .ok (s, bs')) :
    Name31 s := by
  obtain ⟨d, b1, h1, h2⟩ := BM.bind_inv h
  have hl : d.length = 32 := by
    unfold bmTake at h1
    split at h1
    · next hn => cases h1; simp [maxNameBuffer] at hn ⊢; omega
    · cases h1
  by_cases h0 : (0 : UInt8) ∈ d
  · simp only [if_pos h0] at h2
    cases h2
    refine ⟨isLatin1_decode _, nulFree_decode (cutNul_zero_not_mem _), ?_⟩
    rw [decodeLatin1_length]
    have : ∀ l : Bytes, 0 ∈ l → (cutNul l).length < l.length := by
      intro l
      induction l with
      | nil => intro h; cases h
      | cons b l ih =>
        intro hm
        by_cases hb : b = 0
        · simp [cutNul, hb]
        · have : (0 : UInt8) ∈ l := by
            rcases List.mem_cons.1 hm with e | e
            · exact absurd e.symm hb
            · exact e
          simp [cutNul, hb]; exact ih this
    have := this d h0
    omega
  · simp only [if_neg h0] at h2
    cases h2

theorem bmSaveMaterial_inv {bs bs' : Bytes} {m : SaveMaterial}
    (h : bmSaveMaterial bs = .ok (m, bs')) : Name31 m.name := by
  obtain ⟨n, b1, h1, h⟩ := BM.bind_inv h
  have hn := bmPaddedCstring_inv h1
  iterate 15 (obtain ⟨_, _, -, h⟩ := BM.bind_inv h)
  cases h
  exact hn

theorem bmSavePhysicsMaterial_inv {bs bs' : Bytes} {m : SavePhysicsMaterial}
    (h : bmSavePhysicsMaterial bs = .ok (m, bs')) : Name31 m.name := by
  obtain ⟨n, b1, h1, h⟩ := BM.bind_inv h
  have hn := bmPaddedCstring_inv h1
  iterate 4 (obtain ⟨_, _, -, h⟩ := BM.bind_inv h)
  cases h
  exact hn

theorem bmList_inv {α : Type} {g : BM α} {P : α → Prop}
    (hg : ∀ bs a bs', g bs = .ok (a, bs') → P a) :
    ∀ (n : Nat) (bs : Bytes) (l : List α) (bs' : Bytes), bmList g n bs = .ok (l, bs') →
      l.length = n ∧ ∀ a ∈ l, P a
  | 0, bs, l, bs', h => by cases h; exact ⟨rfl, by intro a ha; cases ha⟩
  | n + 1, bs, l, bs', h => by
    obtain ⟨a, b1, h1, h⟩ := BM.bind_inv h
    obtain ⟨as, b2, h2, h⟩ := BM.bind_inv h
    cases h
    obtain ⟨e, hp⟩ := bmList_inv hg n _ _ _ h2
    refine ⟨by simp [e], ?_⟩
    intro x hx
    rcases List.mem_cons.1 hx with rfl | hx
    · exact hg _ _ _ h1
    · exact hp x hx

/-- **C19.** Whatever legacy materials are read from any bytes are restored by writing and reading
them again (padding bytes with random content are not kept). -/
theorem C19_legacy_reread (n : Nat) (bs rest : Bytes) (l : List SaveMaterial)
    (h : bmList bmSaveMaterial n bs = .ok (l, rest)) :
    ∃ bs', bytesList SaveMaterial.bytes l = .ok bs' ∧
      bmList bmSaveMaterial n (bs' ++ rest) = .ok (l, rest) := by
  obtain ⟨e, hp⟩ := bmList_inv (P := fun m => Name31 m.name) (fun _ _ _ => bmSaveMaterial_inv) n bs l rest h
  obtain ⟨p, h1, -, h3⟩ := C19_legacy_roundtrip l hp rest
  rw [e] at h3
  exact ⟨p, h1, h3⟩

/-- **C19.** The same for legacy physics materials. -/
theorem C19_legacy_physics_reread (n : Nat) (bs rest : Bytes) (l : List SavePhysicsMaterial)
    (h : bmList bmSavePhysicsMaterial n bs = .ok (l, rest)) :
    ∃ bs', bytesList SavePhysicsMaterial.bytes l = .ok bs' ∧
      bmList bmSavePhysicsMaterial n (bs' ++ rest) = .ok (l, rest) := by
  obtain ⟨e, hp⟩ := bmList_inv (P := fun m => Name31 m.name) (fun _ _ _ => bmSavePhysicsMaterial_inv)
    n bs l rest h
  obtain ⟨p, h1, -, h3⟩ := C19_legacy_physics_roundtrip l hp rest
  rw [e] at h3
  exact ⟨p, h1, h3⟩

/-- **C19.** A Latin-1 name of any length is stored in the legacy formats cut to its first 31
characters. -/
theorem C19_legacy_name_cut (s : Str) (h1 : IsLatin1 s) (h2 : NulFree s) :
    paddedCstring s = paddedCstring (s.take 31) ∧ Name31 (s.take 31) := by
  have hn : Name31 (s.take 31) :=
    ⟨fun c hc => h1 c (List.mem_of_mem_take hc), fun c hc => h2 c (List.mem_of_mem_take hc),
      by simp; omega⟩
  refine ⟨?_, hn⟩
  have key : ∀ (k : Nat) (s : Str) (d : Bytes), encodeLatin1 s = .ok d →
      encodeLatin1 (s.take k) = .ok (d.take k) := by
    intro k s
    induction s generalizing k with
    | nil => intro d h; cases h; simp [encodeLatin1]
    | cons c cs ih =>
      intro d h
      cases k with
      | zero => simp [encodeLatin1]
      | succ k =>
        unfold encodeLatin1 at h
        split at h
        · next b bs hb hbs =>
          cases h
          simp only [List.take_succ_cons, encodeLatin1, hb, ih k bs hbs]
        · cases h
  obtain ⟨d, hd⟩ := (encodeLatin1_ok_iff s).2 h1
  have hk := key 31 s d hd
  simp only [paddedCstring, hd, hk, maxNameBuffer, List.take_take]
  rfl

example : paddedCstring "abcdefghijklmnopqrstuvwxyz0123456789".toList
    = paddedCstring "abcdefghijklmnopqrstuvwxyz01234".toList := by decide

theorem ge0_of_lt {x : F32} (h : x.toNat ≤ 0x7f800000) : x.ge0 = true := by
  unfold F32.ge0 F32.isNaN F32.isNeg
  have h1 : x.toNat % 0x80000000 = x.toNat := Nat.mod_eq_of_lt (by omega)
  simp [h1]; omega

theorem clamp_ge0 {lo hi x : F32} (hlo : lo.toNat ≤ 0x7f800000) (hhi : hi.toNat ≤ 0x7f800000)
    (hx : x.isNaN = false) : (f32Clamp lo hi x).ge0 = true := by
  unfold f32Clamp
  rw [hx]
  simp only [Bool.false_eq_true, if_false]
  split
  · split
    · next h => simp [F32.ge0, hx, h.1]
    · exact ge0_of_lt hlo
  · next hneg =>
    split
    · exact ge0_of_lt hlo
    · split
      · exact ge0_of_lt hhi
      · simp [F32.ge0, hx, hneg]

theorem quantizeU8_ok {bits : Nat} {x : F32} (h : x.ge0 = true) : ∃ v, quantizeU8 bits x = .ok v := by
  unfold quantizeU8 quantizeN
  rw [h]
  exact ⟨_, rfl⟩

theorem quantizeU8_7_lt {x : F32} {v : UInt8} (h : quantizeU8 7 x = .ok v) : v.toNat < 128 := by
  unfold quantizeU8 quantizeN at h
  cases hx : x.ge0 with
  | false => rw [hx] at h; cases h
  | true =>
    rw [hx] at h
    injection h with h
    subst h
    have hm : (f32ToU32 (f32MinPos (f32Scale x.abs (2 ^ 7)) (f32OfFrac (2 ^ 7 - 1) 1))).toNat ≤ 127 := by
      refine Nat.le_trans (f32ToU32_mono (y := f32OfFrac 127 1) (by decide +kernel) ?_)
        (by decide +kernel : (f32ToU32 (f32OfFrac 127 1)).toNat ≤ 127)
      rw [f32MinPos_toNat]
      exact Nat.min_le_right _ _
    rw [UInt8.toNat_ofNat']
    omega

theorem clampLo_ok : (0x3d4ccccd : F32).toNat ≤ 0x7f800000 := by decide
theorem clampZero_ok : (0 : F32).toNat ≤ 0x7f800000 := by decide
theorem clampOne_ok : f32One.toNat ≤ 0x7f800000 := by decide

/-- **C19.** Every modern material whose three quantised factors are numbers converts to the legacy
format; texts, colours and unquantised factors are copied, the image factor is stored inverted and
the thickness is stored as clamped to `0.05 .. 1`, and the opacity switch and the 7-bit
edge weight can be read back from the shared byte. -/
theorem C19_to_legacy (m : Material) (h1 : m.glossy_image_lerp.isNaN = false)
    (h2 : m.thickness.isNaN = false) (h3 : m.edge_alpha.isNaN = false) :
    ∃ s, SaveMaterial.ofMaterial m = .ok s ∧
      s.name = m.name ∧ s.base_color = m.base_color ∧ s.glossy_color = m.glossy_color ∧
      s.clearcoat_color = m.clearcoat_color ∧ s.wrap_lighting = m.wrap_lighting ∧
      s.roughness = m.roughness ∧ s.edge = m.edge ∧ s.opacity = m.opacity ∧
      (s.is_metal = true ↔ m.type_ = .Metal) ∧
      (∃ g, quantizeU8 8 (f32Clamp 0 f32One m.glossy_image_lerp) = .ok g ∧
        s.glossy_image_lerp.toNat + g.toNat = 255) ∧
      quantizeU8 8 (f32Clamp 0x3d4ccccd f32One m.thickness) = .ok s.thickness ∧
      (s.opacity_active_edge_alpha.toNat % 2 = 1 ↔ m.opacity_active = true) ∧
      quantizeU8 7 (f32Clamp 0 f32One m.edge_alpha) = .ok (s.opacity_active_edge_alpha >>> 1) := by
  obtain ⟨g, hg⟩ := quantizeU8_ok (bits := 8) (clamp_ge0 clampZero_ok clampOne_ok h1)
  obtain ⟨t, ht⟩ := quantizeU8_ok (bits := 8) (clamp_ge0 clampLo_ok clampOne_ok h2)
  obtain ⟨e, he⟩ := quantizeU8_ok (bits := 7) (clamp_ge0 clampZero_ok clampOne_ok h3)
  have hlt := quantizeU8_7_lt he
  have key : ∀ (e : Fin 128) (a : Bool),
      ((((if a then (1 : UInt8) else 0) ||| (UInt8.ofNat e.val <<< 1)).toNat % 2 = 1 ↔ a = true) ∧
       ((if a then (1 : UInt8) else 0) ||| (UInt8.ofNat e.val <<< 1)) >>> 1 = UInt8.ofNat e.val) := by
    decide +kernel
  have hk := key ⟨e.toNat, hlt⟩ m.opacity_active
  simp only [UInt8.ofNat_toNat] at hk
  refine ⟨_, by unfold SaveMaterial.ofMaterial; rw [hg, ht, he], rfl, rfl, rfl, rfl, rfl, rfl, rfl,
    rfl, ?_, ⟨g, hg, ?_⟩, ht, hk.1, ?_⟩
  · simp
  · have : ∀ g : Fin 256, (255 - UInt8.ofNat g.val).toNat + g.val = 255 := by decide +kernel
    have h := this ⟨g.toNat, g.toNat_lt⟩
    simp only [UInt8.ofNat_toNat] at h
    exact h
  · rw [he, hk.2]

/-- **C19.** The legacy physics record of a modern material carries its name and its four physical
factors, each in its own place. -/
theorem C19_to_legacy_physics (m : Material) :
    (SavePhysicsMaterial.ofMaterial m).name = m.name ∧
    (SavePhysicsMaterial.ofMaterial m).elasticity = m.elasticity ∧
    (SavePhysicsMaterial.ofMaterial m).elasticity_falloff = m.elasticity_falloff ∧
    (SavePhysicsMaterial.ofMaterial m).friction = m.friction ∧
    (SavePhysicsMaterial.ofMaterial m).scatter_angle = m.scatter_angle := ⟨rfl, rfl, rfl, rfl, rfl⟩

example : Material.default.thickness.isNaN = false ∧ Material.default.edge_alpha.isNaN = false := by
  decide

/-! ### C20 -/

/-- **C20.** A render probe followed by any trailing bytes reads back equal, trailing bytes
included. -/
theorem C20_probe_roundtrip (p : RenderProbeWithGarbage) (h : Text p.render_probe.name) :
    ∃ bs, p.write = .ok bs ∧ RenderProbeWithGarbage.read bs = .ok p :=
  ⟨_, RenderProbeWithGarbage.write_ok h, RenderProbeWithGarbage.read_bytes h _⟩

example : Text RenderProbe.sample.name := by decide

/-- **C20.** The bytes written are those of the probe without trailing data, followed by exactly
the trailing bytes. -/
theorem C20_trailing_is_suffix (p : RenderProbe) (d : Bytes) (h : Text p.name) :
    ∃ bs, RenderProbeWithGarbage.write ⟨p, []⟩ = .ok bs ∧
      RenderProbeWithGarbage.write ⟨p, d⟩ = .ok (bs ++ d) := by
  refine ⟨_, RenderProbeWithGarbage.write_ok h, ?_⟩
  have := RenderProbeWithGarbage.write_ok (s := ⟨p, d⟩) h
  rw [this]
  simp

/-- **C20.** A probe read from any bytes can be written, and the result reads back equal, trailing
bytes included. -/
theorem C20_probe_reread (bs : Bytes) (p : RenderProbeWithGarbage)
    (h : RenderProbeWithGarbage.read bs = .ok p) :
    ∃ bs', p.write = .ok bs' ∧ RenderProbeWithGarbage.read bs' = .ok p := by
  refine C20_probe_roundtrip p ?_
  unfold RenderProbeWithGarbage.read at h
  split at h
  · cases h
  · next probe r hr =>
    split at h
    · cases h
    · cases h
      exact loop_inv RenderProbe.arms_inv _ _ _ _ _ RenderProbe.init_wf hr

end Vpin
