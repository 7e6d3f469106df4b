import Verif.Lemmas.VpxRead
/-
C22: whole tables; C26 and C27 for written tables; C23: editing in memory.
-/
namespace Vpin

/-! ### C22 -/

/-- **C22.** A table whose parts can be stored and whose counts agree with its lists is written to a file
from which it is read back the same: version, info, tags, game data, and items, images, sounds, fonts
and collections in order; whatever the compound file library does with the order of entries and
non-ASCII case, and whatever the hash is. -/
theorem C22_table_roundtrip (E : Env) (s : VPX) (h : s.WF E) :
    ∃ c s', s.write E = .ok c ∧ VPX.read E c = .ok s' ∧ s.Same s' := by
  obtain ⟨t, ht, d1, d2, d3, d4, d5⟩ := TableBytes.exists_of h
  obtain ⟨s', hr, hs⟩ := VPX.read_file h ht d1 d2 d3 d4 d5 (E.md2 (s.hashInput E.toCfbLib))
  exact ⟨_, s', VPX.write_file h ht, hr, hs⟩

/-- a table with one item of each kind, two images, three sounds, a font and two collections -/
def VPX.sample : VPX where
  custominfotags := ["prop 1".toList, "missing é".toList]
  info := TableInfo.sample
  version := ⟨1080⟩
  gamedata := { GameData.sample with
    gameitems_size := 21
    images_size := 2
    sounds_size := 3
    fonts_size := 1
    collections_size := 2 }
  gameitems := sampleItems
  images := [ImageData.sample, ImageData.sampleBits]
  sounds := [SoundData.sample, SoundData.sampleOgg, SoundData.sampleFloat]
  fonts := [FontData.sample]
  collections := [Collection.sample, Collection.init]

theorem VPX.sample_wf : VPX.sample.WF sampleEnv where
  tags := by decide
  info := ⟨by decide +kernel, by decide +kernel⟩
  gamedata := ⟨GameData.sample_fields, GameData.sample_fits, ⟨fun _ => ⟨rfl, rfl⟩, fun _ h => by cases h⟩⟩
  gameitems := sampleItems_wf
  images := by
    intro x hx
    simp only [VPX.sample, List.mem_cons, List.not_mem_nil, or_false] at hx
    rcases hx with rfl | rfl
    · exact ⟨ImageData.sample_fields, OptP.none, .inl rfl⟩
    · exact ⟨⟨by decide, OptP.some (by decide), by decide, OptP.some (by decide), OptP.none⟩,
        OptP.some (by decide), .inr rfl⟩
  sounds := by
    intro x hx
    simp only [VPX.sample, List.mem_cons, List.not_mem_nil, or_false] at hx
    rcases hx with rfl | rfl | rfl
    · exact ⟨⟨by decide, by decide, by decide, by decide⟩, .inl (by decide), .inl (by decide)⟩
    · exact ⟨⟨by decide, by decide, by decide, by decide⟩, .inr rfl, .inl (by decide)⟩
    · exact ⟨⟨by decide, by decide, by decide, by decide⟩, .inl (by decide), .inl (by decide)⟩
  fonts := by
    intro x hx
    simp only [VPX.sample, List.mem_cons, List.not_mem_nil, or_false] at hx
    subst hx
    exact ⟨by decide, by decide, by decide⟩
  collections := by
    intro x hx
    simp only [VPX.sample, List.mem_cons, List.not_mem_nil, or_false] at hx
    rcases hx with rfl | rfl
    · exact Collection.sample_wf
    · exact ⟨by decide, by decide⟩
  counts := ⟨rfl, rfl, rfl, rfl, rfl⟩

example : VPX.sample.WF sampleEnv := VPX.sample_wf

/-! ### C22: files from elsewhere -/

/-- What must hold of a table that was read for saving it to be lossless: tags and properties have
names the file can hold, every item is of a known kind and its frame records are paired, the
legacy material tables agree with the count, no image has both a bitmap and a file, and single parts
fit in a record. -/
structure VPX.Resavable (E : Env) (s : VPX) : Prop where
  tags : ∀ t ∈ s.custominfotags, TagName t
  info : s.info.WF E.toCfbLib
  fits : s.gamedata.Fits
  layout : s.version.number = 1080 → s.gamedata.is_10_8_0_beta1_to_beta4 = false →
    s.gamedata.bg_enable_fss.isSome → s.gamedata.camera_layout_mode = none
  kinds : ∀ x ∈ s.gameitems, x.kind ≠ none
  frames : ∀ x, GameItemEnum.primitive x ∈ s.gameitems →
    AnimFrames x.compressed_animation_vertices_len x.compressed_animation_vertices_data
  images : ∀ x ∈ s.images, (x.bits = none ∨ x.jpeg = none) ∧ OptP (fun j => RecordData j.data) x.jpeg
  fonts : ∀ x ∈ s.fonts, RecordData x.data

theorem Res.bind_inv {α β : Type} {x : Res α} {f : α → Res β} {b : β} (h : (x >>= f) = .ok b) :
    ∃ a, x = .ok a ∧ f a = .ok b := by
  cases x with
  | error e => cases h
  | ok a => exact ⟨a, rfl, h⟩

theorem readFrom_inv {α : Type} {E : Env} {name : Str} {dec : Bytes → Res α} {c : Cfb} (n : Nat) :
    ∀ (i : Nat) (xs : List α), readFrom E name dec i n c = .ok xs →
      xs.length = n ∧ ∀ x ∈ xs, ∃ b, dec b = .ok x := by
  induction n with
  | zero => intro i xs h; cases h; exact ⟨rfl, by simp⟩
  | succ n ih =>
    intro i xs h
    unfold readFrom at h
    obtain ⟨b, -, h⟩ := Res.bind_inv h
    obtain ⟨x, hx, h⟩ := Res.bind_inv h
    obtain ⟨ys, hys, h⟩ := Res.bind_inv h
    cases h
    obtain ⟨h1, h2⟩ := ih (i + 1) ys hys
    refine ⟨by simp [h1], ?_⟩
    intro y hy
    rcases List.mem_cons.1 hy with rfl | hy
    · exact ⟨b, hx⟩
    · exact h2 y hy

theorem SoundData.storable_of_kept {ext : Str → Option Str} {v : UInt32} {s : SoundData} (hw : s.WF)
    (hk : s.kept ext v = s) : s.Storable ext v := by
  refine ⟨hw, ?_, ?_⟩
  · by_cases h : isWav ext s.path = true
    · exact .inl h
    · have := congrArg SoundData.wave_form hk
      simp only [SoundData.kept] at this
      rw [if_neg h] at this
      exact .inr this.symm
  · by_cases h : 1031 ≤ v.toNat
    · exact .inl h
    · have e1 := congrArg SoundData.volume hk
      have e2 := congrArg SoundData.balance hk
      have e3 := congrArg SoundData.fade hk
      simp only [SoundData.kept] at e1 e2 e3
      rw [if_neg h] at e1 e2 e3
      exact .inr ⟨e1.symm, e2.symm, e3.symm⟩

/-- What is read from any file can be stored, up to the conditions above. -/
theorem VPX.read_wf {E : Env} {c : Cfb} {s : VPX} (h : VPX.read E c = .ok s) (hs : s.Resavable E) : s.WF E := by
  unfold VPX.read at h
  obtain ⟨tags, r1, h⟩ := Res.bind_inv h
  obtain ⟨info, r2, h⟩ := Res.bind_inv h
  obtain ⟨version, r3, h⟩ := Res.bind_inv h
  obtain ⟨gd, r4, h⟩ := Res.bind_inv h
  obtain ⟨items, r5, h⟩ := Res.bind_inv h
  obtain ⟨images, r6, h⟩ := Res.bind_inv h
  obtain ⟨sounds, r7, h⟩ := Res.bind_inv h
  obtain ⟨fonts, r8, h⟩ := Res.bind_inv h
  obtain ⟨colls, r9, h⟩ := Res.bind_inv h
  cases h
  obtain ⟨l5, d5⟩ := readFrom_inv _ _ _ r5
  obtain ⟨l6, d6⟩ := readFrom_inv _ _ _ r6
  obtain ⟨l7, d7⟩ := readFrom_inv _ _ _ r7
  obtain ⟨l8, d8⟩ := readFrom_inv _ _ _ r8
  obtain ⟨l9, d9⟩ := readFrom_inv _ _ _ r9
  refine ⟨?_, hs.info, ?_, ?_, ?_, ?_, ?_, ?_, ⟨l5.symm, l6.symm, l7.symm, l8.symm, l9.symm⟩⟩
  · intro t ht
    refine ⟨?_, hs.tags t ht⟩
    unfold readCustomInfoTags at r1
    split at r1
    · exact readStruct_inv CustomInfoTags.arms_inv CustomInfoTags.init_wf r1 t ht
    · cases r1; cases ht
  · unfold readGameData at r4
    obtain ⟨bs, -, r4⟩ := Res.bind_inv r4
    exact ⟨(GameData.read_inv r4).1, hs.fits, (GameData.read_inv r4).2, hs.layout⟩
  · intro x hx
    obtain ⟨b, hb⟩ := d5 x hx
    refine (read_inv hb).wf (hs.kinds x hx) ?_
    rintro y rfl
    exact hs.frames y hx
  · intro x hx
    obtain ⟨b, hb⟩ := d6 x hx
    have hi : x.RInv := readStruct_inv ImageData.arms_inv ImageData.init_inv hb
    obtain ⟨hone, hd⟩ := hs.images x hx
    exact ⟨⟨hi.1, hi.2.1, hi.2.2.1, hi.2.2.2.1, fun j hj =>
      ⟨(hi.2.2.2.2.2 j hj).1, (hi.2.2.2.2.2 j hj).2.1, (hi.2.2.2.2.2 j hj).2.2, hd j hj⟩⟩,
      hi.2.2.2.2.1, hone⟩
  · intro x hx
    obtain ⟨b, hb⟩ := d7 x hx
    obtain ⟨hw, hk⟩ := SoundData.read_inv hb
    exact SoundData.storable_of_kept hw hk
  · intro x hx
    obtain ⟨b, hb⟩ := d8 x hx
    unfold FontData.read at hb
    split at hb
    · next s' hs' =>
      cases hb
      have hi := readStruct_inv FontData.arms_inv (by decide) hs'
      exact ⟨hi.1, hi.2, hs.fonts _ hx⟩
    · cases hb
  · intro x hx
    obtain ⟨b, hb⟩ := d9 x hx
    exact readStruct_inv Collection.arms_inv Collection.init_wf hb

/-- **C22.** A table read from any file whatsoever can be saved and read again without change, under the
conditions of `VPX.Resavable`. -/
theorem C22_table_reread (E : Env) (c : Cfb) (s : VPX) (h : VPX.read E c = .ok s) (hs : s.Resavable E) :
    ∃ c' s', s.write E = .ok c' ∧ VPX.read E c' = .ok s' ∧ s.Same s' :=
  C22_table_roundtrip E s (VPX.read_wf h hs)

/-- The number of items, images, sounds, fonts and collections read is always the number stored in the
game data. -/
theorem C22_read_counts (E : Env) (c : Cfb) (s : VPX) (h : VPX.read E c = .ok s) : s.Counts := by
  unfold VPX.read at h
  obtain ⟨tags, r1, h⟩ := Res.bind_inv h
  obtain ⟨info, r2, h⟩ := Res.bind_inv h
  obtain ⟨version, r3, h⟩ := Res.bind_inv h
  obtain ⟨gd, r4, h⟩ := Res.bind_inv h
  obtain ⟨items, r5, h⟩ := Res.bind_inv h
  obtain ⟨images, r6, h⟩ := Res.bind_inv h
  obtain ⟨sounds, r7, h⟩ := Res.bind_inv h
  obtain ⟨fonts, r8, h⟩ := Res.bind_inv h
  obtain ⟨colls, r9, h⟩ := Res.bind_inv h
  cases h
  exact ⟨(readFrom_inv _ _ _ r5).1.symm, (readFrom_inv _ _ _ r6).1.symm, (readFrom_inv _ _ _ r7).1.symm,
    (readFrom_inv _ _ _ r8).1.symm, (readFrom_inv _ _ _ r9).1.symm⟩

/-- a custom info tag that is empty makes saving fail: its value is looked up at the storage itself -/
theorem C22_empty_tag_fails :
    ∃ e, VPX.write sampleEnv { VPX.sample with
      custominfotags := [[]]
      gameitems := []
      images := []
      sounds := []
      fonts := []
      collections := [] } = .error e := ⟨.io, by decide +kernel⟩

/-! ### C26 and C27 for written tables -/

/-- **C26.** The integrity check passes on every table that is written. -/
theorem C26_written_table_verifies (E : Env) (s : VPX) (h : s.WF E) :
    ∃ c, s.write E = .ok c ∧ verify E c = .ok true := by
  obtain ⟨t, ht, -⟩ := TableBytes.exists_of h
  refine ⟨_, VPX.write_file h ht, ?_⟩
  obtain ⟨-, hst, -⟩ := VPX.writeParts_ok h ht
  obtain ⟨-, hst⟩ := TableBytes.file_st hst (E.md2 (s.hashInput E.toCfbLib))
  have gm := Cfb.get_of_mem hst.distinct (p := gamePath "MAC".toList)
    (e := .stream (E.md2 (s.hashInput E.toCfbLib))) (by unfold TableBytes.file; simp) (by simp [gamePath])
  unfold verify readMac generateMac
  rw [openStream_of_get gm, TableBytes.macInput_file h ht]
  simp [bind, Except.bind, pure, Except.pure]

/-- **C27.** The checksum stored in a written table is the hash of `VPX.hashInput`: the version, ten
streams of the table info, the custom info tags and their values, the game data and the collections. -/
theorem C27_written_checksum (E : Env) (s : VPX) (h : s.WF E) :
    ∃ c, s.write E = .ok c ∧ readMac E c = .ok (E.md2 (s.hashInput E.toCfbLib)) := by
  obtain ⟨t, ht, -⟩ := TableBytes.exists_of h
  refine ⟨_, VPX.write_file h ht, ?_⟩
  obtain ⟨-, hst, -⟩ := VPX.writeParts_ok h ht
  obtain ⟨-, hst⟩ := TableBytes.file_st hst (E.md2 (s.hashInput E.toCfbLib))
  have gm := Cfb.get_of_mem hst.distinct (p := gamePath "MAC".toList)
    (e := .stream (E.md2 (s.hashInput E.toCfbLib))) (by unfold TableBytes.file; simp) (by simp [gamePath])
  exact openStream_of_get gm

/-- **C27.** Items, images, sounds and fonts do not enter the checksum of a written table: tables that
differ in nothing else have the same one. -/
theorem C27_uncovered_parts (E : Env) (a b : VPX) (ha : a.WF E) (hb : b.WF E)
    (hv : a.version = b.version) (ht : a.custominfotags = b.custominfotags) (hg : a.gamedata = b.gamedata)
    (hc : a.collections = b.collections) (hi : a.info.streams = b.info.streams) :
    ∃ ca cb m, a.write E = .ok ca ∧ b.write E = .ok cb ∧ readMac E ca = .ok m ∧ readMac E cb = .ok m := by
  obtain ⟨ca, h1, h2⟩ := C27_written_checksum E a ha
  obtain ⟨cb, h3, h4⟩ := C27_written_checksum E b hb
  refine ⟨ca, cb, _, h1, h3, h2, ?_⟩
  rw [h4]
  unfold VPX.hashInput
  rw [hv, ht, hg, hc, hi]

end Vpin
