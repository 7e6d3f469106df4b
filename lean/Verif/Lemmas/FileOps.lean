import Verif.Spec.FileOps
import Verif.Lemmas.VpxRead
/-!
Facts about operations on table files.
-/
namespace Vpin
variable {E : Env}

/-- whatever is not the game data or the checksum stays -/
def OnlyGameData (E : Env) (c c' : Cfb) : Prop :=
  ∀ p, E.key p ≠ E.key gameDataPath → E.key p ≠ E.key macPath → c'.get E.toCfbLib p = c.get E.toCfbLib p

theorem OnlyGameData.refl (c : Cfb) : OnlyGameData E c c := fun _ _ _ => rfl

theorem OnlyGameData.trans {a b c : Cfb} (h1 : OnlyGameData E a b) (h2 : OnlyGameData E b c) :
    OnlyGameData E a c := fun p hp hq => (h2 p hp hq).trans (h1 p hp hq)

theorem Res.bind_inv' {α β : Type} {x : Res α} {f : α → Res β} {b : β} (h : (x >>= f) = .ok b) :
    ∃ a, x = .ok a ∧ f a = .ok b := by
  cases x with
  | error e => cases h
  | ok a => exact ⟨a, rfl, h⟩

theorem kind_mac : E.kind macPath = gkind "MAC".toList := kind_game (by decide)

theorem kind_gameData : E.kind gameDataPath = gkind "GameData".toList := kind_game (by decide)

theorem key_ne_of_kind {p q : Path} (h : E.kind p ≠ E.kind q) : E.key p ≠ E.key q := fun h' => h (kind_of_key h')

theorem info_ne_game (n m : Str) : E.kind [infoStg, n] ≠ gkind m := by
  rw [kind_info]; exact (gkind_ne_info _ _).symm

/-- Writing the checksum does not change what it is computed from, if no tag leads to the checksum. -/
theorem macInput_write_mac {c c' : Cfb} {mac : Bytes} (h : writeMac E mac c = .ok c')
    (ht : ∀ t ∈ tagNames E.toCfbLib c, ∀ p, pathOf (infoStg ++ ['/'] ++ t) = some p → E.key p ≠ E.key macPath) :
    macInput E.toCfbLib c' = macInput E.toCfbLib c := by
  have fr : ∀ q, E.key q ≠ E.key macPath → c.get E.toCfbLib q = c'.get E.toCfbLib q := by
    intro q hq
    rw [Cfb.get_createStream h q, if_neg hq]
  have fk : ∀ q, E.kind q ≠ gkind "MAC".toList → c.get E.toCfbLib q = c'.get E.toCfbLib q := by
    intro q hq
    exact fr q (key_ne_of_kind (by rw [kind_mac]; exact hq))
  refine (macInput_congr ?_ ?_ ?_ ?_ ?_ ?_).symm
  · exact fk _ (by rw [kind_game (by decide)]; decide)
  · intro n _
    exact fk _ (info_ne_game _ _)
  · exact fk _ (by rw [kind_game (by decide)]; decide)
  · intro t h1 p h2
    exact fr p (ht t h1 p h2)
  · exact fk _ (by rw [kind_game (by decide)]; decide)
  · intro i
    exact fk _ (by rw [kind_item (by decide)]; decide)

/-- the checksum is stored, nothing else changes -/
theorem refreshMac_inv {c c' : Cfb} (h : refreshMac E c = .ok c') :
    ∃ m, generateMac E c = .ok m ∧ c'.get E.toCfbLib macPath = some (.stream m) ∧ writeMac E m c = .ok c' ∧
      ∀ p, E.key p ≠ E.key macPath → c'.get E.toCfbLib p = c.get E.toCfbLib p := by
  unfold refreshMac at h
  obtain ⟨m, hm, h⟩ := Res.bind_inv' h
  refine ⟨m, hm, ?_, h, ?_⟩
  · have := Cfb.get_createStream h macPath
    rwa [if_pos rfl] at this
  · intro p hp
    rw [Cfb.get_createStream h p, if_neg]
    exact hp

/-- a file whose checksum was refreshed passes the check -/
theorem verify_refreshed {c c' : Cfb} (h : refreshMac E c = .ok c')
    (ht : ∀ t ∈ tagNames E.toCfbLib c, ∀ p, pathOf (infoStg ++ ['/'] ++ t) = some p → E.key p ≠ E.key macPath) :
    verify E c' = .ok true := by
  obtain ⟨m, hm, hg, hw, -⟩ := refreshMac_inv h
  have hi := macInput_write_mac hw ht
  have hg' : generateMac E c' = .ok m := by
    unfold generateMac at hm ⊢
    rw [hi]; exact hm
  unfold verify readMac
  rw [openStream_of_get hg, hg']
  simp [bind, Except.bind, pure, Except.pure]

theorem writeGameData_inv {c c' : Cfb} {g : GameData} {v : Version} (h : writeGameData E g v c = .ok c') :
    ∃ bs, g.write v.number = .ok bs ∧ c'.get E.toCfbLib gameDataPath = some (.stream bs) ∧
      ∀ p, E.key p ≠ E.key gameDataPath → c'.get E.toCfbLib p = c.get E.toCfbLib p := by
  unfold writeGameData at h
  obtain ⟨bs, hb, h⟩ := Res.bind_inv' h
  refine ⟨bs, hb, ?_, ?_⟩
  · have := Cfb.get_createStream h gameDataPath
    rwa [if_pos rfl] at this
  · intro p hp
    rw [Cfb.get_createStream h p, if_neg]
    exact hp

theorem writeRefresh_only {c c' : Cfb} {g : GameData} {v : Version}
    (h : (writeGameData E g v c >>= refreshMac E) = .ok c') : OnlyGameData E c c' := by
  obtain ⟨c1, h1, h2⟩ := Res.bind_inv' h
  obtain ⟨bs, -, -, f1⟩ := writeGameData_inv h1
  obtain ⟨m, -, -, -, f2⟩ := refreshMac_inv h2
  intro p hp hq
  rw [f2 p hq, f1 p hp]

theorem tagNames_congr {c c' : Cfb} (h : c'.get E.toCfbLib (gamePath "CustomInfoTags".toList)
    = c.get E.toCfbLib (gamePath "CustomInfoTags".toList)) : tagNames E.toCfbLib c' = tagNames E.toCfbLib c := by
  unfold tagNames; rw [h]

theorem tags_away {c : Cfb} (h : ∀ t ∈ tagNames E.toCfbLib c, TagName t) {n : Str} (hs : Stem n) :
    ∀ t ∈ tagNames E.toCfbLib c, ∀ p, pathOf (infoStg ++ ['/'] ++ t) = some p → E.key p ≠ E.key (gamePath n) := by
  intro t ht p hp
  obtain ⟨h1, h2, h3, h4⟩ := h t ht
  rw [pathOf_info h2 h1 h3 h4] at hp
  cases hp
  exact key_ne_of_kind (by rw [kind_game hs]; exact info_ne_game _ _)

theorem mac_ne_data : E.key macPath ≠ E.key gameDataPath :=
  key_ne_of_kind (by rw [kind_mac, kind_gameData]; decide)

theorem GameData.hash_ok {v : UInt32} {g : GameData} (h : g.Fields) (hf : g.Fits) :
    ∃ bs d, g.write v = .ok bs ∧ hashBiff bs = .ok d := by
  obtain ⟨p, hr⟩ := GameData.reads (v := v) h hf
  refine ⟨bytesOf (g.ops v) ++ endbBytes, _, ?_, hashBiff_ops hr.good (GameData.hashed v g)⟩
  exact writeBiff_ok _ hr.good

/-- the version and the tags are not touched by rewriting game data and checksum -/
theorem OnlyGameData.version {c c' : Cfb} (h : OnlyGameData E c c') : readVersion E c' = readVersion E c := by
  unfold readVersion
  have : c'.get E.toCfbLib (gamePath "Version".toList) = c.get E.toCfbLib (gamePath "Version".toList) := by
    refine h _ ?_ ?_
    · exact key_ne_of_kind (by rw [kind_game (by decide), kind_gameData]; decide)
    · exact key_ne_of_kind (by rw [kind_game (by decide), kind_mac]; decide)
  unfold Cfb.openStream
  rw [this]

theorem OnlyGameData.tagNames {c c' : Cfb} (h : OnlyGameData E c c') :
    tagNames E.toCfbLib c' = Vpin.tagNames E.toCfbLib c := by
  refine tagNames_congr (h _ ?_ ?_)
  · exact key_ne_of_kind (by rw [kind_game (by decide), kind_gameData]; decide)
  · exact key_ne_of_kind (by rw [kind_game (by decide), kind_mac]; decide)

/-- **Rewriting the game data of a usable file succeeds**, gives a usable file with the new game data, and
the check passes. -/
theorem TableFile.update {c : Cfb} {v : Version} {g g' : GameData} (h : TableFile E c v g)
    (hw : g'.WF v.number) :
    ∃ c', (writeGameData E g' v c >>= refreshMac E) = .ok c' ∧ TableFile E c' v g' ∧
      OnlyGameData E c c' ∧ verify E c' = .ok true := by
  obtain ⟨bs, d, hb, hd⟩ := GameData.hash_ok (v := v.number) hw.1 hw.2.1
  obtain ⟨bs', hb', hr⟩ := C12_gamedata_roundtrip v.number g' hw
  rw [hb] at hb'; cases hb'
  have hold : ∃ old, c.get E.toCfbLib gameDataPath = some (.stream old) := by
    have hg := h.gamedata
    unfold readGameData at hg
    obtain ⟨old, ho, -⟩ := Res.bind_inv' hg
    unfold Cfb.openStream at ho
    split at ho
    · next b hb => exact ⟨b, hb⟩
    · cases ho
  obtain ⟨old, hold⟩ := hold
  obtain ⟨c1, h1⟩ := Cfb.createStream_replace bs hold
  have hw1 : writeGameData E g' v c = .ok c1 := by
    unfold writeGameData; rw [hb]; exact h1
  obtain ⟨bs', hb', hg1, f1⟩ := writeGameData_inv hw1
  rw [hb] at hb'; cases hb'
  have fk : ∀ q, E.kind q ≠ gkind "GameData".toList → c.get E.toCfbLib q = c1.get E.toCfbLib q := by
    intro q hq
    exact (f1 q (key_ne_of_kind (by rw [kind_gameData]; exact hq))).symm
  obtain ⟨m0, hm0⟩ := h.hashable
  unfold generateMac at hm0
  obtain ⟨b0, hb0, -⟩ := Res.bind_inv' hm0
  have hmi : ∃ b', macInput E.toCfbLib c1 = .ok b' := by
    refine macInput_ok_of (d := d) ?_ ?_ ?_ ?_ ?_ hb0 ?_
    · exact fk _ (by rw [kind_game (by decide)]; decide)
    · intro n _
      exact fk _ (info_ne_game _ _)
    · exact fk _ (by rw [kind_game (by decide)]; decide)
    · intro t ht p hp
      exact (f1 p (tags_away h.tags (by decide) t ht p hp)).symm
    · intro i
      exact fk _ (by rw [kind_item (by decide)]; decide)
    · exact (hashBiffIf_stream hg1).trans hd
  obtain ⟨b', hb'⟩ := hmi
  have htag1 : Vpin.tagNames E.toCfbLib c1 = Vpin.tagNames E.toCfbLib c :=
    tagNames_congr (fk _ (by rw [kind_game (by decide)]; decide)).symm
  have hmac : ∃ c2, writeMac E (E.md2 b') c1 = .ok c2 := by
    rcases h.slot with ⟨o, ho⟩ | ⟨hn, hs⟩
    · rw [fk _ (by rw [kind_mac]; decide)] at ho
      exact Cfb.createStream_replace _ ho
    · rw [fk _ (by rw [kind_mac]; decide)] at hn
      rw [fk _ (by rw [kind_stg]; decide)] at hs
      exact ⟨_, Cfb.createStream_fresh (d := [gameStg]) (n := "MAC".toList) _ hn hs (by decide)⟩
  obtain ⟨c2, h2⟩ := hmac
  have hrf : refreshMac E c1 = .ok c2 := by
    unfold refreshMac generateMac
    rw [hb']; exact h2
  have hall : (writeGameData E g' v c >>= refreshMac E) = .ok c2 := by
    rw [hw1]; exact hrf
  have honly := writeRefresh_only hall
  have hv := verify_refreshed hrf (by rw [htag1]; exact tags_away h.tags (by decide))
  obtain ⟨m, hm, hgm, -, f2⟩ := refreshMac_inv hrf
  refine ⟨c2, hall, ⟨?_, ?_, hw, ?_, .inl ⟨_, hgm⟩, ?_⟩, honly, hv⟩
  · rw [honly.version]; exact h.version
  · unfold readGameData
    have e : c2.get E.toCfbLib gameDataPath = some (.stream bs) := by
      rw [f2 _ (Ne.symm mac_ne_data)]; exact hg1
    rw [show gamePath "GameData".toList = gameDataPath from rfl, openStream_of_get e]
    exact hr
  · have hi := macInput_write_mac h2 (by rw [htag1]; exact tags_away h.tags (by decide))
    refine ⟨E.md2 b', ?_⟩
    unfold generateMac
    rw [hi, hb']; rfl
  · rw [honly.tagNames]; exact h.tags

end Vpin
