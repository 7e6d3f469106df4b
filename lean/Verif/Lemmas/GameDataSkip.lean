import Verif.Lemmas.GameData
import Verif.Lemmas.Skip
import Verif.Lemmas.ItemWrite
/-!
Skipping unknown records of game data, whose default arm records the tag it skipped.
-/
namespace Vpin

theorem GameData.arms_tame {v : UInt32} : ArmsTame (GameData.arms v) :=
  GameData.armsA_tame.append <| GameData.armsB_tame.append <| GameData.armsC_tame.append <|
    GameData.armsD_tame.append <| GameData.armsE_tame.append <| GameData.armsF_tame.append <|
    .cons (fun _ => (Tame.getTag).bind fun _ => Tame.getRecordData.bind fun _ => Tame.pure _) .nil

/-- the arms cannot tell these states apart -/
def GSame (v : UInt32) (a b : GDState) : Prop :=
  a.gd = b.gd ∧ ((v = 1080 ∧ a.prev ≠ tag!"BOTM") ↔ (v = 1080 ∧ b.prev ≠ tag!"BOTM"))

def ArmsFree (v : UInt32) (hs : Handlers GDState) : Prop :=
  ∀ x ∈ hs, ∀ a b, GSame v a b → x.2 a = x.2 b

theorem ArmsFree.nil {v : UInt32} : ArmsFree v [] := fun _ h => absurd h (by simp)

theorem ArmsFree.cons {v : UInt32} {x : Tag × (GDState → R GDState)} {hs : Handlers GDState}
    (h : ∀ a b, GSame v a b → x.2 a = x.2 b) (hs' : ArmsFree v hs) : ArmsFree v (x :: hs) := by
  intro y hy
  rcases List.mem_cons.1 hy with rfl | hy
  · exact h
  · exact hs' y hy

theorem ArmsFree.append {v : UInt32} {a b : Handlers GDState} (ha : ArmsFree v a) (hb : ArmsFree v b) :
    ArmsFree v (a ++ b) := by
  intro y hy
  rcases List.mem_append.1 hy with hy | hy
  · exact ha y hy
  · exact hb y hy

theorem gfld_free {v : UInt32} {α : Type} {t : Tag} {get : R α} {set : α → GameData → GameData}
    (a b : GDState) (h : GSame v a b) : (gfld t get set).2 a = (gfld t get set).2 b := by
  simp only [gfld, fld, h.1]

theorem gfldS_free {v : UInt32} {α : Type} {t : Tag} {get : GameData → R α}
    {set : α → GameData → GameData} (a b : GDState) (h : GSame v a b) :
    (gfldS t get set).2 a = (gfldS t get set).2 b := by
  simp only [gfldS, fld, h.1]

theorem efss_free {v : UInt32} (a b : GDState) (h : GSame v a b) : efssArm v a = efssArm v b := by
  simp only [efssArm, fld, h.1, h.2]

theorem other_free {v : UInt32} (a b : GDState) (h : GSame v a b) :
    gameDataOther a = gameDataOther b := by
  simp only [gameDataOther, h.1]

local macro "free" : tactic => `(tactic|
  repeat first
    | exact ArmsFree.nil
    | refine ArmsFree.cons gfld_free ?_
    | refine ArmsFree.cons gfldS_free ?_
    | refine ArmsFree.cons efss_free ?_)

theorem GameData.armsA_free {v : UInt32} : ArmsFree v (GameData.armsA v) := by
  unfold GameData.armsA; free
theorem GameData.armsB_free {v : UInt32} : ArmsFree v GameData.armsB := by
  unfold GameData.armsB; free
theorem GameData.armsC_free {v : UInt32} : ArmsFree v GameData.armsC := by
  unfold GameData.armsC; free
theorem GameData.armsD_free {v : UInt32} : ArmsFree v GameData.armsD := by
  unfold GameData.armsD; free
theorem GameData.armsE_free {v : UInt32} : ArmsFree v GameData.armsE := by
  unfold GameData.armsE; free
theorem GameData.armsF_free {v : UInt32} : ArmsFree v GameData.armsF := by
  unfold GameData.armsF; free

theorem GameData.arms_free {v : UInt32} : ArmsFree v (GameData.arms v) :=
  GameData.armsA_free.append <| GameData.armsB_free.append <| GameData.armsC_free.append <|
    GameData.armsD_free.append <| GameData.armsE_free.append <| GameData.armsF_free.append <|
    .cons other_free .nil

theorem dispatch_free {v : UInt32} {t : Tag} {a b : GDState} (h : GSame v a b) :
    dispatch (GameData.arms v) t a = dispatch (GameData.arms v) t b := by
  unfold dispatch
  split
  · next f hf => exact GameData.arms_free _ (lookup_mem hf) a b h
  · split
    · next f hf => exact GameData.arms_free _ (lookup_mem hf) a b h
    · next hn =>
      exfalso
      have : (GameData.arms v).lookup anyTag = some gameDataOther := by rfl
      rw [this] at hn; cases hn

/-- the value, without what the loop remembers of the last record -/
def gdOf (r : Res (GDState × Rd)) : Res GameData :=
  match r with
  | .ok (st, _) => .ok st.gd
  | .error e => .error e

theorem loop_free {v : UInt32} {a b : GDState} (h : GSame v a b) (f : Nat) (r : Rd) :
    gdOf (loop (dispatch (GameData.arms v)) f a r) = gdOf (loop (dispatch (GameData.arms v)) f b r) := by
  cases f with
  | zero => rfl
  | succ f =>
    unfold loop
    split
    · rfl
    · split
      · simp [gdOf, h.1]
      · rw [dispatch_free h]

theorem GameData.read_eq (v : UInt32) (data : Bytes) :
    GameData.read v data = gdOf (readWith (GameData.arms v) ⟨GameData.default, 0⟩ (Rd.new data)) := by
  unfold GameData.read readStruct gdOf
  split <;> split <;> simp_all

theorem GameData.skip {v : UInt32} {pre post name payload : Bytes} {n : Nat} {s' : GDState} {r' : Rd}
    (hv : Visits (dispatch (GameData.arms v)) n ⟨GameData.default, 0⟩ (Rd.new (pre ++ post)) s' r')
    (hr : r'.rest.drop r'.brr = post) (hb : v = 1080 → s'.prev ≠ tag!"BOTM") (hpost : post ≠ [])
    (hn : RecordName name) (hne : name ≠ endbName) (hp : 4 + payload.length < 2 ^ 32)
    (hu : nameTag name ∉ (GameData.arms v).map (·.1)) :
    GameData.read v (pre ++ (recordBytes name payload ++ post)) = GameData.read v (pre ++ post) := by
  have hh := dispatch_tame (GameData.arms_tame (v := v))
  have hne' : r'.rest ≠ [] := by
    intro h0; rw [h0, List.drop_nil] at hr; exact hpost hr.symm
  obtain ⟨a, e, fa⟩ := visits_local hh hv hne'
  have hr2 : r'.rest = r'.rest.take r'.brr ++ post := by
    rw [← hr, List.take_append_drop]
  have hlen : (r'.rest.take r'.brr).length = r'.brr := by
    have : 0 < (r'.rest.drop r'.brr).length := by rw [hr]; exact List.length_pos_iff.2 hpost
    simp at this ⊢; omega
  have hpre : pre = a ++ r'.rest.take r'.brr := by
    have e' : pre ++ post = a ++ r'.rest := e
    rw [hr2, ← List.append_assoc] at e'
    exact List.append_cancel_right e'
  have key : ∀ c, c ≠ [] → ∀ f', c.length < f' →
      readWith (GameData.arms v) ⟨GameData.default, 0⟩ (Rd.new (pre ++ c))
        = loop (dispatch (GameData.arms v)) f' s' ⟨c, 0, r'.tag, r'.warn, r'.raw⟩ := by
    intro c hc f' hf'
    have hc' : r'.rest.take r'.brr ++ c ≠ [] := fun h0 => hc (List.append_eq_nil_iff.1 h0).2
    have hv' := fa (r'.rest.take r'.brr ++ c) hc'
    have e2 : Rd.new (pre ++ c) = { Rd.new (pre ++ post) with rest := a ++ (r'.rest.take r'.brr ++ c) } := by
      rw [hpre]; simp [Rd.new]
    unfold readWith
    rw [e2, visits_loop hh hv' _ ((r'.rest.take r'.brr ++ c).length + f') (Nat.lt_succ_self _)
      (by simp; omega)]
    refine Eq.trans (loop_congr (r := ⟨r'.rest.take r'.brr ++ c, r'.brr, r'.tag, r'.warn, r'.raw⟩)
      (r' := ⟨c, 0, r'.tag, r'.warn, r'.raw⟩) ?_ rfl _) ?_
    · show (r'.rest.take r'.brr ++ c).drop r'.brr = c
      exact (drop_take_app hlen).2
    · exact (loop_fuel hh _ _ s' ⟨c, 0, r'.tag, r'.warn, r'.raw⟩ (by
        show c.length < _; rw [List.length_append]; omega) hf').1
  have hvt := validTag_nameTag hn
  have hnt : nameTag name ≠ ENDB := fun he =>
    hne (nameTag_inj hn (by decide) (he.trans endbName_tag.symm))
  have hbt : nameTag name ≠ tag!"BOTM" := fun he => hu (by
    rw [he]; exact List.mem_map.2 ⟨gfld tag!"BOTM" getF32 fun v s => { s with bottom := v },
      List.mem_append_left _ (by unfold GameData.armsA; simp), rfl⟩)
  have hsk : dispatch (GameData.arms v) (nameTag name) s'
      ⟨payload ++ post, payload.length, nameTag name, r'.warn, tagBytes (nameTag name)⟩
      = .ok (⟨s'.gd, nameTag name⟩, ⟨post, 0, nameTag name, r'.warn, tagBytes (nameTag name)⟩) := by
    unfold dispatch
    rw [lookup_none_of_not_mem hu]
    have : (GameData.arms v).lookup anyTag = some gameDataOther := by rfl
    rw [this]
    show gameDataOther _ _ = _
    have hl : ¬ (payload.length + post.length ≤ payload.length) := by
      have := List.length_pos_iff.2 hpost; omega
    unfold gameDataOther
    refine (R.bind_ok (v := nameTag name) (r' := ⟨payload ++ post, payload.length, nameTag name,
      r'.warn, tagBytes (nameTag name)⟩) rfl).trans ?_
    refine (R.bind_ok (v := payload) (r' := ⟨post, 0, nameTag name, r'.warn, tagBytes (nameTag name)⟩)
      ?_).trans rfl
    simp only [getRecordData, List.length_append]
    rw [if_neg hl, List.take_left, List.drop_left]
  have h1 := next_record (nameTag name) hvt payload.length hp (payload ++ post) r'.tag r'.warn r'.raw
    (.inl hnt)
  have e3 : recordBytes name payload ++ post
      = le32 (UInt32.ofNat (4 + payload.length)) ++ (tagBytes (nameTag name) ++ (payload ++ post)) := by
    rw [recordBytes_eq hn]; simp [WOp.bytes]
  have h2 : Rd.isEof ⟨payload ++ post, payload.length, nameTag name, r'.warn, tagBytes (nameTag name)⟩
      = false := by
    simp [Rd.isEof, hnt, hpost]
  have hl : post.length < (recordBytes name payload ++ post).length := by
    rw [e3]
    simp only [List.length_append, le32_length]
    omega
  rw [GameData.read_eq, GameData.read_eq,
    key (recordBytes name payload ++ post) (by simp [hpost]) _ (Nat.lt_succ_self _),
    key post hpost _ (Nat.lt_succ_self _), e3, loop_step h1 h2 hsk, ← e3]
  rw [loop_congr (r := ⟨post, 0, nameTag name, r'.warn, tagBytes (nameTag name)⟩)
      (r' := ⟨post, 0, r'.tag, r'.warn, r'.raw⟩) rfl rfl,
    (loop_fuel hh _ (post.length + 1) _ ⟨post, 0, r'.tag, r'.warn, r'.raw⟩ hl (Nat.lt_succ_self _)).1]
  have hs : GSame v ⟨s'.gd, nameTag name⟩ s' :=
    ⟨rfl, fun h => ⟨h.1, hb h.1⟩, fun h => ⟨h.1, hbt⟩⟩
  exact loop_free hs _ _

end Vpin
