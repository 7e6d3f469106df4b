import Verif.Lemmas.Tame
import Verif.Lemmas.Records
import Verif.Spec.Reach
/-!
Unknown records are skipped; every record costs at least eight bytes.
-/
namespace Vpin

theorem next_cost {r r1 : Rd} {u : Unit} (h : next r = .ok (u, r1)) (he : r1.isEof = false) :
    8 + r1.rest.length ≤ r.rest.length := by
  have hne : r1.rest ≠ [] := by
    intro h0; simp [Rd.isEof, h0] at he
  unfold next at h
  simp only at h
  repeat' split at h
  all_goals cases h
  have : 0 < ((List.drop 4 (List.drop 4 (List.drop r.brr r.rest)))).length :=
    List.length_pos_iff.2 hne
  simp only [List.length_drop] at this ⊢
  omega

theorem visits_cost {σ : Type} {h : Tag → σ → R σ} (hh : ∀ t s, Tame (h t s)) {n : Nat}
    {s s' : σ} {r r' : Rd} (hv : Visits h n s r s' r') :
    8 * n + r'.rest.length ≤ r.rest.length := by
  induction hv with
  | here => simp
  | record h1 h2 h3 _ ih =>
    have a := next_cost h1 h2
    have b := ((hh _ _).mono _).2 _ _ h3
    omega

theorem loop_step {σ : Type} {h : Tag → σ → R σ} {s s2 : σ} {r r1 r2 : Rd}
    (h1 : next r = .ok ((), r1)) (h2 : r1.isEof = false) (h3 : h r1.tag s r1 = .ok (s2, r2))
    (f : Nat) : loop h (f + 1) s r = loop h f s2 r2 := by
  rw [loop]
  simp only [h1, h2, h3]
  rfl

/-- The loop gives the same result from any point it visits. -/
theorem visits_loop {σ : Type} {h : Tag → σ → R σ} (hh : ∀ t s, Tame (h t s)) {n : Nat}
    {s s' : σ} {r r' : Rd} (hv : Visits h n s r s' r') :
    ∀ f f', r.rest.length < f → r'.rest.length < f' → loop h f s r = loop h f' s' r' := by
  induction hv with
  | here s r => intro f f' h1 h2; exact (loop_fuel hh f f' s r h1 h2).1
  | @record n s s2 s3 r r1 r2 r3 h1 h2 h3 _ ih =>
    intro f f' hf hf'
    cases f with
    | zero => omega
    | succ f =>
      have a := next_cost h1 h2
      have b := ((hh _ _).mono _).2 _ _ h3
      rw [← ih f f' (by omega) hf']
      exact loop_step h1 h2 h3 f

/-- What was visited in front of `c` is visited in front of any other data. -/
theorem visits_local {σ : Type} {h : Tag → σ → R σ} (hh : ∀ t s, Tame (h t s)) {n : Nat}
    {s s' : σ} {r r' : Rd} (hv : Visits h n s r s' r') (hne : r'.rest ≠ []) :
    ∃ a, r.rest = a ++ r'.rest ∧ ∀ c, c ≠ [] →
      Visits h n s { r with rest := a ++ c } s' { r' with rest := c } := by
  induction hv with
  | here s r => exact ⟨[], rfl, fun c _ => .here _ _⟩
  | @record n s s2 s3 r r1 r2 r3 h1 h2 h3 _ ih =>
    obtain ⟨a3, e3, f3⟩ := ih hne
    have hne2 : r2.rest ≠ [] := by
      rw [e3]; intro h0; exact hne (List.append_eq_nil_iff.1 h0).2
    obtain ⟨a2, e2, f2⟩ := (hh r1.tag s).loc r1 s2 r2 h3 hne2
    have hne1 : r1.rest ≠ [] := by
      rw [e2]; intro h0; exact hne2 (List.append_eq_nil_iff.1 h0).2
    obtain ⟨a1, e1, f1⟩ := next_local r () r1 h1 hne1
    refine ⟨a1 ++ (a2 ++ a3), by rw [e1, e2, e3]; simp, fun c hc => ?_⟩
    have hc3 : a3 ++ c ≠ [] := fun h0 => hc (List.append_eq_nil_iff.1 h0).2
    have hc2 : a2 ++ (a3 ++ c) ≠ [] := fun h0 => hc3 (List.append_eq_nil_iff.1 h0).2
    have := f1 (a2 ++ (a3 ++ c)) hc2
    refine .record (r1 := { r1 with rest := a2 ++ (a3 ++ c) }) (r2 := { r2 with rest := a3 ++ c })
      (by simpa [List.append_assoc] using this) ?_ (f2 _ hc3) (f3 c hc)
    rw [← h2]
    exact isEof_rest (r := r1) hc2 hne1

/-- `loop` depends only on what is behind the current record. -/
theorem loop_congr {σ : Type} {h : Tag → σ → R σ} {s : σ} {r r' : Rd}
    (e : r.rest.drop r.brr = r'.rest.drop r'.brr) (hw : r.warn = r'.warn) (f : Nat) :
    loop h f s r = loop h f s r' := by
  cases f with
  | zero => rfl
  | succ f => unfold loop; rw [next_congr e hw]

theorem skip_record {σ : Type} {h : Tag → σ → R σ} (hh : ∀ t s, Tame (h t s)) {s : σ}
    {name payload post : Bytes} (hn : RecordName name) (hne : name ≠ endbName)
    (hp : 4 + payload.length < 2 ^ 32) (hpost : post ≠ [])
    (hskip : ∀ w raw, h (nameTag name) s ⟨payload ++ post, payload.length, nameTag name, w, raw⟩
      = .ok (s, ⟨post, 0, nameTag name, w, raw⟩))
    (tag : Tag) (w : Bool) (raw : Bytes) (f f' : Nat)
    (hf : (recordBytes name payload ++ post).length < f) (hf' : post.length < f') :
    loop h f s ⟨recordBytes name payload ++ post, 0, tag, w, raw⟩
      = loop h f' s ⟨post, 0, tag, w, raw⟩ := by
  have hv := validTag_nameTag hn
  have hnt : nameTag name ≠ ENDB := fun he =>
    hne (nameTag_inj hn (by decide) (he.trans endbName_tag.symm))
  cases f with
  | zero => omega
  | succ f =>
    have h1 := next_record (nameTag name) hv payload.length hp (payload ++ post) tag w raw
      (.inl hnt)
    have e : recordBytes name payload ++ post
        = le32 (UInt32.ofNat (4 + payload.length)) ++ (tagBytes (nameTag name) ++ (payload ++ post)) := by
      rw [recordBytes_eq hn]; simp [WOp.bytes]
    have h2 : Rd.isEof ⟨payload ++ post, payload.length, nameTag name, w, tagBytes (nameTag name)⟩
        = false := by
      simp [Rd.isEof, hnt, hpost]
    have hl : post.length < f := by
      have h4 : (le32 (UInt32.ofNat (4 + payload.length))).length = 4 := rfl
      rw [e] at hf
      simp only [List.length_append, h4] at hf
      omega
    rw [e, loop_step h1 h2 (hskip w _) f]
    refine Eq.trans (loop_congr (r := ⟨post, 0, nameTag name, w, tagBytes (nameTag name)⟩)
      (r' := ⟨post, 0, tag, w, raw⟩) rfl rfl f) ?_
    exact (loop_fuel hh f f' s ⟨post, 0, tag, w, raw⟩ hl hf').1

theorem boundary_skip {σ : Type} {hs : Handlers σ} (ht : ArmsTame hs) {s : σ}
    {pre post name payload : Bytes} (hb : Boundary hs s pre post) (hpost : post ≠ [])
    (hn : RecordName name) (hne : name ≠ endbName) (hp : 4 + payload.length < 2 ^ 32)
    (hskip : ∀ s w raw, dispatch hs (nameTag name) s
      ⟨payload ++ post, payload.length, nameTag name, w, raw⟩
      = .ok (s, ⟨post, 0, nameTag name, w, raw⟩)) :
    readStruct hs s (pre ++ (recordBytes name payload ++ post)) = readStruct hs s (pre ++ post) := by
  have hh := dispatch_tame ht
  obtain ⟨n, s', r', hv, hr⟩ := hb
  have hne' : r'.rest ≠ [] := by
    intro h0; rw [h0, List.drop_nil] at hr; exact hpost hr.symm
  obtain ⟨a, e, fa⟩ := visits_local hh hv hne'
  have hr2 : r'.rest = r'.rest.take r'.brr ++ post := by
    rw [← hr, List.take_append_drop]
  have hlen : (r'.rest.take r'.brr).length = r'.brr := by
    have : 0 < (r'.rest.drop r'.brr).length := by rw [hr]; exact List.length_pos_iff.2 hpost
    simp at this ⊢; omega
  have hpre : pre = a ++ r'.rest.take r'.brr := by
    have e' : pre ++ post = a ++ r'.rest := e
    rw [hr2, ← List.append_assoc] at e'
    exact List.append_cancel_right e'
  have key : ∀ c, c ≠ [] → ∀ f', c.length < f' →
      readWith hs s (Rd.new (pre ++ c)) = loop (dispatch hs) f' s' ⟨c, 0, r'.tag, r'.warn, r'.raw⟩ := by
    intro c hc f' hf'
    have hc' : r'.rest.take r'.brr ++ c ≠ [] := fun h0 => hc (List.append_eq_nil_iff.1 h0).2
    have hv' := fa (r'.rest.take r'.brr ++ c) hc'
    have e2 : Rd.new (pre ++ c) = { Rd.new (pre ++ post) with rest := a ++ (r'.rest.take r'.brr ++ c) } := by
      rw [hpre]; simp [Rd.new]
    unfold readWith
    rw [e2, visits_loop hh hv' _ ((r'.rest.take r'.brr ++ c).length + f') (Nat.lt_succ_self _)
      (by simp; omega)]
    refine Eq.trans (loop_congr (r := ⟨r'.rest.take r'.brr ++ c, r'.brr, r'.tag, r'.warn, r'.raw⟩)
      (r' := ⟨c, 0, r'.tag, r'.warn, r'.raw⟩) ?_ rfl _) ?_
    · show (r'.rest.take r'.brr ++ c).drop r'.brr = c
      exact (drop_take_app hlen).2
    · exact (loop_fuel hh _ _ s' ⟨c, 0, r'.tag, r'.warn, r'.raw⟩ (by
        show c.length < _; rw [List.length_append]; omega) hf').1
  unfold readStruct
  rw [key (recordBytes name payload ++ post) (by simp [hpost]) _ (Nat.lt_succ_self _),
    key post hpost _ (Nat.lt_succ_self _),
    skip_record hh hn hne hp hpost (hskip s') _ _ _ _ _ (Nat.lt_succ_self _) (Nat.lt_succ_self _)]

/-- a record boundary does not depend on what follows it -/
theorem Boundary.extend {σ : Type} {hs : Handlers σ} (ht : ArmsTame hs) {s : σ} {pre post c : Bytes}
    (hb : Boundary hs s pre post) (hpost : post ≠ []) (hc : c ≠ []) : Boundary hs s pre c := by
  obtain ⟨n, s', r', hv, hr⟩ := hb
  have hne' : r'.rest ≠ [] := by
    intro h0; rw [h0, List.drop_nil] at hr; exact hpost hr.symm
  obtain ⟨a, e, fa⟩ := visits_local (dispatch_tame ht) hv hne'
  have hr2 : r'.rest = r'.rest.take r'.brr ++ post := by
    rw [← hr, List.take_append_drop]
  have hlen : (r'.rest.take r'.brr).length = r'.brr := by
    have : 0 < (r'.rest.drop r'.brr).length := by rw [hr]; exact List.length_pos_iff.2 hpost
    simp at this ⊢; omega
  have hpre : pre = a ++ r'.rest.take r'.brr := by
    have e' : pre ++ post = a ++ r'.rest := e
    rw [hr2, ← List.append_assoc] at e'
    exact List.append_cancel_right e'
  have hv' := fa (r'.rest.take r'.brr ++ c) (by simp [hc])
  refine ⟨n, s', { r' with rest := r'.rest.take r'.brr ++ c }, ?_, (drop_take_app hlen).2⟩
  rw [hpre, List.append_assoc]
  exact hv'

theorem dispatch_skip {σ : Type} {hs : Handlers σ} {t : Tag} (h : hs.lookup t = none)
    (h0 : hs.lookup anyTag = none) (p post : Bytes) (s : σ) (w : Bool) (raw : Bytes) :
    dispatch hs t s ⟨p ++ post, p.length, t, w, raw⟩ = .ok (s, ⟨post, 0, t, w, raw⟩) := by
  unfold dispatch
  rw [h, h0]
  show (skipTag >>= fun _ => pure s) _ = _
  rw [R.bind_ok (v := ()) (r' := ⟨post, 0, t, w, raw⟩) (by simp [skipTag])]
  rfl

end Vpin
