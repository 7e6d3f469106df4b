import Verif.Props.BiffApi
import Verif.Lemmas.Biff
/-
C93: the reader with its position and the reader by the bytes still to be read (`Model/Biff.lean`,
which the models of the file format use) agree, method by method.
-/
namespace Vpin

/-- the same state in both models -/
structure Sees (c : Cursor) (r : Rd) : Prop where
  rest : r.rest = c.data.drop c.pos
  left : r.brr = c.left
  warn : r.warn = c.warn
  tag : ∃ bs : Bytes, 0 ∉ bs ∧ c.tag = decodeLatin1 bs ∧ r.tag = leNat bs

/-- the reader is not beyond the end of the data, and the sizes are those of a machine -/
structure Fair (c : Cursor) : Prop where
  pos : c.pos ≤ c.data.length
  data : c.data.length < 2 ^ 62
  left : c.left < 2 ^ 62

/-- both panic, or both return the same value and the same state -/
def SameEnd {α : Type} : Res (α × Cursor) → Res (α × Rd) → Prop
  | .ok (v, c), .ok (w, r) => v = w ∧ Sees c r
  | .error _, .error _ => True
  | _, _ => False

/-- a method agrees in both models -/
def Agrees {α : Type} (m : P α) (g : R α) : Prop :=
  ∀ c r, Sees c r → Fair c → SameEnd (m c) (g r)

/-- and does not go beyond the end of the data -/
def StaysFair {α : Type} (m : P α) : Prop := ∀ c v c', Fair c → m c = .ok (v, c') → Fair c'

theorem R.bind_def {α β : Type} (m : R α) (k : α → R β) (r : Rd) :
    (m >>= k) r = match m r with
      | .error e => .error e
      | .ok (v, r') => k v r' := by
  show (StateT.bind m k) r = _
  unfold StateT.bind
  show (m r >>= fun p => k p.1 p.2) = _
  cases m r <;> rfl

theorem R.pure_def {α : Type} (v : α) (r : Rd) : (pure v : R α) r = .ok (v, r) := rfl

theorem Agrees.bind {α β : Type} {m : P α} {g : R α} {k : α → P β} {h : α → R β} (hm : Agrees m g)
    (hf : StaysFair m) (hk : ∀ v, Agrees (k v) (h v)) : Agrees (m >>= k) (g >>= h) := by
  intro c r hs hc
  rw [P.bind_def, R.bind_def]
  have h1 := hm c r hs hc
  cases hmc : m c with
  | error e =>
    cases hgr : g r with
    | error e' => trivial
    | ok q => rw [hmc, hgr] at h1; exact h1.elim
  | ok p =>
    cases hgr : g r with
    | error e' => rw [hmc, hgr] at h1; exact h1.elim
    | ok q =>
      rw [hmc, hgr] at h1
      obtain ⟨v, c'⟩ := p
      obtain ⟨w, r'⟩ := q
      obtain ⟨rfl, hs'⟩ := h1
      exact hk v c' r' hs' (hf c v c' hc hmc)

theorem Agrees.pure {α : Type} (v : α) : Agrees (Pure.pure v) (Pure.pure v) := fun _ _ hs _ => ⟨rfl, hs⟩

theorem StaysFair.bind {α β : Type} {m : P α} {k : α → P β} (hm : StaysFair m) (hk : ∀ v, StaysFair (k v)) :
    StaysFair (m >>= k) := by
  intro c v c' hc h
  rw [P.bind_def] at h
  cases hmc : m c with
  | error e => rw [hmc] at h; cases h
  | ok p => rw [hmc] at h; exact hk p.1 p.2 v c' (hm c p.1 p.2 hc hmc) h

theorem StaysFair.pure {α : Type} (v : α) : StaysFair (Pure.pure v) := by
  intro c w c' hc h
  cases h
  exact hc

/-! ## Pieces -/

theorem peek_view {c : Cursor} (hc : Fair c) {n : Nat} (hn : n < 2 ^ 62) :
    Cursor.peek .debug n c
      = if n ≤ (c.data.drop c.pos).length then .ok ((c.data.drop c.pos).take n, c) else .error .panic := by
  obtain ⟨h1, h2, h3⟩ := hc
  unfold Cursor.peek
  rw [add_ok .debug (by omega)]
  dsimp only
  unfold Cursor.slice
  rw [List.length_drop]
  by_cases h : c.pos + n ≤ c.data.length
  · rw [if_pos ⟨by omega, h⟩, if_pos (by omega), Nat.add_sub_cancel_left]
  · rw [if_neg (by omega), if_neg (by omega)]

theorem front_view {c : Cursor} (hc : Fair c) {n : Nat} :
    Cursor.front n c
      = if n ≤ (c.data.drop c.pos).length then .ok ((c.data.drop c.pos).take n, c) else .error .panic := by
  obtain ⟨h1, h2, h3⟩ := hc
  unfold Cursor.front
  rw [slice_ok c h1 (Nat.le_refl _), List.take_of_length_le (by rw [List.length_drop]; exact Nat.le_refl _)]
  dsimp only
  by_cases h : n ≤ (c.data.drop c.pos).length
  · rw [if_neg (by omega), if_pos h]
  · rw [if_pos (by omega), if_neg h]

theorem advance_view {c : Cursor} (hc : Fair c) {n : Nat} (hn : n < 2 ^ 62) :
    Cursor.advance .debug n c = .ok ((), { c with pos := c.pos + n }) := by
  obtain ⟨h1, h2, h3⟩ := hc
  unfold Cursor.advance
  rw [add_ok .debug (by omega)]

theorem count_view (c : Cursor) (n : Nat) :
    Cursor.count .debug n c = if n ≤ c.left then .ok ((), { c with left := c.left - n }) else .error .panic := by
  unfold Cursor.count Build.sub
  by_cases h : n ≤ c.left
  · rw [if_pos h, if_pos h]
  · rw [if_neg h, if_neg h]

theorem Sees.at_pos {c : Cursor} {r : Rd} (h : Sees c r) (n : Nat) :
    Sees { c with pos := c.pos + n } { r with rest := r.rest.drop n } :=
  ⟨by show r.rest.drop n = c.data.drop (c.pos + n); rw [h.rest, List.drop_drop], h.left, h.warn, h.tag⟩

theorem Sees.count {c : Cursor} {r : Rd} (h : Sees c r) (n : Nat) :
    Sees { c with left := n } { r with brr := n } :=
  ⟨h.rest, rfl, h.warn, h.tag⟩

/-- reading `n` bytes without counting -/
theorem agrees_take {α : Type} {m : P α} {n : Nat} {f : Bytes → α}
    (hm : ∀ c, Fair c → m c = if n ≤ (c.data.drop c.pos).length
      then .ok (f ((c.data.drop c.pos).take n), { c with pos := c.pos + n }) else .error .panic) :
    Agrees m (do return f (← takeN n)) ∧ StaysFair m := by
  constructor
  · intro c r hs hc
    rw [hm c hc, R.bind_def]
    unfold takeN
    rw [hs.rest]
    by_cases h : n ≤ (c.data.drop c.pos).length
    · rw [if_pos h, if_pos h]
      refine ⟨rfl, ?_⟩
      have := hs.at_pos n
      rw [hs.rest] at this
      exact this
    · rw [if_neg h, if_neg h]
      trivial
  · intro c v c' hc h
    rw [hm c hc] at h
    split at h
    · rename_i hn
      cases h
      rw [List.length_drop] at hn
      have := hc.pos
      exact ⟨by show c.pos + n ≤ c.data.length; omega, hc.data, hc.left⟩
    · cases h

/-- reading and counting `n` bytes -/
theorem agrees_get {α : Type} {m : P α} {n : Nat} {f : Bytes → α}
    (hm : ∀ c, Fair c → m c = if n ≤ (c.data.drop c.pos).length ∧ n ≤ c.left
      then .ok (f ((c.data.drop c.pos).take n), { c with pos := c.pos + n, left := c.left - n }) else .error .panic) :
    Agrees m (do return f (← getN n)) ∧ StaysFair m := by
  constructor
  · intro c r hs hc
    rw [hm c hc, R.bind_def]
    unfold getN
    rw [R.bind_def]
    unfold takeN
    rw [hs.rest]
    by_cases h : n ≤ (c.data.drop c.pos).length
    · rw [if_pos h]
      dsimp only
      rw [R.bind_def]
      unfold subRem
      dsimp only
      rw [hs.left]
      by_cases hl : n ≤ c.left
      · rw [if_pos ⟨h, hl⟩, if_pos hl]
        exact ⟨rfl, by show _ = c.data.drop (c.pos + n); rw [← List.drop_drop], rfl, hs.warn, hs.tag⟩
      · rw [if_neg (by omega), if_neg hl]
        trivial
    · rw [if_neg (fun e => h e.1), if_neg h]
      trivial
  · intro c v c' hc h
    rw [hm c hc] at h
    split at h
    · rename_i hn
      cases h
      have := hn.1
      rw [List.length_drop] at this
      have := hc.pos
      have := hc.left
      exact ⟨by show c.pos + n ≤ c.data.length; omega, hc.data, by show c.left - n < _; omega⟩
    · cases h

theorem peekN_view {α : Type} {n : Nat} (hn : n < 2 ^ 62) (f : Bytes → α) (c : Cursor) (hc : Fair c) :
    (do let d ← Cursor.peek .debug n
        Cursor.advance .debug n
        Pure.pure (f d) : P α) c
      = if n ≤ (c.data.drop c.pos).length
        then .ok (f ((c.data.drop c.pos).take n), { c with pos := c.pos + n }) else .error .panic := by
  rw [P.bind_def, peek_view hc hn]
  by_cases h : n ≤ (c.data.drop c.pos).length
  · rw [if_pos h, if_pos h]
    dsimp only
    rw [P.bind_def, advance_view hc hn]
    rfl
  · rw [if_neg h, if_neg h]

theorem frontN_view {α : Type} {n : Nat} (hn : n < 2 ^ 62) (f : Bytes → α) (c : Cursor) (hc : Fair c) :
    (do let d ← Cursor.front n
        Cursor.advance .debug n
        Pure.pure (f d) : P α) c
      = if n ≤ (c.data.drop c.pos).length
        then .ok (f ((c.data.drop c.pos).take n), { c with pos := c.pos + n }) else .error .panic := by
  rw [P.bind_def, front_view hc]
  by_cases h : n ≤ (c.data.drop c.pos).length
  · rw [if_pos h, if_pos h]
    dsimp only
    rw [P.bind_def, advance_view hc hn]
    rfl
  · rw [if_neg h, if_neg h]

/-- counting after reading -/
theorem counted_view {α : Type} {m : P α} {n : Nat} {f : Bytes → α} (c : Cursor)
    (hm : m c = if n ≤ (c.data.drop c.pos).length
      then .ok (f ((c.data.drop c.pos).take n), { c with pos := c.pos + n }) else .error .panic) :
    (do let v ← m
        Cursor.count .debug n
        Pure.pure v : P α) c = if n ≤ (c.data.drop c.pos).length ∧ n ≤ c.left
      then .ok (f ((c.data.drop c.pos).take n), { c with pos := c.pos + n, left := c.left - n }) else .error .panic := by
  rw [P.bind_def, hm]
  by_cases h : n ≤ (c.data.drop c.pos).length
  · rw [if_pos h]
    dsimp only
    rw [P.bind_def, count_view]
    dsimp only
    by_cases hl : n ≤ c.left
    · rw [if_pos hl, if_pos ⟨h, hl⟩]
      rfl
    · rw [if_neg hl, if_neg (fun e => hl e.2)]
  · rw [if_neg h, if_neg (fun e => h e.1)]

theorem peekCounted_view {α : Type} {n : Nat} (hn : n < 2 ^ 62) (f : Bytes → α) (c : Cursor) (hc : Fair c) :
    (do let d ← Cursor.peek .debug n
        Cursor.advance .debug n
        Cursor.count .debug n
        Pure.pure (f d) : P α) c = if n ≤ (c.data.drop c.pos).length ∧ n ≤ c.left
      then .ok (f ((c.data.drop c.pos).take n), { c with pos := c.pos + n, left := c.left - n }) else .error .panic := by
  rw [P.bind_def, peek_view hc hn]
  by_cases h : n ≤ (c.data.drop c.pos).length
  · rw [if_pos h]
    dsimp only
    rw [P.bind_def, advance_view hc hn]
    dsimp only
    rw [P.bind_def, count_view]
    dsimp only
    by_cases hl : n ≤ c.left
    · rw [if_pos hl, if_pos ⟨h, hl⟩]
      rfl
    · rw [if_neg hl, if_neg (fun e => hl e.2)]
  · rw [if_neg h, if_neg (fun e => h e.1)]

theorem frontCounted_view {α : Type} {n : Nat} (hn : n < 2 ^ 62) (f : Bytes → α) (c : Cursor) (hc : Fair c) :
    (do let d ← Cursor.front n
        Cursor.advance .debug n
        Cursor.count .debug n
        Pure.pure (f d) : P α) c = if n ≤ (c.data.drop c.pos).length ∧ n ≤ c.left
      then .ok (f ((c.data.drop c.pos).take n), { c with pos := c.pos + n, left := c.left - n }) else .error .panic := by
  rw [P.bind_def, front_view hc]
  by_cases h : n ≤ (c.data.drop c.pos).length
  · rw [if_pos h]
    dsimp only
    rw [P.bind_def, advance_view hc hn]
    dsimp only
    rw [P.bind_def, count_view]
    dsimp only
    by_cases hl : n ≤ c.left
    · rw [if_pos hl, if_pos ⟨h, hl⟩]
      rfl
    · rw [if_neg hl, if_neg (fun e => hl e.2)]
  · rw [if_neg h, if_neg (fun e => h e.1)]

theorem getN_pure {n : Nat} : (do return id (← getN n) : R Bytes) = getN n := by
  funext r
  rw [R.bind_def]
  cases getN n r <;> rfl

theorem takeN_pure {n : Nat} : (do return id (← takeN n) : R Bytes) = takeN n := by
  funext r
  rw [R.bind_def]
  cases takeN n r <;> rfl

theorem view_bytesN {n : Nat} (hn : n < 2 ^ 62) : Agrees (Cursor.bytesN .debug n) (takeN n) ∧ StaysFair (Cursor.bytesN .debug n) := by
  have h := agrees_take (peekN_view hn id)
  rw [takeN_pure] at h
  exact h

theorem view_bytes {n : Nat} (hn : n < 2 ^ 62) : Agrees (Cursor.bytes .debug n) (getN n) ∧ StaysFair (Cursor.bytes .debug n) := by
  have h := agrees_get (m := Cursor.bytes .debug n) (n := n) (f := id) fun c hc => by
    unfold Cursor.bytes
    rw [P.bind_def, count_view]
    by_cases hl : n ≤ c.left
    · rw [if_pos hl]
      dsimp only
      have := peekN_view hn id { c with left := c.left - n } ⟨hc.pos, hc.data, by show c.left - n < _; have := hc.left; omega⟩
      unfold Cursor.bytesN
      dsimp only [id] at this
      rw [this]
      by_cases h : n ≤ (c.data.drop c.pos).length
      · rw [if_pos h, if_pos ⟨h, hl⟩]; rfl
      · rw [if_neg h, if_neg (fun e => h e.1)]
    · rw [if_neg hl, if_neg (fun e => hl e.2)]
  rw [getN_pure] at h
  exact h

theorem view_bool : Agrees (Cursor.bool .debug) getBool ∧ StaysFair (Cursor.bool .debug) :=
  agrees_get (n := 4) (f := fun d => d != [0, 0, 0, 0]) (peekCounted_view (by decide) _)

theorem view_u16N : Agrees (Cursor.u16N .debug) getU16N ∧ StaysFair (Cursor.u16N .debug) :=
  agrees_take (n := 2) (f := ofLe16) (frontN_view (by decide) _)

theorem view_u16 : Agrees (Cursor.u16 .debug) getU16 ∧ StaysFair (Cursor.u16 .debug) :=
  agrees_get (n := 2) (f := ofLe16) fun c hc => counted_view c (frontN_view (by decide) _ c hc)

theorem view_u32N : Agrees (Cursor.u32N .debug) getU32N ∧ StaysFair (Cursor.u32N .debug) :=
  agrees_take (n := 4) (f := ofLe32) (frontN_view (by decide) _)

theorem view_u32 : Agrees (Cursor.u32 .debug) getU32 ∧ StaysFair (Cursor.u32 .debug) :=
  agrees_get (n := 4) (f := ofLe32) fun c hc => counted_view c (frontN_view (by decide) _ c hc)

theorem view_i32 : Agrees (Cursor.i32 .debug) getI32 ∧ StaysFair (Cursor.i32 .debug) :=
  agrees_get (n := 4) (f := fun d => (ofLe32 d).toInt32) fun c hc => counted_view c (frontN_view (by decide) _ c hc)

theorem view_f32 : Agrees (Cursor.f32 .debug) getF32 ∧ StaysFair (Cursor.f32 .debug) :=
  agrees_get (n := 4) (f := ofLe32) (peekCounted_view (by decide) _)

theorem view_f64 : Agrees (Cursor.f64 .debug) getF64 ∧ StaysFair (Cursor.f64 .debug) :=
  agrees_get (n := 8) (f := ofLe64) (frontCounted_view (by decide) _)

theorem view_u64 : Agrees (Cursor.u64 .debug) getU64 ∧ StaysFair (Cursor.u64 .debug) :=
  agrees_get (n := 8) (f := ofLe64) (frontCounted_view (by decide) _)

theorem u8N_view (c : Cursor) (hc : Fair c) : Cursor.u8N .debug c = if 1 ≤ (c.data.drop c.pos).length
    then .ok (UInt8.ofNat (leNat ((c.data.drop c.pos).take 1)), { c with pos := c.pos + 1 }) else .error .panic := by
  unfold Cursor.u8N
  rw [P.bind_def, P.get_def]
  dsimp only
  rw [List.length_drop]
  by_cases h : c.pos < c.data.length
  · rw [if_pos (by omega), List.getElem?_eq_getElem h]
    dsimp only
    rw [P.bind_def, advance_view hc (by decide), List.drop_eq_getElem_cons h, List.take_succ_cons, List.take_zero]
    simp only [P.pure_def, leNat, Nat.mul_zero, Nat.add_zero, UInt8.ofNat_toNat]
  · rw [if_neg (by omega), List.getElem?_eq_none (by omega)]
    rfl

theorem view_u8N : Agrees (Cursor.u8N .debug) getU8N ∧ StaysFair (Cursor.u8N .debug) :=
  agrees_take (n := 1) (f := fun d => UInt8.ofNat (leNat d)) u8N_view

theorem view_u8 : Agrees (Cursor.u8 .debug) getU8 ∧ StaysFair (Cursor.u8 .debug) :=
  agrees_get (n := 1) (f := fun d => UInt8.ofNat (leNat d)) fun c hc =>
    counted_view (f := fun d => UInt8.ofNat (leNat d)) c (u8N_view c hc)

/-! ## Texts -/

theorem scan_view : ∀ (d : Bytes) (n : Nat), Cursor.scan d n
    = if n ≤ d.length ∨ 0 ∈ d then .ok (cutNul (d.take n)).length else .error .panic
  | d, 0 => by
    rw [if_pos (Or.inl (Nat.zero_le _))]
    unfold Cursor.scan
    rfl
  | [], n + 1 => by
    rw [if_neg (by simp)]
    rfl
  | x :: xs, n + 1 => by
    unfold Cursor.scan
    by_cases hx : x = 0
    · subst hx
      rw [if_pos rfl, if_pos (Or.inr (by simp))]
      rfl
    · rw [if_neg hx, scan_view xs n]
      have hx' : ¬ (0 = x) := fun e => hx e.symm
      by_cases h : n ≤ xs.length ∨ 0 ∈ xs
      · rw [if_pos h, if_pos (by simpa [hx'] using h)]
        simp [cutNul, hx]
      · rw [if_neg h, if_neg (by simpa [hx'] using h)]

theorem textBytes_view {c : Cursor} (hc : Fair c) (n : Nat) : Cursor.textBytes .debug n c
    = if n ≤ (c.data.drop c.pos).length ∨ 0 ∈ c.data.drop c.pos
      then .ok (cutNul ((c.data.drop c.pos).take n), c) else .error .panic := by
  unfold Cursor.textBytes
  rw [P.bind_def, P.get_def]
  dsimp only
  rw [scan_view]
  by_cases h : n ≤ (c.data.drop c.pos).length ∨ 0 ∈ c.data.drop c.pos
  · rw [if_pos h, if_pos h]
    dsimp only
    have h1 : (cutNul ((c.data.drop c.pos).take n)).length ≤ (c.data.drop c.pos).length :=
      Nat.le_trans (cutNul_le _) (by rw [List.length_take]; omega)
    have h2 : (cutNul ((c.data.drop c.pos).take n)).length ≤ n :=
      Nat.le_trans (cutNul_le _) (by rw [List.length_take]; omega)
    rw [peek_view hc (by have := hc.data; rw [List.length_drop] at h1; omega), if_pos h1]
    congr 2
    conv => rhs; rw [cutNul_prefix]
    rw [List.take_take, Nat.min_eq_left h2]
  · rw [if_neg h, if_neg h]
    rfl

theorem view_str {n : Nat} (hn : n < 2 ^ 62) : Agrees (Cursor.str .debug n) (getStr n) := by
  intro c r hs hc
  unfold Cursor.str getStr
  rw [P.bind_def, R.bind_def, textBytes_view hc]
  unfold takeCut
  rw [hs.rest]
  by_cases h : n ≤ (c.data.drop c.pos).length ∨ 0 ∈ c.data.drop c.pos
  · rw [if_pos h, if_pos h]
    dsimp only
    rw [P.bind_def, R.bind_def, advance_view hc hn]
    dsimp only
    rw [P.bind_def]
    unfold Cursor.subRemaining subRem
    dsimp only
    rw [hs.left]
    by_cases hl : n ≤ c.left
    · rw [if_neg (by omega), if_pos hl]
      exact ⟨rfl, by show _ = c.data.drop (c.pos + n); rw [← List.drop_drop], rfl, hs.warn, hs.tag⟩
    · rw [if_pos (by omega), if_neg hl]
      trivial
  · rw [if_neg h, if_neg h]
    trivial

theorem view_text {α : Type} {n : Nat} (hn : n < 2 ^ 62) (f : Bytes → α) :
    Agrees (do let d ← Cursor.textBytes .debug n
               Cursor.advance .debug n
               Pure.pure (f d) : P α) (do let d ← takeCut n; Pure.pure (f d)) := by
  intro c r hs hc
  rw [P.bind_def, R.bind_def, textBytes_view hc]
  unfold takeCut
  rw [hs.rest]
  by_cases h : n ≤ (c.data.drop c.pos).length ∨ 0 ∈ c.data.drop c.pos
  · rw [if_pos h, if_pos h]
    dsimp only
    rw [P.bind_def, advance_view hc hn]
    exact ⟨rfl, by show _ = c.data.drop (c.pos + n); rw [← List.drop_drop], hs.left, hs.warn, hs.tag⟩
  · rw [if_neg h, if_neg h]
    trivial

theorem toNat_small (n : UInt32) : n.toNat < 2 ^ 62 := Nat.lt_trans n.toNat_lt (by decide)

theorem view_string : Agrees (Cursor.string .debug) getString :=
  view_u32.1.bind view_u32.2 fun n => view_str (toNat_small n)

theorem view_stringN : Agrees (Cursor.stringN .debug) getStringN :=
  view_u32N.1.bind view_u32N.2 fun n => view_text (toNat_small n) _

theorem view_wide : Agrees (Cursor.wide .debug) getWide := by
  refine view_u32.1.bind view_u32.2 fun n => ?_
  intro c r hs hc
  have hn := toNat_small n
  generalize n.toNat = k at hn
  rw [P.bind_def, peek_view hc hn, R.bind_def]
  unfold getN
  rw [R.bind_def]
  unfold takeN
  rw [hs.rest]
  by_cases h : k ≤ (c.data.drop c.pos).length
  · rw [if_pos h, if_pos h]
    dsimp only
    rw [R.bind_def]
    unfold subRem
    dsimp only
    rw [hs.left]
    cases hd : decodeUtf16le ((c.data.drop c.pos).take k) with
    | error e =>
      dsimp only
      by_cases hl : k ≤ c.left
      · rw [if_pos hl]
        dsimp only
        rw [R.pure_def]
        dsimp only
        rw [hd]
        trivial
      · rw [if_neg hl]; trivial
    | ok s =>
      dsimp only
      rw [P.bind_def, advance_view hc hn]
      dsimp only
      rw [P.bind_def, count_view]
      dsimp only
      by_cases hl : k ≤ c.left
      · rw [if_pos hl, if_pos hl]
        dsimp only
        rw [R.pure_def]
        dsimp only
        rw [hd]
        exact ⟨rfl, by show _ = c.data.drop (c.pos + k); rw [← List.drop_drop], rfl, hs.warn, hs.tag⟩
      · rw [if_neg hl, if_neg hl]; trivial
  · rw [if_neg h, if_neg h]
    trivial

/-! ## The record -/

theorem view_recordData : Agrees (Cursor.recordData .debug false) getRecordData := by
  intro c r hs hc
  have h1 := hc.pos
  have h2 := hc.data
  have h3 := hc.left
  unfold Cursor.recordData getRecordData
  rw [add_ok .debug (by omega), hs.rest, hs.left, List.length_drop]
  dsimp only
  rw [if_neg (by decide)]
  by_cases h : c.pos + c.left < c.data.length
  · rw [if_neg (by omega), slice_ok c (by omega) (by omega), if_neg (by omega), Nat.add_sub_cancel_left]
    exact ⟨rfl, by show _ = c.data.drop (c.pos + c.left); rw [← List.drop_drop], rfl, hs.warn, hs.tag⟩
  · rw [if_pos (by omega), if_pos (by omega)]
    trivial

theorem view_recordDataWithTag {c : Cursor} {r : Rd} (hs : Sees c r) (hc : Fair c) (h4 : 4 ≤ c.pos)
    (hraw : r.raw = (c.data.drop (c.pos - 4)).take 4) :
    SameEnd (Cursor.recordData .debug true c) (getRecordDataWithTag r) := by
  have h1 := hc.pos
  have h2 := hc.data
  have h3 := hc.left
  unfold Cursor.recordData getRecordDataWithTag
  have hl : r.raw.length = 4 := by rw [hraw, List.length_take, List.length_drop]; omega
  rw [add_ok .debug (by omega), hs.rest, hs.left, List.length_drop, hl]
  dsimp only
  rw [if_pos rfl, sub_ok .debug h4]
  dsimp only
  by_cases h : c.pos + c.left ≤ c.data.length
  · rw [slice_ok c (by omega) h, if_neg (by omega)]
    refine ⟨?_, by show _ = c.data.drop (c.pos + c.left); rw [← List.drop_drop], rfl, hs.warn, hs.tag⟩
    rw [show c.pos + c.left - (c.pos - 4) = 4 + c.left by omega, List.take_add, List.drop_drop,
      show c.pos - 4 + 4 = c.pos by omega, hraw]
  · unfold Cursor.slice
    rw [if_neg (fun e => h e.2), if_pos (by omega)]
    trivial

theorem view_data {n : Nat} (hn : n < 2 ^ 62) : Agrees (Cursor.dataOf .debug n) (getData n) :=
  (view_bytesN hn).1.bind (view_bytesN hn).2 fun _ _ _ hs _ => ⟨rfl, hs.rest, rfl, hs.warn, hs.tag⟩

theorem view_dataN : Agrees (Cursor.dataN .debug) getDataN :=
  view_u32N.1.bind view_u32N.2 fun n => (view_bytesN (toNat_small n)).1.bind (view_bytesN (toNat_small n)).2
    fun _ _ _ hs _ => ⟨rfl, hs.rest, rfl, hs.warn, hs.tag⟩

/-- the number of bytes skipped is not used by the callers -/
theorem view_skipTag : Agrees (do let _ ← Cursor.skipTag .debug; Pure.pure ()) skipTag := by
  intro c r hs hc
  unfold Cursor.skipTag skipTag
  rw [P.bind_def, P.bind_def, P.get_def]
  dsimp only
  rw [P.bind_def, advance_view hc hc.left]
  exact ⟨rfl, by show r.rest.drop r.brr = c.data.drop (c.pos + c.left); rw [hs.rest, hs.left, List.drop_drop], rfl, hs.warn, hs.tag⟩

theorem view_skipEnd {n : Nat} (hn : n < 2 ^ 62) : Agrees (Cursor.skipEnd .debug n) (skipEndTag n) := by
  intro c r hs hc
  unfold Cursor.skipEnd skipEndTag
  rw [P.bind_def, advance_view hc hn]
  exact ⟨rfl, (hs.at_pos n).rest, rfl, hs.warn, hs.tag⟩

theorem view_isEof {c : Cursor} {r : Rd} (hs : Sees c r) : c.isEof = r.isEof := by
  unfold Cursor.isEof Rd.isEof
  obtain ⟨bs, h0, ht, hr⟩ := hs.tag
  congr 1
  · rw [hs.rest, Bool.eq_iff_iff, decide_eq_true_iff, List.isEmpty_iff, List.drop_eq_nil_iff]
  · rw [Bool.eq_iff_iff, beq_iff_eq, beq_iff_eq, ht, hr, decodeLatin1_endb]
    exact ⟨fun e => by rw [e]; rfl, fun e => leNat_inj h0 (by decide) e⟩

theorem view_child {c : Cursor} {r : Rd} (hs : Sees c r) (hc : Fair c) :
    ∃ c', c.child = .ok c' ∧ Sees c' r.child ∧ Fair c' := by
  unfold Cursor.child
  rw [slice_ok c hc.pos (Nat.le_refl _), List.take_of_length_le (by rw [List.length_drop]; exact Nat.le_refl _)]
  refine ⟨_, rfl, ⟨hs.rest, rfl, rfl, [], by simp, rfl, rfl⟩, Nat.zero_le _, ?_, (by decide : 0 < 2 ^ 62)⟩
  show (c.data.drop c.pos).length < _
  have := hc.data
  rw [List.length_drop]
  omega

theorem search_view (pat : Bytes) : ∀ (d : Bytes) (p : Nat), Cursor.search pat d p
    = match findSub pat d with
      | none => .error .panic
      | some n => .ok (p + n)
  | [], p => rfl
  | x :: xs, p => by
    unfold Cursor.search findSub
    by_cases h1 : xs.length + 1 < pat.length
    · have h2 : ¬ (x :: xs).take pat.length = pat := fun e => by
        have := congrArg List.length e
        rw [List.length_take, List.length_cons] at this
        omega
      rw [if_pos h1, if_neg h2, if_pos h1]
    · rw [if_neg h1]
      by_cases h2 : (x :: xs).take pat.length = pat
      · rw [if_pos h2, if_pos h2]; rfl
      · rw [if_neg h2, if_neg h2, if_neg h1, search_view pat xs (p + 1)]
        cases findSub pat xs with
        | none => rfl
        | some n => dsimp only [Option.map_some]; congr 1; omega

theorem findSub_le (pat : Bytes) : ∀ (d : Bytes) (n : Nat), findSub pat d = some n → n ≤ d.length
  | [], n, h => by cases h
  | x :: xs, n, h => by
    unfold findSub at h
    split at h
    · cases h; exact Nat.zero_le _
    · split at h
      · cases h
      · cases hf : findSub pat xs with
        | none => rw [hf] at h; cases h
        | some k =>
          rw [hf] at h
          cases h
          have := findSub_le pat xs k hf
          rw [List.length_cons]
          exact Nat.succ_le_succ this

theorem view_until (pat : Bytes) : Agrees (Cursor.dataUntil .debug pat) (dataUntil pat) := by
  intro c r hs hc
  have h1 := hc.pos
  unfold Cursor.dataUntil dataUntil
  rw [search_view, hs.rest]
  cases hf : findSub pat (c.data.drop c.pos) with
  | none => trivial
  | some n =>
    have hn := findSub_le pat _ n hf
    rw [List.length_drop] at hn
    dsimp only
    by_cases h4 : n < 4
    · rw [if_pos h4]
      unfold Build.sub Cursor.slice
      by_cases h : 4 ≤ c.pos + n
      · rw [if_pos h]
        dsimp only
        rw [if_neg (by omega)]
        trivial
      · rw [if_neg h]
        trivial
    · rw [if_neg h4, sub_ok .debug (by omega)]
      dsimp only
      rw [slice_ok c (by omega) (by omega), show c.pos + n - 4 - c.pos = n - 4 by omega]
      refine ⟨rfl, ?_, rfl, hs.warn, hs.tag⟩
      show _ = c.data.drop (c.pos + n - 4)
      rw [List.drop_drop, show c.pos + (n - 4) = c.pos + n - 4 by omega]

/-- what `next` returns and leaves, in both models -/
def SameNext : Res (Option Str × Cursor) → Res (Unit × Rd) → Prop
  | .ok (o, c), .ok (_, r) => o = (if r.isEof then none else some c.tag) ∧ Sees c r ∧
      (c.pos ≤ c.data.length → r.raw = (c.data.drop (c.pos - 4)).take 4) ∧ 8 ≤ c.pos
  | .error _, .error _ => True
  | _, _ => False

theorem view_next {c : Cursor} {r : Rd} (hs : Sees c r) (hc : Fair c) :
    SameNext (Cursor.next .debug c) (next r) := by
  obtain ⟨h1, h2, h3⟩ := hc
  rw [next_eq .debug (c := c) ⟨by omega, by omega⟩, add_ok .debug (by omega)]
  dsimp only
  unfold next
  have hrest : r.rest.drop r.brr = c.data.drop (c.pos + c.left) := by rw [hs.rest, hs.left, List.drop_drop]
  dsimp only
  rw [hrest]
  generalize hp : c.pos + c.left = p
  unfold Cursor.nextHere
  rw [P.bind_def, P.get_def]
  dsimp only
  by_cases hend : c.data.length ≤ p
  · rw [if_pos hend, if_pos (by rw [List.length_drop]; omega)]
    trivial
  rw [if_neg hend]
  have hf : Fair { c with pos := p, left := 0 } := ⟨by show p ≤ c.data.length; omega, h2, (by decide : 0 < 2 ^ 62)⟩
  have hsize : Cursor.u32N .debug { c with pos := p, left := 0 } = _ := frontN_view (by decide) ofLe32 _ hf
  rw [P.bind_def, hsize]
  dsimp only
  by_cases hs4 : 4 ≤ (c.data.drop p).length
  case neg => rw [if_neg hs4, if_pos (by omega)]; trivial
  rw [if_pos hs4, if_neg (by omega)]
  dsimp only
  rw [P.bind_def, P.modify_def]
  dsimp only
  generalize (ofLe32 ((c.data.drop p).take 4)) = size
  have hlen4 : p + 4 ≤ c.data.length := by rw [List.length_drop] at hs4; omega
  have hf2 : Fair { c with pos := p + 4, left := size.toNat } := ⟨hlen4, h2, toNat_small size⟩
  rw [P.bind_def]
  unfold Cursor.str
  rw [P.bind_def, textBytes_view hf2]
  dsimp only
  rw [List.drop_drop]
  generalize hD : c.data.drop (p + 4) = D
  by_cases ht : 4 ≤ D.length ∨ 0 ∈ D
  case neg => rw [if_neg ht, if_pos ht]; trivial
  rw [if_pos ht, if_neg (fun e => e ht)]
  dsimp only
  rw [P.bind_def, advance_view hf2 (by decide)]
  dsimp only
  rw [P.bind_def]
  unfold Cursor.subRemaining
  dsimp only
  by_cases hz : size.toNat < 4
  case pos => rw [if_pos hz, if_pos hz]; trivial
  rw [if_neg hz, if_neg hz]
  dsimp only
  rw [P.pure_def]
  dsimp only
  have hnz : 0 ∉ cutNul (D.take 4) := cutNul_zero_not_mem _
  have htag : tagOfBytes (D.take 4) = leNat (cutNul (D.take 4)) := rfl
  rw [htag]
  generalize cutNul (D.take 4) = bs at hnz
  by_cases hb : bs = []
  · subst hb
    rw [show List.isEmpty (decodeLatin1 []) = true from rfl, if_pos (show true = true from rfl),
      if_pos (show leNat [] = 0 from rfl)]
    trivial
  have hne : (decodeLatin1 bs).isEmpty = false := by cases bs with
    | nil => exact absurd rfl hb
    | cons x xs => rfl
  have hn0 : ¬ leNat bs = 0 := fun e => hb (leNat_inj hnz (by simp) e)
  rw [hne, if_neg (by decide), if_neg hn0, P.bind_def, P.modify_def]
  dsimp only
  rw [P.bind_def, P.get_def]
  dsimp only
  have hdrop : c.data.drop (p + 4 + 4) = D.drop 4 := by rw [← hD, List.drop_drop]
  have hsees : Sees { c with pos := p + 4 + 4, left := size.toNat - 4, tag := decodeLatin1 bs }
      { rest := D.drop 4, brr := size.toNat - 4, tag := leNat bs, warn := c.warn, raw := D.take 4 } :=
    ⟨hdrop.symm, rfl, rfl, bs, hnz, rfl, rfl⟩
  have hEnd : (decodeLatin1 bs == "ENDB".toList) = (leNat bs == ENDB) := by
    rw [Bool.eq_iff_iff, beq_iff_eq, beq_iff_eq, decodeLatin1_endb]
    exact ⟨fun e => by rw [e]; rfl, fun e => leNat_inj hnz (by decide) e⟩
  have hmore : decide (p + 4 + 4 < c.data.length) = !(D.drop 4).isEmpty := by
    rw [← hdrop, Bool.eq_iff_iff, decide_eq_true_iff, Bool.not_eq_true', ← Bool.not_eq_true, List.isEmpty_iff,
      List.drop_eq_nil_iff, Nat.not_le]
  rw [hEnd, hmore, hs.warn]
  cases hw : (c.warn && leNat bs == ENDB && !(D.drop 4).isEmpty) with
  | true => rw [if_pos rfl, if_pos rfl]; trivial
  | false =>
    rw [if_neg (show ¬ (false = true) by decide), if_neg (show ¬ (false = true) by decide)]
    have hr : ∀ (x : Cursor) (y : Rd), Sees x y →
        (if x.isEof = true then (Pure.pure none : P (Option Str)) else Pure.pure (some (decodeLatin1 bs))) x
          = .ok (if y.isEof then none else some (decodeLatin1 bs), x) := by
      intro x y hxy
      rw [view_isEof hxy]
      cases y.isEof <;> rfl
    rw [hr _ _ hsees]
    refine ⟨rfl, hsees, fun _ => ?_, by show 8 ≤ p + 4 + 4; omega⟩
    show D.take 4 = (c.data.drop (p + 4 + 4 - 4)).take 4
    rw [Nat.add_sub_cancel, hD]

/-- C93: every method of the reader agrees with the model of it by the bytes still to be read, which
the models of the file format are made of: the same value and the same state, or a panic in both;
where overflow is checked, for sizes of a machine, and as long as the reader is not beyond the end of
the data. -/
theorem C93_view :
    Agrees (Cursor.bool .debug) getBool ∧ Agrees (Cursor.u8 .debug) getU8 ∧ Agrees (Cursor.u8N .debug) getU8N ∧
    Agrees (Cursor.u16 .debug) getU16 ∧ Agrees (Cursor.u16N .debug) getU16N ∧
    Agrees (Cursor.u32 .debug) getU32 ∧ Agrees (Cursor.u32N .debug) getU32N ∧
    Agrees (Cursor.i32 .debug) getI32 ∧ Agrees (Cursor.u64 .debug) getU64 ∧
    Agrees (Cursor.f32 .debug) getF32 ∧ Agrees (Cursor.f64 .debug) getF64 ∧
    (∀ n < 2 ^ 62, Agrees (Cursor.bytes .debug n) (getN n) ∧ Agrees (Cursor.bytesN .debug n) (takeN n) ∧
      Agrees (Cursor.str .debug n) (getStr n) ∧ Agrees (Cursor.strN .debug n) (getStrN n) ∧
      Agrees (Cursor.strEncN .debug n) (getStrEncN n) ∧ Agrees (Cursor.dataOf .debug n) (getData n) ∧
      Agrees (Cursor.skipEnd .debug n) (skipEndTag n)) ∧
    Agrees (Cursor.string .debug) getString ∧ Agrees (Cursor.stringN .debug) getStringN ∧
    Agrees (Cursor.wide .debug) getWide ∧ Agrees (Cursor.dataN .debug) getDataN ∧
    Agrees (Cursor.recordData .debug false) getRecordData ∧
    Agrees (do let _ ← Cursor.skipTag .debug; Pure.pure ()) skipTag ∧
    (∀ pat, Agrees (Cursor.dataUntil .debug pat) (dataUntil pat)) ∧
    (∀ c r, Sees c r → Fair c → SameNext (Cursor.next .debug c) (next r) ∧ c.isEof = r.isEof ∧
      (∃ c', c.child = .ok c' ∧ Sees c' r.child ∧ Fair c') ∧
      (4 ≤ c.pos → r.raw = (c.data.drop (c.pos - 4)).take 4 →
        SameEnd (Cursor.recordData .debug true c) (getRecordDataWithTag r))) :=
  ⟨view_bool.1, view_u8.1, view_u8N.1, view_u16.1, view_u16N.1, view_u32.1, view_u32N.1, view_i32.1, view_u64.1,
    view_f32.1, view_f64.1,
    fun _ hn => ⟨(view_bytes hn).1, (view_bytesN hn).1, view_str hn, view_text hn _, view_text hn _, view_data hn,
      view_skipEnd hn⟩,
    view_string, view_stringN, view_wide, view_dataN, view_recordData, view_skipTag, view_until,
    fun _ _ hs hc => ⟨view_next hs hc, view_isEof hs, view_child hs hc, view_recordDataWithTag hs hc⟩⟩

/-- both readers in the middle of a record -/
example : Sees insideRecord { rest := insideRecord.data.drop 8, brr := 6, tag := tag!"AB" } ∧ Fair insideRecord ∧
    Cursor.string .debug { insideRecord with pos := 9, left := 5 }
      = .ok ("X".toList, { insideRecord with pos := 14, left := 0 }) :=
  ⟨⟨rfl, rfl, rfl, [0x41, 0x42], by decide, by decide, by decide⟩, ⟨by decide, by decide, by decide⟩, by decide +kernel⟩

/-- Beyond the end of the data the two differ in one way: reading no bytes there panics, which the
other model does not show. (After a record whose size is too large, or a text cut off by a zero byte.) -/
theorem C93_beyond_counterexample : ∃ (c : Cursor) (r : Rd), Sees c r ∧ c.pos = c.data.length + 1 ∧
    Cursor.bytes .debug 0 c = .error .panic ∧ getN 0 r = .ok ([], r) :=
  ⟨{ data := [0], pos := 2 }, { rest := [], brr := 0 }, ⟨rfl, rfl, rfl, [], by decide, rfl, rfl⟩, rfl, rfl, rfl⟩

end Vpin
