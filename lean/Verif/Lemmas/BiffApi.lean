import Verif.Spec.BiffApi
import Verif.Lemmas.Biff
/-
The methods of the record reader act on the unread bytes of the record.
-/
namespace Vpin
open Cursor

/-- the result of a call on `c` is the one said of the unread bytes -/
def Follows {α : Type} (c : Cursor) : Option (α × Bytes) → Res (α × Cursor) → Prop
  | none, y => y = .error .panic
  | some (v, rest), y => ∃ k, k ≤ c.left ∧ rest = (unread c).drop k ∧ y = .ok (v, c.move k)

/-- the method does what is said of the unread bytes -/
def Mirrors {α : Type} (m : P α) (f : Bytes → Option (α × Bytes)) : Prop :=
  ∀ c : Cursor, c.Inside → Follows c (f (unread c)) (m c)

theorem unread_length {c : Cursor} (h : c.Inside) : (unread c).length = c.left := by
  unfold unread Cursor.Inside at *; simp; omega

theorem Cursor.Inside.move {c : Cursor} (h : c.Inside) {k : Nat} (hk : k ≤ c.left) : (c.move k).Inside := by
  unfold Cursor.Inside Cursor.move at *; dsimp only; omega

theorem unread_move {c : Cursor} {k : Nat} (_hk : k ≤ c.left) : unread (c.move k) = (unread c).drop k := by
  unfold unread Cursor.move; dsimp only
  rw [List.drop_take, List.drop_drop]

theorem move_move (c : Cursor) (j k : Nat) : (c.move j).move k = c.move (j + k) := by
  unfold Cursor.move; simp; omega

theorem move_zero (c : Cursor) : c.move 0 = c := by
  unfold Cursor.move; simp

theorem P.bind_def {α β : Type} (m : P α) (k : α → P β) (c : Cursor) :
    (m >>= k) c = match m c with
      | .error e => .error e
      | .ok (v, c') => k v c' := by
  show (StateT.bind m k) c = _
  unfold StateT.bind
  show Except.bind (m c) _ = _
  cases m c with
  | error e => rfl
  | ok p => obtain ⟨v, c'⟩ := p; rfl

theorem P.pure_def {α : Type} (v : α) (c : Cursor) : (pure v : P α) c = .ok (v, c) := rfl

theorem P.get_def (c : Cursor) : (get : P Cursor) c = .ok (c, c) := rfl

theorem P.throw_def {α : Type} (e : Err) (c : Cursor) : (throw e : P α) c = .error e := rfl

theorem P.modify_def (f : Cursor → Cursor) (c : Cursor) : (modify f : P Unit) c = .ok ((), f c) := rfl

/-- a method for a value of fixed size -/
theorem Mirrors.fixed {α : Type} {m : P α} {n : Nat} {f : Bytes → α}
    (h1 : ∀ c : Cursor, c.Inside → n ≤ c.left → m c = .ok (f ((unread c).take n), c.move n))
    (h2 : ∀ c : Cursor, c.Inside → c.left < n → m c = .error .panic) : Mirrors m (fixedSize n f) := by
  intro c hc
  unfold fixedSize cutAt
  rw [unread_length hc]
  by_cases h : n ≤ c.left
  · rw [if_pos h]
    exact ⟨n, h, rfl, h1 c hc h⟩
  · rw [if_neg h]
    exact h2 c hc (by omega)

theorem Mirrors.map {α β : Type} {m : P α} {f : Bytes → Option (α × Bytes)} (h : Mirrors m f) (g : α → β) :
    Mirrors (do return g (← m)) (fun d => (f d).map fun (v, rest) => (g v, rest)) := by
  intro c hc
  have hm := h c hc
  rw [P.bind_def]
  dsimp only
  cases hf : f (unread c) with
  | none => rw [hf] at hm; rw [show m c = .error .panic from hm]; rfl
  | some p =>
    obtain ⟨v, rest⟩ := p
    rw [hf] at hm
    obtain ⟨k, hk, hr, he⟩ := hm
    exact ⟨k, hk, hr, by rw [he]; rfl⟩

/-- first one, then the other -/
def andThen {α β : Type} (f : Bytes → Option (α × Bytes)) (g : α → Bytes → Option (β × Bytes)) (d : Bytes) :
    Option (β × Bytes) :=
  match f d with
  | none => none
  | some (v, d) => g v d

/-- one method after the other -/
theorem Mirrors.bind {α β : Type} {m : P α} {f : Bytes → Option (α × Bytes)} {k : α → P β}
    {g : α → Bytes → Option (β × Bytes)} (h : Mirrors m f) (hk : ∀ v, Mirrors (k v) (g v)) :
    Mirrors (m >>= k) (andThen f g) := by
  intro c hc
  have hm := h c hc
  rw [P.bind_def]
  unfold andThen
  cases hf : f (unread c) with
  | none => rw [hf] at hm; rw [show m c = .error .panic from hm]; rfl
  | some p =>
    obtain ⟨v, rest⟩ := p
    rw [hf] at hm
    obtain ⟨j, hj, hr, he⟩ := hm
    have h2 := hk v (c.move j) (hc.move hj)
    rw [unread_move hj, ← hr] at h2
    rw [he]
    dsimp only
    cases hg : g v rest with
    | none => rw [hg] at h2; exact h2
    | some q =>
      obtain ⟨u, rest'⟩ := q
      rw [hg] at h2
      obtain ⟨i, hi, hr', he'⟩ := h2
      refine ⟨j + i, ?_, ?_, ?_⟩
      · have : (c.move j).left = c.left - j := rfl
        omega
      · rw [unread_move hj] at hr'
        rw [hr', List.drop_drop]
      · rw [he', move_move]

theorem Mirrors.pure {α : Type} (v : α) : Mirrors (Pure.pure v) (fun d => some (v, d)) := by
  intro c _
  exact ⟨0, Nat.zero_le _, rfl, by rw [move_zero]; rfl⟩

theorem Mirrors.congr {α : Type} {m : P α} {f g : Bytes → Option (α × Bytes)} (h : Mirrors m f)
    (e : ∀ d, f d = g d) : Mirrors m g := by
  have : f = g := funext e
  exact this ▸ h

/-! ## The parts of a method -/

theorem slice_front {c : Cursor} (h : c.Inside) {n : Nat} (hn : n ≤ c.left) :
    c.slice c.pos (c.pos + n) = .ok ((unread c).take n) := by
  unfold slice unread
  unfold Cursor.Inside at h
  rw [if_pos ⟨by omega, by omega⟩, Nat.add_sub_cancel_left, List.take_take, Nat.min_eq_left hn]

theorem peek_ok {c : Cursor} (h : c.Inside) {n : Nat} (hn : n ≤ c.left) :
    peek .debug n c = .ok ((unread c).take n, c) := by
  unfold peek Build.add
  have h' := h
  unfold Cursor.Inside at h'
  rw [if_pos (by omega)]
  dsimp only
  rw [slice_front h hn]

theorem front_ok {c : Cursor} (h : c.Inside) {n : Nat} (hn : n ≤ c.left) :
    front n c = .ok ((unread c).take n, c) := by
  unfold front slice unread
  have h' := h
  unfold Cursor.Inside at h'
  rw [if_pos ⟨by omega, by omega⟩]
  dsimp only
  rw [if_neg (by simp; omega)]
  congr 2
  rw [List.take_take, List.take_take, Nat.min_eq_left hn, Nat.min_eq_left (by omega)]

theorem advance_ok {c : Cursor} (h : c.Inside) {n : Nat} (hn : n < 2 ^ 63) :
    advance .debug n c = .ok ((), { c with pos := c.pos + n }) := by
  unfold advance Build.add
  unfold Cursor.Inside at h
  rw [if_pos (by omega)]

theorem count_ok {c : Cursor} {n : Nat} (hn : n ≤ c.left) :
    count .debug n c = .ok ((), { c with left := c.left - n }) := by
  unfold count Build.sub
  rw [if_pos hn]

theorem count_err {c : Cursor} {n : Nat} (hn : c.left < n) : count .debug n c = .error .panic := by
  unfold count Build.sub
  rw [if_neg (by omega)]

/-- the part leaves the count of unread bytes alone, if it does not panic -/
def Steady {α : Type} (m : P α) : Prop :=
  ∀ c, m c = .error .panic ∨ ∃ v c', m c = .ok (v, c') ∧ c'.left = c.left

theorem slice_cases (c : Cursor) (a e : Nat) : c.slice a e = .error .panic ∨ ∃ d, c.slice a e = .ok d := by
  unfold slice; split <;> simp

theorem add_cases (x y : Nat) :
    Build.add .debug x y = .error .panic ∨ Build.add .debug x y = .ok (x + y) := by
  unfold Build.add; split <;> simp

theorem steady_peek (n : Nat) : Steady (peek .debug n) := by
  intro c
  unfold peek
  rcases add_cases c.pos n with h | h <;> rw [h] <;> dsimp only
  · exact .inl rfl
  · rcases slice_cases c c.pos (c.pos + n) with h | ⟨d, h⟩ <;> rw [h] <;> dsimp only
    · exact .inl rfl
    · exact .inr ⟨_, _, rfl, rfl⟩

theorem steady_front (n : Nat) : Steady (front n) := by
  intro c
  unfold front
  rcases slice_cases c c.pos c.data.length with h | ⟨d, h⟩ <;> rw [h] <;> dsimp only
  · exact .inl rfl
  · split
    · exact .inl rfl
    · exact .inr ⟨_, _, rfl, rfl⟩

theorem steady_advance (n : Nat) : Steady (advance .debug n) := by
  intro c
  unfold advance
  rcases add_cases c.pos n with h | h <;> rw [h] <;> dsimp only
  · exact .inl rfl
  · exact .inr ⟨_, _, rfl, rfl⟩

theorem steady_bind {α β : Type} {m : P α} {k : α → P β} (hm : Steady m) (hk : ∀ v, Steady (k v)) :
    Steady (m >>= k) := by
  intro c
  rw [P.bind_def]
  rcases hm c with h | ⟨v, c', h, hl⟩ <;> rw [h] <;> dsimp only
  · exact .inl rfl
  · rcases hk v c' with h | ⟨u, c2, h, hl'⟩ <;> rw [h]
    · exact .inl rfl
    · exact .inr ⟨_, _, rfl, by rw [hl', hl]⟩

theorem steady_pure {α : Type} (v : α) : Steady (pure v) := fun c => .inr ⟨v, c, rfl, rfl⟩

/-- a part that leaves the count alone and a rest that panics -/
theorem steady_panic {α β : Type} {m : P α} {k : α → P β} {n : Nat} (hm : Steady m)
    (hk : ∀ v (c : Cursor), c.left < n → k v c = .error .panic) (c : Cursor) (hl : c.left < n) :
    (m >>= k) c = .error .panic := by
  rw [P.bind_def]
  rcases hm c with h | ⟨v, c', h, hl'⟩ <;> rw [h]
  exact hk v c' (by omega)

theorem count_panic {β : Type} {k : Unit → P β} {n : Nat} (c : Cursor) (hl : c.left < n) :
    (count .debug n >>= k) c = .error .panic := by
  rw [P.bind_def, count_err hl]

/-! ## The methods for values -/

theorem mirrors_bytes (n : Nat) : Mirrors (bytes .debug n) (cutAt n) := by
  have : Mirrors (bytes .debug n) (fixedSize n id) := by
    refine .fixed (fun c hc hn => ?_) (fun c hc hn => count_panic c hn)
    have hi := hc
    unfold Cursor.Inside at hi
    unfold bytes bytesN
    rw [P.bind_def, count_ok hn]
    dsimp only
    have hp : peek .debug n { c with left := c.left - n } = .ok ((unread c).take n, { c with left := c.left - n }) := by
      have h1 := peek_ok hc hn
      unfold peek at h1 ⊢
      dsimp only at h1 ⊢
      have : (Build.add .debug c.pos n) = .ok (c.pos + n) := by unfold Build.add; rw [if_pos (by omega)]
      rw [this] at h1 ⊢
      dsimp only at h1 ⊢
      have h2 := slice_front hc hn
      have h3 : ({ c with left := c.left - n } : Cursor).slice c.pos (c.pos + n) = c.slice c.pos (c.pos + n) := rfl
      rw [h3, h2]
    rw [P.bind_def, hp]
    dsimp only
    have ha : advance .debug n { c with left := c.left - n } = .ok ((), c.move n) := by
      unfold advance Build.add
      dsimp only
      rw [if_pos (by omega)]
      rfl
    rw [P.bind_def, ha]
    rfl
  refine this.congr fun d => ?_
  unfold fixedSize
  cases cutAt n d <;> rfl

/-- `front`, then advance and count -/
theorem mirrors_front {α : Type} (n : Nat) (hn : n < 2 ^ 63) (f : Bytes → α) :
    Mirrors (do
      let d ← front n
      advance .debug n
      count .debug n
      pure (f d)) (fixedSize n f) := by
  refine .fixed (fun c hc h => ?_) (fun c hc h => ?_)
  · rw [P.bind_def, front_ok hc h]
    dsimp only
    rw [P.bind_def, advance_ok hc hn]
    dsimp only
    rw [P.bind_def, count_ok (c := { c with pos := c.pos + n }) h]
    rfl
  · exact steady_panic (steady_front n)
      (fun v c hl => steady_panic (steady_advance n) (fun _ c hl => count_panic c hl) c hl) c h

/-- `peek`, then advance and count -/
theorem mirrors_peek {α : Type} (n : Nat) (hn : n < 2 ^ 63) (f : Bytes → α) :
    Mirrors (do
      let d ← peek .debug n
      advance .debug n
      count .debug n
      pure (f d)) (fixedSize n f) := by
  refine .fixed (fun c hc h => ?_) (fun c hc h => ?_)
  · rw [P.bind_def, peek_ok hc h]
    dsimp only
    rw [P.bind_def, advance_ok hc hn]
    dsimp only
    rw [P.bind_def, count_ok (c := { c with pos := c.pos + n }) h]
    rfl
  · exact steady_panic (steady_peek n)
      (fun v c hl => steady_panic (steady_advance n) (fun _ c hl => count_panic c hl) c hl) c h

/-- two ways to write a method -/
theorem Mirrors.of_eq {α : Type} {m m' : P α} {f : Bytes → Option (α × Bytes)} (h : Mirrors m f)
    (e : ∀ c, m' c = m c) : Mirrors m' f := by
  have : m' = m := funext e
  exact this ▸ h

theorem mirrors_u16 : Mirrors (u16 .debug) (fixedSize 2 ofLe16) :=
  (mirrors_front 2 (by decide) ofLe16).of_eq fun c => by
    unfold u16 u16N
    simp only [bind_assoc, pure_bind]

theorem mirrors_u32 : Mirrors (u32 .debug) (fixedSize 4 ofLe32) :=
  (mirrors_front 4 (by decide) ofLe32).of_eq fun c => by
    unfold u32 u32N
    simp only [bind_assoc, pure_bind]

theorem mirrors_i32 : Mirrors (i32 .debug) (fixedSize 4 fun d => (ofLe32 d).toInt32) :=
  (mirrors_front 4 (by decide) _).of_eq fun c => by
    unfold i32 i32N
    simp only [bind_assoc, pure_bind]

theorem mirrors_u8 : Mirrors (Cursor.u8 .debug) (fixedSize 1 fun d => UInt8.ofNat (leNat d)) := by
  have hs : Steady (u8N .debug) := by
    intro c
    unfold u8N
    rw [P.bind_def, P.get_def]
    dsimp only
    cases c.data[c.pos]? with
    | none => exact .inl rfl
    | some v =>
      dsimp only
      exact steady_bind (steady_advance 1) (fun _ => steady_pure v) c
  refine .fixed (fun c hc h => ?_) (fun c hc h => ?_)
  · have hi := hc
    unfold Cursor.Inside at hi
    have hg : c.data[c.pos]? = some (c.data[c.pos]'(by omega)) := List.getElem?_eq_getElem (by omega)
    have hu : (unread c).take 1 = [c.data[c.pos]'(by omega)] := by
      unfold unread
      rw [List.take_take, Nat.min_eq_left h, List.drop_eq_getElem_cons (by omega : c.pos < c.data.length)]
      rfl
    unfold Cursor.u8 u8N
    rw [P.bind_def, P.bind_def, P.get_def]
    dsimp only
    rw [hg]
    dsimp only
    rw [P.bind_def, advance_ok hc (by decide), hu]
    dsimp only
    rw [P.pure_def]
    dsimp only
    rw [P.bind_def, count_ok (c := { c with pos := c.pos + 1 }) h]
    dsimp only
    rw [P.pure_def]
    simp [leNat, Cursor.move]
  · unfold Cursor.u8
    exact steady_panic hs (fun _ c hl => count_panic c hl) c h

theorem scan_ok : ∀ (d : Bytes) (n : Nat), n ≤ d.length → scan d n = .ok (cutNul (d.take n)).length
  | d, 0, _ => by cases d <;> rfl
  | [], _ + 1, h => by simp at h
  | x :: xs, n + 1, h => by
    unfold scan
    rw [List.take_succ_cons]
    unfold cutNul
    by_cases hx : x = 0
    · rw [if_pos hx, if_pos hx]; rfl
    · rw [if_neg hx, if_neg hx, scan_ok xs n (by simpa using h)]
      rfl

theorem scan_cases : ∀ (d : Bytes) (n : Nat), scan d n = .error .panic ∨ ∃ k, scan d n = .ok k
  | d, 0 => by cases d <;> exact .inr ⟨0, rfl⟩
  | [], _ + 1 => .inl rfl
  | x :: xs, n + 1 => by
    unfold scan
    by_cases hx : x = 0
    · rw [if_pos hx]; exact .inr ⟨0, rfl⟩
    · rw [if_neg hx]
      rcases scan_cases xs n with h | ⟨k, h⟩ <;> rw [h]
      · exact .inl rfl
      · exact .inr ⟨_, rfl⟩

theorem cutNul_prefix (d : Bytes) : cutNul d = d.take (cutNul d).length := by
  induction d with
  | nil => rfl
  | cons x xs ih =>
    unfold cutNul
    split
    · rfl
    · rw [List.length_cons, List.take_succ_cons, ← ih]

theorem cutNul_le (d : Bytes) : (cutNul d).length ≤ d.length := by
  rw [cutNul_prefix d]; simp; omega

theorem cutNul_takeWhile (d : Bytes) : cutNul d = d.takeWhile (· ≠ 0) := by
  induction d with
  | nil => rfl
  | cons x xs ih =>
    unfold cutNul
    by_cases h : x = 0
    · simp [h]
    · simp [h, ih]

theorem textBytes_ok {c : Cursor} (hc : c.Inside) {n : Nat} (h : n ≤ c.left) :
    textBytes .debug n c = .ok (cutNul ((unread c).take n), c) := by
  unfold textBytes
  rw [P.bind_def, P.get_def]
  dsimp only
  have hi := hc
  unfold Cursor.Inside at hi
  have hu : (unread c).take n = (c.data.drop c.pos).take n := by
    unfold unread; rw [List.take_take, Nat.min_eq_left h]
  rw [scan_ok _ n (by simp; omega), ← hu]
  dsimp only
  have hle : (cutNul ((unread c).take n)).length ≤ n :=
    Nat.le_trans (cutNul_le _) (by simp; omega)
  rw [peek_ok hc (Nat.le_trans hle h)]
  congr 2
  have hp := cutNul_prefix ((unread c).take n)
  rw [List.take_take, Nat.min_eq_left hle] at hp
  exact hp.symm

theorem steady_textBytes (n : Nat) : Steady (textBytes .debug n) := by
  intro c
  unfold textBytes
  rw [P.bind_def, P.get_def]
  dsimp only
  rcases scan_cases (c.data.drop c.pos) n with h | ⟨k, h⟩ <;> rw [h] <;> dsimp only
  · exact .inl rfl
  · exact steady_peek k c

theorem mirrors_str (n : Nat) : Mirrors (str .debug n) (fixedSize n zeroEnded) := by
  refine .fixed (fun c hc h => ?_) (fun c hc h => ?_)
  · have hi := hc
    unfold Cursor.Inside at hi
    unfold str
    rw [P.bind_def, textBytes_ok hc h]
    dsimp only
    rw [P.bind_def, advance_ok hc (by omega)]
    dsimp only
    rw [P.bind_def]
    unfold subRemaining
    dsimp only
    rw [if_neg (by omega)]
    dsimp only
    rw [P.pure_def]
    unfold zeroEnded
    rw [cutNul_takeWhile]
    rfl
  · unfold str
    refine steady_panic (steady_textBytes n) (fun v c hl => ?_) c h
    refine steady_panic (steady_advance n) (fun v c hl => ?_) c hl
    rw [P.bind_def]
    unfold subRemaining
    rw [if_pos hl]

theorem leNat_lt : ∀ d : Bytes, leNat d < 256 ^ d.length
  | [] => by decide
  | x :: xs => by
    have := leNat_lt xs
    have hx := x.toNat_lt
    rw [List.length_cons, Nat.pow_succ]
    unfold leNat
    omega

theorem leNat_four {x : Bytes} (h : x.length = 4) : leNat x < 2 ^ 32 := by
  have := leNat_lt x
  rw [h] at this
  exact this

theorem cutAt_length {n : Nat} {d x rest : Bytes} (h : cutAt n d = some (x, rest)) : x.length = n := by
  unfold cutAt at h
  split at h
  · cases h; simp; omega
  · cases h

/-- the length before a value, and the value -/
theorem mirrors_prefixed {α : Type} {m : Nat → P α} {value : Bytes → Option α}
    (h : ∀ n, Mirrors (m n) fun d =>
      match cutAt n d with
      | none => none
      | some (x, rest) =>
        match value x with
        | none => none
        | some v => some (v, rest)) :
    Mirrors (do
      let n ← u32 .debug
      m n.toNat) (prefixed value) := by
  refine (mirrors_u32.bind fun n => h n.toNat).congr fun d => ?_
  unfold andThen prefixed fixedSize
  cases h : cutAt 4 d with
  | none => rfl
  | some p =>
    obtain ⟨x, d'⟩ := p
    dsimp only
    have hx : (ofLe32 x).toNat = leNat x := by
      unfold ofLe32
      exact ofNat_toNat_u32 (leNat_four (cutAt_length h))
    rw [hx]
    rfl

theorem mirrors_string : Mirrors (string .debug) (prefixed fun x => some (zeroEnded x)) := by
  unfold string
  refine mirrors_prefixed (m := fun n => str .debug n) fun n => (mirrors_str n).congr fun d => ?_
  unfold fixedSize
  cases cutAt n d <;> rfl

theorem mirrors_wide : Mirrors (wide .debug) (prefixed fun x =>
    match decodeUtf16le x with
    | .error _ => none
    | .ok s => some s) := by
  unfold wide
  refine mirrors_prefixed (m := fun n => do
    let d ← peek .debug n
    match decodeUtf16le d with
    | .error _ => throw .panic
    | .ok s =>
      advance .debug n
      count .debug n
      pure s) fun n c hc => ?_
  unfold cutAt
  dsimp only
  rw [unread_length hc]
  by_cases h : n ≤ c.left
  · rw [if_pos h, P.bind_def, peek_ok hc h]
    dsimp only
    cases hd : decodeUtf16le ((unread c).take n) with
    | error e => rfl
    | ok s =>
      have hi := hc
      unfold Cursor.Inside at hi
      dsimp only
      rw [P.bind_def, advance_ok hc (by omega)]
      dsimp only
      rw [P.bind_def, count_ok (c := { c with pos := c.pos + n }) h]
      exact ⟨n, h, rfl, rfl⟩
  · rw [if_neg h]
    show _ = _
    refine steady_panic (n := n) (steady_peek n) (fun v c hl => ?_) c (by omega)
    cases decodeUtf16le v with
    | error e => rfl
    | ok s => exact steady_panic (steady_advance n) (fun _ c hl => count_panic c hl) c hl

theorem fixedSize_map {α β : Type} (n : Nat) (f : Bytes → α) (g : α → β) (d : Bytes) :
    ((fixedSize n f d).map fun (v, rest) => (g v, rest)) = fixedSize n (fun x => g (f x)) d := by
  unfold fixedSize; cases cutAt n d <;> rfl

theorem prefixed_map {α β : Type} (f : Bytes → Option α) (g : α → β) (d : Bytes) :
    ((prefixed f d).map fun (v, rest) => (g v, rest)) = prefixed (fun x => (f x).map g) d := by
  unfold prefixed
  cases cutAt 4 d with
  | none => rfl
  | some p =>
    dsimp only
    cases cutAt (leNat p.1) p.2 with
    | none => rfl
    | some q => dsimp only; cases f q.1 <;> rfl

theorem mirrors_elem (e : Elem) : Mirrors (e.get .debug) e.parse := by
  cases e
  case bool => exact ((mirrors_peek 4 (by decide) fun x => x != [0, 0, 0, 0]).map _).congr fun d => fixedSize_map _ _ _ d
  case u8 => exact (mirrors_u8.map _).congr fun d => fixedSize_map _ _ _ d
  case u16 => exact (mirrors_u16.map _).congr fun d => fixedSize_map _ _ _ d
  case u32 => exact (mirrors_u32.map _).congr fun d => fixedSize_map _ _ _ d
  case u64 => exact ((mirrors_front 8 (by decide) ofLe64).map _).congr fun d => fixedSize_map _ _ _ d
  case i16 => exact ((mirrors_front 2 (by decide) fun d => (ofLe16 d).toInt16).map _).congr fun d => fixedSize_map _ _ _ d
  case i32 => exact (mirrors_i32.map _).congr fun d => fixedSize_map _ _ _ d
  case i64 => exact ((mirrors_front 8 (by decide) fun d => (ofLe64 d).toInt64).map _).congr fun d => fixedSize_map _ _ _ d
  case f32 => exact ((mirrors_peek 4 (by decide) ofLe32).map _).congr fun d => fixedSize_map _ _ _ d
  case f64 => exact ((mirrors_front 8 (by decide) ofLe64).map _).congr fun d => fixedSize_map _ _ _ d
  case string =>
    exact (mirrors_string.map _).congr fun d => prefixed_map _ Scalar.text d
  case wide =>
    refine (mirrors_wide.map _).congr fun d => (prefixed_map _ Scalar.text d).trans ?_
    show prefixed _ d = prefixed _ d
    congr 1
    funext x
    cases decodeUtf16le x <;> rfl

theorem mirrors_times (e : Elem) : ∀ n, Mirrors (times (e.get .debug) n) (parseMany e n)
  | 0 => Mirrors.pure []
  | n + 1 => by
    refine ((mirrors_elem e).bind fun v => (mirrors_times e n).map (v :: ·)).congr fun d => ?_
    unfold andThen
    conv => rhs; unfold parseMany
    cases e.parse d with
    | none => rfl
    | some p => dsimp only; cases parseMany e n p.2 <;> rfl

theorem mirrors_skip (n : Nat) : Mirrors (Cursor.skip .debug n) (fixedSize n fun _ => ()) := by
  refine .fixed (fun c hc h => ?_) (fun c hc h => ?_)
  · have hi := hc
    unfold Cursor.Inside at hi
    unfold Cursor.skip
    rw [P.bind_def, advance_ok hc (by omega)]
    dsimp only
    exact count_ok (c := { c with pos := c.pos + n }) h
  · unfold Cursor.skip
    exact steady_panic (steady_advance n) (fun _ c hl => count_err hl) c h

theorem mirrors_skipTag : Mirrors (Cursor.skipTag .debug) (fun d => some (d.length, [])) := by
  intro c hc
  have hi := hc
  unfold Cursor.Inside at hi
  refine ⟨c.left, Nat.le_refl _, ?_, ?_⟩
  · rw [List.drop_eq_nil_of_le (by rw [unread_length hc]; exact Nat.le_refl _)]
  · unfold Cursor.skipTag
    rw [P.bind_def, P.get_def]
    dsimp only
    rw [P.bind_def, advance_ok hc (by omega), unread_length hc]
    dsimp only
    unfold Cursor.move
    rw [Nat.sub_self]
    rfl

theorem mirrors_read (r : Read) : Mirrors (r.run .debug) r.parse := by
  cases r with
  | one e => exact (mirrors_elem e).map _
  | many e n => exact (mirrors_times e n).map _
  | bytes n => exact (mirrors_bytes n).map _
  | str n =>
    refine ((mirrors_str n).map _).congr fun d => ?_
    unfold fixedSize
    show _ = (cutAt n d).map _
    cases cutAt n d <;> rfl
  | skip n =>
    refine ((mirrors_skip n).map fun _ => Out.skipped).congr fun d => ?_
    unfold fixedSize
    show _ = (cutAt n d).map _
    cases cutAt n d <;> rfl
  | skipTag => exact mirrors_skipTag.map fun _ => Out.skipped

theorem mirrors_reads : ∀ rs, Mirrors (runReads .debug rs) (parseReads rs)
  | [] => Mirrors.pure []
  | r :: rs => by
    refine ((mirrors_read r).bind fun v => (mirrors_reads rs).map (v :: ·)).congr fun d => ?_
    unfold andThen
    conv => rhs; unfold parseReads
    cases r.parse d with
    | none => rfl
    | some p => dsimp only; cases parseReads rs p.2 <;> rfl

end Vpin
