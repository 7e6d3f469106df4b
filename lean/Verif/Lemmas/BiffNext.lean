import Verif.Lemmas.BiffApi
/-
`next` goes to the end of the record, whatever has been read of it.
-/
namespace Vpin
open Cursor

/-- position and count are machine numbers -/
def Cursor.Machine (c : Cursor) : Prop := c.pos < 2 ^ 64 ∧ c.left < 2 ^ 64

/-- `c'` is on the same data in the same record, and its end of the record is `d` bytes further:
exactly so if overflow is checked, modulo 2^64 otherwise -/
structure Drift (b : Build) (d : Int) (c c' : Cursor) : Prop where
  data : c'.data = c.data
  tag : c'.tag = c.tag
  warn : c'.warn = c.warn
  machine : c'.Machine
  exactly : b = .debug → (c'.pos + c'.left : Int) = c.pos + c.left + d
  modulo : (2 ^ 64 : Int) ∣ (c'.pos + c'.left : Int) - (c.pos + c.left + d)

def Drifts {α : Type} (b : Build) (m : P α) (d : Int) : Prop :=
  ∀ c v c', c.Machine → m c = .ok (v, c') → Drift b d c c'

theorem Drift.refl (b : Build) {c : Cursor} (h : c.Machine) : Drift b 0 c c :=
  ⟨rfl, rfl, rfl, h, fun _ => by simp, by simp⟩

theorem Drift.trans {b : Build} {d e : Int} {c1 c2 c3 : Cursor} (h1 : Drift b d c1 c2) (h2 : Drift b e c2 c3) :
    Drift b (d + e) c1 c3 := by
  refine ⟨h2.data.trans h1.data, h2.tag.trans h1.tag, h2.warn.trans h1.warn, h2.machine, fun hb => ?_, ?_⟩
  · rw [h2.exactly hb, h1.exactly hb]; omega
  · have a1 := h1.modulo
    have a2 := h2.modulo
    have : (c3.pos + c3.left : Int) - (c1.pos + c1.left + (d + e))
        = ((c3.pos + c3.left : Int) - (c2.pos + c2.left + e)) + ((c2.pos + c2.left : Int) - (c1.pos + c1.left + d)) := by
      omega
    rw [this]
    exact Int.dvd_add a2 a1

theorem Drifts.bind {α β : Type} {b : Build} {m : P α} {k : α → P β} {d e : Int} (hm : Drifts b m d)
    (hk : ∀ v, Drifts b (k v) e) : Drifts b (m >>= k) (d + e) := by
  intro c v c' hc h
  rw [P.bind_def] at h
  cases hx : m c with
  | error e => rw [hx] at h; cases h
  | ok p =>
    obtain ⟨u, c1⟩ := p
    rw [hx] at h
    have h1 := hm c u c1 hc hx
    exact h1.trans (hk u c1 v c' h1.machine h)

theorem Drifts.pure {α : Type} {b : Build} (v : α) : Drifts b (Pure.pure v) 0 := by
  intro c u c' hc h
  cases h
  exact .refl b hc

theorem Drifts.of {α : Type} {b : Build} {m : P α} {d e : Int} (h : Drifts b m d) (he : d = e) :
    Drifts b m e := he ▸ h

theorem Drifts.throw {α : Type} {b : Build} {e : Err} {d : Int} : Drifts b (throw e : P α) d := by
  intro c u c' hc h
  cases h

theorem drifts_peek (b : Build) (n : Nat) : Drifts b (peek b n) 0 := by
  intro c v c' hc h
  unfold peek at h
  cases h1 : b.add c.pos n with
  | error e => rw [h1] at h; cases h
  | ok e =>
    rw [h1] at h
    dsimp only at h
    cases h2 : c.slice c.pos e with
    | error e => rw [h2] at h; cases h
    | ok d => rw [h2] at h; cases h; exact .refl b hc

theorem drifts_front (b : Build) (n : Nat) : Drifts b (front n) 0 := by
  intro c v c' hc h
  unfold front at h
  cases h2 : c.slice c.pos c.data.length with
  | error e => rw [h2] at h; cases h
  | ok d =>
    rw [h2] at h
    dsimp only at h
    split at h
    · cases h
    · cases h; exact .refl b hc

theorem drifts_advance (b : Build) (n : Nat) : Drifts b (advance b n) n := by
  intro c v c' hc h
  unfold advance at h
  obtain ⟨hp, hl⟩ := hc
  unfold Build.add at h
  by_cases hs : c.pos + n < 2 ^ 64
  · rw [if_pos hs] at h
    cases h
    refine ⟨rfl, rfl, rfl, ⟨hs, hl⟩, fun _ => by push_cast; omega, ?_⟩
    have : (((c.pos + n : Nat) : Int) + (c.left : Int)) - (c.pos + c.left + n) = 0 := by push_cast; omega
    show (2 ^ 64 : Int) ∣ (((c.pos + n : Nat) : Int) + (c.left : Int)) - (c.pos + c.left + n)
    rw [this]; exact Int.dvd_zero _
  · rw [if_neg hs] at h
    cases b with
    | debug => cases h
    | release =>
      cases h
      refine ⟨rfl, rfl, rfl, ⟨Nat.mod_lt _ (by decide), hl⟩, nofun, ?_⟩
      show (2 ^ 64 : Int) ∣ ((((c.pos + n) % 2 ^ 64 : Nat) : Int) + (c.left : Int)) - (c.pos + c.left + n)
      have e := Nat.div_add_mod (c.pos + n) (2 ^ 64)
      refine ⟨-(((c.pos + n) / 2 ^ 64 : Nat) : Int), ?_⟩
      generalize (c.pos + n) / 2 ^ 64 = q at e
      generalize (c.pos + n) % 2 ^ 64 = r at e
      omega

theorem drifts_count (b : Build) {n : Nat} (hn : n < 2 ^ 64) : Drifts b (count b n) (-n) := by
  intro c v c' hc h
  unfold count at h
  obtain ⟨hp, hl⟩ := hc
  unfold Build.sub at h
  by_cases hs : n ≤ c.left
  · rw [if_pos hs] at h
    cases h
    refine ⟨rfl, rfl, rfl, ⟨hp, Nat.lt_of_le_of_lt (Nat.sub_le _ _) hl⟩, fun _ => ?_, ?_⟩
    · show ((c.pos : Int) + ((c.left - n : Nat) : Int)) = _
      omega
    · show (2 ^ 64 : Int) ∣ ((c.pos : Int) + ((c.left - n : Nat) : Int)) - _
      have : ((c.pos : Int) + ((c.left - n : Nat) : Int)) - (c.pos + c.left + -n) = 0 := by omega
      rw [this]; exact Int.dvd_zero _
  · rw [if_neg hs] at h
    cases b with
    | debug => cases h
    | release =>
      cases h
      refine ⟨rfl, rfl, rfl, ⟨hp, ?_⟩, nofun, ?_⟩
      · show c.left + 2 ^ 64 - n < 2 ^ 64
        omega
      · show (2 ^ 64 : Int) ∣ ((c.pos : Int) + ((c.left + 2 ^ 64 - n : Nat) : Int)) - _
        refine ⟨1, ?_⟩
        omega

theorem drifts_subRemaining (b : Build) (n : Nat) : Drifts b (subRemaining n) (-n) := by
  intro c v c' hc h
  unfold subRemaining at h
  obtain ⟨hp, hl⟩ := hc
  split at h
  · cases h
  · cases h
    refine ⟨rfl, rfl, rfl, ⟨hp, Nat.lt_of_le_of_lt (Nat.sub_le _ _) hl⟩, fun _ => ?_, ?_⟩
    · show ((c.pos : Int) + ((c.left - n : Nat) : Int)) = _
      omega
    · show (2 ^ 64 : Int) ∣ ((c.pos : Int) + ((c.left - n : Nat) : Int)) - _
      have : ((c.pos : Int) + ((c.left - n : Nat) : Int)) - (c.pos + c.left + -n) = 0 := by omega
      rw [this]; exact Int.dvd_zero _

theorem drifts_get {α : Type} {b : Build} {k : Cursor → P α} {d : Int} (h : ∀ s, Drifts b (k s) d) :
    Drifts b (get >>= k) d := by
  intro c v c' hc hx
  rw [P.bind_def, P.get_def] at hx
  exact h c c v c' hc hx

theorem drifts_u8 (b : Build) : Drifts b (Cursor.u8 b) 0 := by
  unfold Cursor.u8 u8N
  refine .of (.bind (d := 1) (drifts_get fun s => ?_) fun v => .bind (drifts_count b (by decide)) fun _ => .pure v) (by decide)
  cases s.data[s.pos]? with
  | none => exact .throw
  | some v => exact .of (.bind (drifts_advance b 1) fun _ => .pure v) (by decide)

theorem drifts_textBytes (b : Build) (n : Nat) : Drifts b (textBytes b n) 0 := by
  unfold textBytes
  refine drifts_get fun s => ?_
  cases scan (s.data.drop s.pos) n with
  | error e => exact .throw
  | ok k => exact drifts_peek b k

theorem drifts_str (b : Build) (n : Nat) : Drifts b (str b n) 0 := by
  unfold str
  exact .of (.bind (drifts_textBytes b n) fun d => .bind (drifts_advance b n) fun _ =>
    .bind (drifts_subRemaining b n) fun _ => .pure _) (by omega)

theorem drifts_frontN {α : Type} (b : Build) {n : Nat} (hn : n < 2 ^ 64) (f : Bytes → α) :
    Drifts b (do
      let d ← front n
      advance b n
      count b n
      pure (f d)) 0 :=
  .of (.bind (drifts_front b n) fun d => .bind (drifts_advance b n) fun _ =>
    .bind (drifts_count b hn) fun _ => .pure (f d)) (by omega)

theorem drifts_peekN {α : Type} (b : Build) {n : Nat} (hn : n < 2 ^ 64) (f : Bytes → α) :
    Drifts b (do
      let d ← peek b n
      advance b n
      count b n
      pure (f d)) 0 :=
  .of (.bind (drifts_peek b n) fun d => .bind (drifts_advance b n) fun _ =>
    .bind (drifts_count b hn) fun _ => .pure (f d)) (by omega)

theorem drifts_u32 (b : Build) : Drifts b (u32 b) 0 := by
  unfold u32 u32N
  simp only [bind_assoc, pure_bind]
  exact drifts_frontN b (by decide) ofLe32

theorem drifts_bytes (b : Build) {n : Nat} (hn : n < 2 ^ 64) : Drifts b (bytes b n) 0 := by
  unfold bytes bytesN
  exact .of (.bind (drifts_count b hn) fun _ => .bind (drifts_peek b n) fun d => .bind (drifts_advance b n) fun _ =>
    .pure d) (by omega)

theorem Drifts.map {α β : Type} {b : Build} {m : P α} {d : Int} (h : Drifts b m d) (f : α → β) :
    Drifts b (do return f (← m)) d := .of (.bind h fun v => .pure (f v)) (by omega)

theorem drifts_elem (b : Build) (e : Elem) : Drifts b (e.get b) 0 := by
  cases e
  case bool => exact (drifts_peekN b (by decide) fun x => x != [0, 0, 0, 0]).map _
  case u8 => exact (drifts_u8 b).map _
  case u16 =>
    refine .map ?_ _
    unfold u16 u16N
    simp only [bind_assoc, pure_bind]
    exact drifts_frontN b (by decide) _
  case u32 => exact (drifts_u32 b).map _
  case u64 => exact (drifts_frontN b (by decide) ofLe64).map _
  case i16 => exact (drifts_frontN b (by decide) fun d => (ofLe16 d).toInt16).map _
  case i32 =>
    refine .map ?_ _
    unfold i32 i32N
    simp only [bind_assoc, pure_bind]
    exact drifts_frontN b (by decide) fun d => (ofLe32 d).toInt32
  case i64 => exact (drifts_frontN b (by decide) fun d => (ofLe64 d).toInt64).map _
  case f32 => exact (drifts_peekN b (by decide) ofLe32).map _
  case f64 => exact (drifts_frontN b (by decide) ofLe64).map _
  case string => exact (Drifts.of (.bind (drifts_u32 b) fun n => drifts_str b n.toNat) (by decide)).map _
  case wide =>
    refine Drifts.map (.of (.bind (drifts_u32 b) fun n => .bind (e := 0) (drifts_peek b n.toNat) fun d => ?_) (e := 0) (by decide)) _
    cases decodeUtf16le d with
    | error e => exact .throw
    | ok s =>
      exact .of (.bind (drifts_advance b n.toNat) fun _ => .bind (drifts_count b
        (Nat.lt_trans n.toNat_lt (by decide))) fun _ => .pure s) (by omega)

theorem drifts_times (b : Build) {α : Type} {m : P α} (h : Drifts b m 0) : ∀ n, Drifts b (times m n) 0
  | 0 => .pure []
  | n + 1 => .of (.bind h fun v => .bind (drifts_times b h n) fun vs => .pure (v :: vs)) (by decide)

theorem drifts_read (b : Build) (r : Read) (h : r.Sized) : Drifts b (r.run b) 0 := by
  cases r with
  | one e => exact (drifts_elem b e).map _
  | many e n => exact (drifts_times b (drifts_elem b e) n).map _
  | bytes n => exact (drifts_bytes b h).map _
  | str n => exact (drifts_str b n).map _
  | skip n =>
    exact Drifts.map (.of (.bind (drifts_advance b n) fun _ => drifts_count b h) (by omega)) fun _ => Out.skipped
  | skipTag =>
    refine Drifts.map (m := Cursor.skipTag b) ?_ fun _ => Out.skipped
    intro c v c' hc hx
    unfold Cursor.skipTag at hx
    rw [P.bind_def, P.get_def] at hx
    dsimp only at hx
    rw [P.bind_def] at hx
    cases ha : advance b c.left c with
    | error e => rw [ha] at hx; cases hx
    | ok p =>
      obtain ⟨u, c1⟩ := p
      rw [ha] at hx
      cases hx
      have hd := drifts_advance b c.left c u c1 hc ha
      have hl : c1.left = c.left := by
        unfold advance at ha
        cases hb : b.add c.pos c.left with
        | error e => rw [hb] at ha; cases ha
        | ok q => rw [hb] at ha; cases ha; rfl
      refine ⟨hd.data, hd.tag, hd.warn, ⟨hd.machine.1, show (0 : Nat) < 2 ^ 64 by decide⟩, fun hb => ?_, ?_⟩
      · have := hd.exactly hb
        rw [hl] at this
        show (c1.pos : Int) + ((0 : Nat) : Int) = _
        omega
      · have := hd.modulo
        rw [hl] at this
        show (2 ^ 64 : Int) ∣ ((c1.pos : Int) + ((0 : Nat) : Int)) - _
        have e : ((c1.pos : Int) + ((0 : Nat) : Int)) - ((c.pos : Int) + c.left + 0)
            = ((c1.pos : Int) + (c.left : Int)) - (c.pos + c.left + c.left) := by omega
        rw [e]
        exact this

theorem drifts_reads (b : Build) : ∀ rs : List Read, (∀ r ∈ rs, r.Sized) → Drifts b (runReads b rs) 0
  | [], _ => .pure []
  | r :: rs, h => .of (.bind (drifts_read b r (h r (by simp))) fun v =>
      .bind (drifts_reads b rs fun r hr => h r (by simp [hr])) fun vs => .pure (v :: vs)) (by decide)

/-- `next` starts at the end of the record -/
theorem next_eq (b : Build) {c : Cursor} (h : c.Machine) :
    Cursor.next b c = match b.add c.pos c.left with
      | .error e => .error e
      | .ok p => nextHere b { c with pos := p, left := 0 } := by
  unfold Cursor.next
  rw [P.bind_def, P.get_def]
  dsimp only
  by_cases hl : 0 < c.left
  · rw [if_pos hl, P.bind_def]
    unfold Cursor.skip
    rw [P.bind_def]
    unfold advance
    cases b.add c.pos c.left with
    | error e => rfl
    | ok p =>
      dsimp only
      unfold count Build.sub
      dsimp only
      rw [if_pos (Nat.le_refl _), Nat.sub_self]
  · rw [if_neg hl]
    have h0 : c.left = 0 := by omega
    unfold Build.add
    rw [h0, if_pos (by have := h.1; omega)]
    dsimp only
    rw [Nat.add_zero]
    congr 1
    cases c; simp_all

theorem add_release (x y : Nat) : Build.add .release x y = .ok ((x + y) % 2 ^ 64) := by
  unfold Build.add
  split
  · rw [Nat.mod_eq_of_lt (by assumption)]
  · rfl

theorem Drift.same_end {b : Build} {c c' : Cursor} (h : Drift b 0 c c') :
    b.add c'.pos c'.left = b.add c.pos c.left := by
  cases b with
  | debug =>
    have := h.exactly rfl
    have : c'.pos + c'.left = c.pos + c.left := by omega
    unfold Build.add
    rw [this]
  | release =>
    rw [add_release, add_release]
    congr 1
    obtain ⟨k, hk⟩ := h.modulo
    omega

theorem Drift.same_next {b : Build} {c c' : Cursor} (hc : c.Machine) (h : Drift b 0 c c') :
    Cursor.next b c' = Cursor.next b c := by
  rw [next_eq b hc, next_eq b h.machine, h.same_end]
  cases b.add c.pos c.left with
  | error e => rfl
  | ok p =>
    dsimp only
    congr 1
    rw [h.data, h.tag, h.warn]

end Vpin
