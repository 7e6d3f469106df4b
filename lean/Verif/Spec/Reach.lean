import Verif.Model.Biff
/-
The records a reader visits. Used to say "at a record boundary of this stream".
-/
namespace Vpin

/-- `Visits h n s r s' r'`: starting with the partial value `s` and the reader `r`, the record loop
processes `n` records with the arms `h`, without an error and without meeting the end, and then has
the partial value `s'` and the reader `r'`. -/
inductive Visits {σ : Type} (h : Tag → σ → R σ) : Nat → σ → Rd → σ → Rd → Prop
  | here (s : σ) (r : Rd) : Visits h 0 s r s r
  | record {n : Nat} {s s2 s3 : σ} {r r1 r2 r3 : Rd} :
      next r = .ok ((), r1) → r1.isEof = false → h r1.tag s r1 = .ok (s2, r2) →
      Visits h n s2 r2 s3 r3 → Visits h (n + 1) s r s3 r3

/-- Reading `pre ++ post`, the reader gets to a record boundary exactly between the two. (Bytes of
the current record the arm did not read are skipped by the next call of `next`.) -/
def Boundary {σ : Type} (hs : Handlers σ) (s : σ) (pre post : Bytes) : Prop :=
  ∃ n s' r', Visits (dispatch hs) n s (Rd.new (pre ++ post)) s' r' ∧
    r'.rest.drop r'.brr = post

end Vpin
