import Verif.Model.Json
/-!
A text format for JSON values that meets the assumptions of `JsonText`, for examples: the assumptions can be met. It is
not the format of `serde_json`.
-/
namespace Vpin

/-- a number, seven bits at a time -/
def encNatFuel : Nat → Nat → Bytes
  | 0, _ => [0]
  | k + 1, n => if n = 0 then [0] else UInt8.ofNat (128 + n % 128) :: encNatFuel k (n / 128)

def encNat (n : Nat) : Bytes := encNatFuel (n.log2 + 1) n

def decNat : Bytes → Option (Nat × Bytes)
  | [] => none
  | b :: bs =>
    if b = 0 then some (0, bs)
    else match decNat bs with
      | some (n, r) => some (b.toNat - 128 + 128 * n, r)
      | none => none

theorem decNat_encFuel : ∀ (k n : Nat) (r : Bytes), n < 2 ^ k → decNat (encNatFuel k n ++ r) = some (n, r)
  | 0, n, r, h => by
    have : n = 0 := by omega
    subst this
    rfl
  | k + 1, n, r, h => by
    rw [encNatFuel]
    split
    · next h => subst h; rfl
    · next h0 =>
      have hb : (UInt8.ofNat (128 + n % 128)).toNat = 128 + n % 128 := by
        rw [UInt8.toNat_ofNat']; omega
      have h0 : UInt8.ofNat (128 + n % 128) ≠ 0 := by
        intro h0
        rw [h0] at hb
        have : (0 : UInt8).toNat = 0 := rfl
        omega
      show decNat (UInt8.ofNat (128 + n % 128) :: (encNatFuel k (n / 128) ++ r)) = _
      unfold decNat
      rw [if_neg h0, decNat_encFuel k (n / 128) r (by rw [Nat.pow_succ] at h; omega)]
      dsimp only
      rw [hb]
      congr 2
      omega

theorem decNat_enc (n : Nat) (r : Bytes) : decNat (encNat n ++ r) = some (n, r) :=
  decNat_encFuel _ _ _ Nat.lt_log2_self

/-- `k` of them -/
def decMany {α : Type} (f : Bytes → Option (α × Bytes)) : Nat → Bytes → Option (List α × Bytes)
  | 0, bs => some ([], bs)
  | k + 1, bs =>
    match f bs with
    | none => none
    | some (x, r) =>
      match decMany f k r with
      | none => none
      | some (xs, r) => some (x :: xs, r)

theorem decMany_cons {α : Type} {f : Bytes → Option (α × Bytes)} {k : Nat} {bs r r' : Bytes} {x : α} {xs : List α}
    (h1 : f bs = some (x, r)) (h2 : decMany f k r = some (xs, r')) : decMany f (k + 1) bs = some (x :: xs, r') := by
  unfold decMany
  rw [h1]; dsimp only; rw [h2]

def encStr (s : Str) : Bytes := encNat s.length ++ s.flatMap fun c => encNat c.toNat

def decChar (bs : Bytes) : Option (Char × Bytes) := (decNat bs).map fun x => (Char.ofNat x.1, x.2)

def decStr (bs : Bytes) : Option (Str × Bytes) :=
  match decNat bs with
  | none => none
  | some (k, r) => decMany decChar k r

theorem decChars_enc : ∀ (s : Str) (r : Bytes), decMany decChar s.length ((s.flatMap fun c => encNat c.toNat) ++ r) = some (s, r)
  | [], _ => rfl
  | c :: s, r => by
    rw [List.flatMap_cons, List.append_assoc, List.length_cons]
    refine decMany_cons (r := (s.flatMap fun c => encNat c.toNat) ++ r) ?_ (decChars_enc s r)
    unfold decChar
    rw [decNat_enc]
    simp

theorem decStr_enc (s : Str) (r : Bytes) : decStr (encStr s ++ r) = some (s, r) := by
  unfold decStr encStr
  rw [List.append_assoc, decNat_enc]
  exact decChars_enc s r

def encInt : Int → Bytes
  | .ofNat n => 0 :: encNat n
  | .negSucc n => 1 :: encNat n

def decInt : Bytes → Option (Int × Bytes)
  | [] => none
  | b :: bs => (decNat bs).map fun x => (if b = 0 then Int.ofNat x.1 else Int.negSucc x.1, x.2)

theorem decInt_enc (n : Int) (r : Bytes) : decInt (encInt n ++ r) = some (n, r) := by
  cases n with
  | ofNat n =>
    show (decNat (encNat n ++ r)).map _ = _
    rw [decNat_enc]; rfl
  | negSucc n =>
    show (decNat (encNat n ++ r)).map _ = _
    rw [decNat_enc]; rfl

mutual
def J.enc : J → Bytes
  | .null => [10]
  | .bool b => [if b then 12 else 11]
  | .num n => 13 :: encInt n
  | .f32 x => 14 :: encNat x.toNat
  | .str s => 15 :: encStr s
  | .arr l => 16 :: (encNat l.length ++ J.encL l)
  | .obj l => 17 :: (encNat l.length ++ J.encO l)
  | .map l => 18 :: (encNat l.length ++ J.encM l)
def J.encL : List J → Bytes
  | [] => []
  | j :: l => J.enc j ++ J.encL l
def J.encO : List (Key × J) → Bytes
  | [] => []
  | m :: l => J.encOP m ++ J.encO l
def J.encOP : Key × J → Bytes
  | (k, j) => encNat k ++ J.enc j
def J.encM : List (Str × J) → Bytes
  | [] => []
  | m :: l => J.encMP m ++ J.encM l
def J.encMP : Str × J → Bytes
  | (k, j) => encStr k ++ J.enc j
end

/-- one value, with fuel for the depth -/
def J.dec : Nat → Bytes → Option (J × Bytes)
  | 0, _ => none
  | _, [] => none
  | f + 1, b :: bs =>
    if b = 10 then some (.null, bs)
    else if b = 11 then some (.bool false, bs)
    else if b = 12 then some (.bool true, bs)
    else if b = 13 then (decInt bs).map fun x => (.num x.1, x.2)
    else if b = 14 then (decNat bs).map fun x => (.f32 (UInt32.ofNat x.1), x.2)
    else if b = 15 then (decStr bs).map fun x => (.str x.1, x.2)
    else
      match decNat bs with
      | none => none
      | some (k, r) =>
        if b = 16 then (decMany (J.dec f) k r).map fun x => (.arr x.1, x.2)
        else if b = 17 then
          (decMany (fun bs => match decNat bs with
            | none => none
            | some (k, r) => (J.dec f r).map fun x => ((k, x.1), x.2)) k r).map fun x => (.obj x.1, x.2)
        else
          (decMany (fun bs => match decStr bs with
            | none => none
            | some (k, r) => (J.dec f r).map fun x => ((k, x.1), x.2)) k r).map fun x => (.map x.1, x.2)

mutual
theorem J.dec_enc : ∀ (j : J) (f : Nat) (r : Bytes), j.enc.length ≤ f → J.dec f (j.enc ++ r) = some (j, r)
  | .null, f, r, h => by
    match f, h with
    | f + 1, _ => rfl
  | .bool b, f, r, h => by
    match f, h with
    | f + 1, _ => cases b <;> rfl
  | .num n, f, r, h => by
    match f, h with
    | f + 1, _ =>
      show (decInt (encInt n ++ r)).map _ = _
      rw [decInt_enc]; rfl
  | .f32 x, f, r, h => by
    match f, h with
    | f + 1, _ =>
      show (decNat (encNat x.toNat ++ r)).map _ = _
      rw [decNat_enc]; simp
  | .str s, f, r, h => by
    match f, h with
    | f + 1, _ =>
      show (decStr (encStr s ++ r)).map _ = _
      rw [decStr_enc]; rfl
  | .arr l, f, r, h => by
    match f, h with
    | f + 1, h =>
      have hl : (J.encL l).length ≤ f := by
        simp only [J.enc, List.length_cons, List.length_append] at h; omega
      have := J.decL_enc l f r hl
      simp only [J.enc, List.cons_append, List.append_assoc]
      unfold J.dec
      simp only [show (16 : UInt8) ≠ 10 by decide, show (16 : UInt8) ≠ 11 by decide, show (16 : UInt8) ≠ 12 by decide,
        show (16 : UInt8) ≠ 13 by decide, show (16 : UInt8) ≠ 14 by decide, show (16 : UInt8) ≠ 15 by decide, if_false,
        decNat_enc, if_true, this]
      rfl
  | .obj l, f, r, h => by
    match f, h with
    | f + 1, h =>
      have hl : (J.encO l).length ≤ f := by
        simp only [J.enc, List.length_cons, List.length_append] at h; omega
      have := J.decO_enc l f r hl
      simp only [J.enc, List.cons_append, List.append_assoc]
      unfold J.dec
      simp only [show (17 : UInt8) ≠ 10 by decide, show (17 : UInt8) ≠ 11 by decide, show (17 : UInt8) ≠ 12 by decide,
        show (17 : UInt8) ≠ 13 by decide, show (17 : UInt8) ≠ 14 by decide, show (17 : UInt8) ≠ 15 by decide,
        show (17 : UInt8) ≠ 16 by decide, if_false, decNat_enc, if_true, this]
      rfl
  | .map l, f, r, h => by
    match f, h with
    | f + 1, h =>
      have hl : (J.encM l).length ≤ f := by
        simp only [J.enc, List.length_cons, List.length_append] at h; omega
      have := J.decM_enc l f r hl
      simp only [J.enc, List.cons_append, List.append_assoc]
      unfold J.dec
      simp only [show (18 : UInt8) ≠ 10 by decide, show (18 : UInt8) ≠ 11 by decide, show (18 : UInt8) ≠ 12 by decide,
        show (18 : UInt8) ≠ 13 by decide, show (18 : UInt8) ≠ 14 by decide, show (18 : UInt8) ≠ 15 by decide,
        show (18 : UInt8) ≠ 16 by decide, show (18 : UInt8) ≠ 17 by decide, if_false, decNat_enc, this]
      rfl
theorem J.decL_enc : ∀ (l : List J) (f : Nat) (r : Bytes), (J.encL l).length ≤ f →
    decMany (J.dec f) l.length (J.encL l ++ r) = some (l, r)
  | [], _, _, _ => rfl
  | j :: l, f, r, h => by
    simp only [J.encL, List.length_append] at h
    simp only [J.encL, List.append_assoc, List.length_cons]
    exact decMany_cons (J.dec_enc j f _ (by omega)) (J.decL_enc l f r (by omega))
theorem J.decO_enc : ∀ (l : List (Key × J)) (f : Nat) (r : Bytes), (J.encO l).length ≤ f →
    decMany (fun bs => match decNat bs with
      | none => none
      | some (k, r) => (J.dec f r).map fun x => ((k, x.1), x.2)) l.length (J.encO l ++ r) = some (l, r)
  | [], _, _, _ => rfl
  | (k, j) :: l, f, r, h => by
    simp only [J.encO, J.encOP, List.length_append] at h
    simp only [J.encO, J.encOP, List.append_assoc, List.length_cons]
    refine decMany_cons (x := (k, j)) (r := J.encO l ++ r) ?_ (J.decO_enc l f r (by omega))
    rw [decNat_enc]
    dsimp only
    rw [J.dec_enc j f _ (by omega)]
    rfl
theorem J.decM_enc : ∀ (l : List (Str × J)) (f : Nat) (r : Bytes), (J.encM l).length ≤ f →
    decMany (fun bs => match decStr bs with
      | none => none
      | some (k, r) => (J.dec f r).map fun x => ((k, x.1), x.2)) l.length (J.encM l ++ r) = some (l, r)
  | [], _, _, _ => rfl
  | (k, j) :: l, f, r, h => by
    simp only [J.encM, J.encMP, List.length_append] at h
    simp only [J.encM, J.encMP, List.append_assoc, List.length_cons]
    refine decMany_cons (x := (k, j)) (r := J.encM l ++ r) ?_ (J.decM_enc l f r (by omega))
    rw [decStr_enc]
    dsimp only
    rw [J.dec_enc j f _ (by omega)]
    rfl
end

/-- a text format that meets the assumptions, for all floating point numbers -/
def sampleJsonText : JsonText where
  keeps _ := True
  print := J.enc
  parse bs := (J.dec bs.length bs).map (·.1)
  parse_print j n _ := by
    rw [J.dec_enc j _ _ (by rw [List.length_append]; omega)]
    rfl

end Vpin
