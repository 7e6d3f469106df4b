import Verif.Model.Text
import Verif.Model.Biff
/-
JSON values as `serde_json` sees them between the text and the Rust structures.

The JSON text itself (printing and parsing by `serde_json`) is not modelled: a value tree that is
printed is assumed to be parsed back as the same tree. Floating point numbers are kept as their
`f32` bit patterns; `serde_json` prints NaN and the infinities as `null`, which the model does in
`J.ofF32`.
-/
namespace Vpin

/-- Name of a member of a JSON object that comes from a Rust field name: the little-endian number
of its bytes (as for `Tag`, so that comparing names is comparing numbers). (used in /repo/src/vpx/jsonmodel.rs:11-38) -/
abbrev Key := Nat

/-- `key!"center"` is the number of the member name "center". -/
macro:max "key!" s:str : term => do
  let n := s.getString.toUTF8.toList.foldr (fun b acc => b.toNat + 256 * acc) 0
  return Lean.Syntax.mkNumLit (toString n)

/-- A JSON value. `num` are integers, `f32` the finite floating point numbers. `obj` is an object
made from a Rust structure, `map` one made from a map with arbitrary string keys. (used in
/repo/src/vpx/jsonmodel.rs:40-61) -/
inductive J where
  | null
  | bool (b : Bool)
  | num (n : Int)
  | f32 (bits : F32)
  | str (s : Str)
  | arr (l : List J)
  | obj (l : List (Key × J))
  | map (l : List (Str × J))

/-- The values that `serde_json` can print and parse again: numbers fit, no member twice. Floating point numbers
must be `keeps`: see `JsonText`. (used in /repo/src/vpx/jsonmodel.rs:40-61) -/
inductive J.Valid (keeps : F32 → Prop) : J → Prop where
  | null : J.Valid keeps .null
  | bool (b : Bool) : J.Valid keeps (.bool b)
  | num (n : Int) (h : -9223372036854775808 ≤ n ∧ n < 18446744073709551616) : J.Valid keeps (.num n)
  | f32 (x : F32) (h : keeps x) : J.Valid keeps (.f32 x)
  | str (s : Str) : J.Valid keeps (.str s)
  | arr (l : List J) (h : ∀ j ∈ l, J.Valid keeps j) : J.Valid keeps (.arr l)
  | obj (l : List (Key × J)) (hn : (l.map (·.1)).Nodup) (h : ∀ m ∈ l, J.Valid keeps m.2) : J.Valid keeps (.obj l)
  | map (l : List (Str × J)) (hn : (l.map (·.1)).Nodup) (h : ∀ m ∈ l, J.Valid keeps m.2) : J.Valid keeps (.map l)

/-- The text of a JSON value (`serde_json::to_string`, `to_writer_pretty`, `from_slice`, `from_reader`). Assumed: a
printed value, with spaces behind it, is parsed as that value. A floating point number is printed with the digits
that identify the `f32`, parsed as an `f64` and rounded, so it may change: `keeps` are those that do not. (used in
/repo/src/vpx/expanded/metadata.rs:54-66) -/
structure JsonText where
  keeps : F32 → Prop
  print : J → Bytes
  parse : Bytes → Option J
  parse_print : ∀ (j : J) (n : Nat), j.Valid keeps → parse (print j ++ List.replicate n 32) = some j

/-! ### `serde_json::Value` -/

/-- `value["name"]`: null if it is not there (used in /repo/src/vpx/gltf.rs:456-572) -/
def J.at (j : J) (k : Key) : J :=
  match j with
  | .obj l => ((l.find? fun m => m.1 == k).map (·.2)).getD .null
  | _ => .null

/-- `value[i]`: null if it is not there (used in /repo/src/vpx/gltf.rs:456-572) -/
def J.idx (j : J) (i : Nat) : J :=
  match j with
  | .arr l => l[i]?.getD .null
  | _ => .null

/-- `as_array` (used in /repo/src/vpx/gltf.rs:456-572) -/
def J.asArr? : J → Option (List J)
  | .arr l => some l
  | _ => none

/-- `as_str` (used in /repo/src/vpx/gltf.rs:456-572) -/
def J.asStr? : J → Option Str
  | .str s => some s
  | _ => none

/-- `as_u64` (used in /repo/src/vpx/gltf.rs:456-572) -/
def J.asU64? : J → Option Nat
  | .num n => if 0 ≤ n ∧ n < 18446744073709551616 then some n.toNat else none
  | _ => none

end Vpin
