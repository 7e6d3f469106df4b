import Verif.Model.Obj
/-
The `hex` crate.
-/
namespace Vpin

/-- `hex::encode` (used in /repo/src/vpx/obj.rs:61-69) -/
def hexEncode (bs : Bytes) : Str := bs.flatMap hex2

/-- `hex::decode`; `none` for an odd number of digits or something else than a digit (used in /repo/src/vpx/obj.rs:71-93) -/
def hexDecode : Str → Option Bytes
  | [] => some []
  | [_] => none
  | a :: b :: s =>
    match hexCharVal a, hexCharVal b, hexDecode s with
    | some x, some y, some bs => some (UInt8.ofNat (16 * x + y) :: bs)
    | _, _, _ => none

end Vpin
