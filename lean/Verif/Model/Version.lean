import Verif.Model.Biff
/-
/repo/src/vpx/version.rs
-/
namespace Vpin

/-- `Version`, /repo/src/vpx/version.rs:13-14 -/
structure Version where
  number : UInt32
  deriving DecidableEq, Repr

/-- `Version::default`, /repo/src/vpx/version.rs:28-32 -/
def Version.default : Version := ⟨1080⟩

/-- value of a digit (used in /repo/src/vpx/version.rs:17-21) -/
def digitVal (c : Char) : Option Nat :=
  if 0x30 ≤ c.toNat ∧ c.toNat ≤ 0x39 then some (c.toNat - 0x30) else none

/-- the digits loop of `str::parse::<u32>` (std): error on a non-digit or on overflow (used in
/repo/src/vpx/version.rs:17-21) -/
def parseDigits : Nat → Str → Res UInt32
  | acc, [] => .ok (UInt32.ofNat acc)
  | acc, c :: cs =>
    match digitVal c with
    | none => .error .io
    | some d => if 10 * acc + d < 2 ^ 32 then parseDigits (10 * acc + d) cs else .error .io

/-- `str::parse::<u32>` (std): an optional `+`, then at least one digit (used in /repo/src/vpx/version.rs:17-21) -/
def parseU32 : Str → Res UInt32
  | [] => .error .io
  | ['+'] => .error .io
  | '+' :: cs => parseDigits 0 cs
  | cs => parseDigits 0 cs

/-- `u32::to_string` (std): decimal digits, least significant last; `f` bounds their number (used in
/repo/src/vpx/version.rs:23-25) -/
def decimalF : Nat → Nat → Str
  | 0, _ => []
  | f + 1, n =>
    if n < 10 then [Char.ofNat (0x30 + n)]
    else decimalF f (n / 10) ++ [Char.ofNat (0x30 + n % 10)]

/-- `u32::to_string` (used in /repo/src/vpx/version.rs:23-25) -/
def decimal (n : Nat) : Str := decimalF (n + 1) n

/-- `Version::parse`, /repo/src/vpx/version.rs:17-21 -/
def Version.parse (s : Str) : Res Version :=
  match parseU32 s with
  | .ok n => .ok ⟨n⟩
  | .error e => .error e

/-- `Version::to_u32_string`, /repo/src/vpx/version.rs:23-25 -/
def Version.toText (v : Version) : Str := decimal v.number.toNat

/-- `write_version_data`, /repo/src/vpx/version.rs:90-96: content of the Version stream -/
def Version.bytes (v : Version) : Bytes := le32 v.number

/-- `read_version_data`, /repo/src/vpx/version.rs:85-88: the first four bytes of the stream -/
def Version.ofBytes : Bytes → Res Version
  | a :: b :: c :: d :: _ => .ok ⟨ofLe32 [a, b, c, d]⟩
  | _ => .error .io

/-- `PartialOrd for Version`, /repo/src/vpx/version.rs:60-64 -/
def Version.cmp (a b : Version) : Ordering := compare a.number b.number

end Vpin
