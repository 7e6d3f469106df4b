import Verif.Model.MemFs
/-
What a path holds after a history of calls, read off the history alone. Histories are given latest call first.
-/
namespace Vpin

/-- the path a variable's writer was created for, and all that was written through it since -/
def Written (w : Nat) : List FsOp → Option (Str × Bytes)
  | [] => none
  | .createFile v p :: past => if v = w then some (p, []) else Written w past
  | .write v bs :: past =>
    if v = w then (Written w past).map fun x => (x.1, x.2 ++ bs) else Written w past
  | .drop v :: past => if v = w then none else Written w past
  | .flush _ :: past => Written w past
  | .writeFile _ _ :: past => Written w past
  | .createDirAll _ :: past => Written w past
  | .delete _ :: past => Written w past
  | .clear :: past => Written w past

/-- the content of a path: that of the latest completed write to it, unless it was deleted since. Flushing or
dropping a writer completes a write of everything written through it. -/
def Content (p : Str) : List FsOp → Option Bytes
  | [] => none
  | .writeFile q bs :: past => if q = p then some bs else Content p past
  | .flush w :: past =>
    match Written w past with
    | some (q, bs) => if q = p then some bs else Content p past
    | none => Content p past
  | .drop w :: past =>
    match Written w past with
    | some (q, bs) => if q = p then some bs else Content p past
    | none => Content p past
  | .delete q :: past => if q = p then none else Content p past
  | .clear :: _ => none
  | .createFile _ _ :: past => Content p past
  | .write _ _ :: past => Content p past
  | .createDirAll _ :: past => Content p past

end Vpin
