import Verif.Model.Text
/-
The compound file library (`cfb` crate) as /repo/src/vpx/mod.rs and /repo/src/vpx/tableinfo.rs use
it. Its source is not part of /repo; what is assumed of it is what is written here: a compound file
is a finite tree of storages and streams, the calls have the effects below, names are compared
ignoring case, and the order in which the children of a storage are listed is some order.
Byte-level layout, time stamps and class ids are left out.
-/
namespace Vpin

/-- ASCII upper case of a character (library `cfb`; used in /repo/src/vpx/mod.rs:422-444) -/
def asciiUpper (c : Char) : Char := if 'a' ≤ c ∧ c ≤ 'z' then Char.ofNat (c.toNat - 32) else c

/-- What is left open about the library: how names are folded before they are compared (fixed for
ASCII only) and in which order the children of a storage are listed. (library `cfb`; used in /repo/src/vpx/mod.rs:422-444) -/
structure CfbLib where
  fold : Str → Str
  fold_ascii : ∀ s : Str, (∀ c ∈ s, c.toNat < 128) → fold s = s.map asciiUpper
  order : {α : Type} → List α → List α
  order_perm : ∀ {α : Type} (l : List α), (order l).Perm l

/-- A path from the root, as a list of names. (library `cfb`; used in /repo/src/vpx/mod.rs:780-793) -/
abbrev Path := List Str

/-- a storage or a stream with its content (library `cfb`; used in /repo/src/vpx/mod.rs:780-793) -/
inductive Entry where
  | storage
  | stream (bs : Bytes)
  deriving DecidableEq, Repr

/-- A compound file: every storage (except the root) and every stream with its path. (library `cfb`; used in
/repo/src/vpx/mod.rs:422-444) -/
abbrev Cfb := List (Path × Entry)

variable (L : CfbLib)

/-- two paths name the same entry iff their keys are equal (library `cfb`; used in /repo/src/vpx/mod.rs:780-793) -/
def CfbLib.key (p : Path) : Path := p.map L.fold

/-- the entry at a path; the empty path is the root (library `cfb`; used in /repo/src/vpx/mod.rs:780-793) -/
def Cfb.get (c : Cfb) (p : Path) : Option Entry :=
  if p = [] then some .storage
  else (c.find? fun e => L.key e.1 == L.key p).map (·.2)

/-- `CompoundFile::exists` (used in /repo/src/vpx/mod.rs:296-298) -/
def Cfb.exists (c : Cfb) (p : Path) : Bool := (c.get L p).isSome

/-- `CompoundFile::open_stream` and `read_to_end` (used in /repo/src/vpx/mod.rs:780-793) -/
def Cfb.openStream (c : Cfb) (p : Path) : Res Bytes :=
  match c.get L p with
  | some (.stream bs) => .ok bs
  | _ => .error .io

/-- names the library accepts for new entries: at most 31 UTF-16 units, none of `/ \ : !`
(an empty name never comes out of a path) (library `cfb`; used in /repo/src/vpx/mod.rs:497-500) -/
def validName (s : Str) : Bool :=
  !s.isEmpty && decide ((encodeUtf16 s).length ≤ 31) && s.all fun c => !['/', '\\', ':', '!'].contains c

/-- adding a new entry: its parent must be a storage and its name valid (library `cfb`; used in
/repo/src/vpx/mod.rs:497-500) -/
def Cfb.add (c : Cfb) (p : Path) (e : Entry) : Res Cfb :=
  match p.getLast? with
  | none => .error .io
  | some name =>
    if c.get L p.dropLast = some .storage ∧ validName name then .ok (c ++ [(p, e)]) else .error .io

/-- `CompoundFile::create_storage`: an error if there is an entry (used in /repo/src/vpx/mod.rs:497-500) -/
def Cfb.createStorage (c : Cfb) (p : Path) : Res Cfb :=
  match c.get L p with
  | some _ => .error .io
  | none => c.add L p .storage

/-- `CompoundFile::create_new_stream` and `write_all`: an error if there is an entry (used in /repo/src/vpx/mod.rs:323-355) -/
def Cfb.createNewStream (c : Cfb) (p : Path) (bs : Bytes) : Res Cfb :=
  match c.get L p with
  | some _ => .error .io
  | none => c.add L p (.stream bs)

/-- `CompoundFile::create_stream` and `write_all`: replaces the content of an existing stream (used in
/repo/src/vpx/mod.rs:614-618) -/
def Cfb.createStream (c : Cfb) (p : Path) (bs : Bytes) : Res Cfb :=
  match c.get L p with
  | some .storage => .error .io
  | some (.stream _) =>
    .ok (c.map fun e => if L.key e.1 = L.key p then (e.1, .stream bs) else e)
  | none => c.add L p (.stream bs)

/-- `CompoundFile::read_storage`: names and entries directly below a storage, in the library's
order; `none` if there is no such storage (used in /repo/src/vpx/tableinfo.rs:210-283) -/
def Cfb.readStorage (c : Cfb) (p : Path) : Option (List (Str × Entry)) :=
  if c.get L p = some .storage then
    some (L.order (c.filterMap fun e =>
      match e.1.getLast? with
      | some name => if L.key e.1.dropLast = L.key p then some (name, e.2) else none
      | none => none))
  else none

/-! ## From path strings to paths (Unix) -/

/-- split at every `/` (library `cfb`; used in /repo/src/vpx/mod.rs:643-777) -/
def splitSlash : Str → List Str
  | [] => [[]]
  | c :: cs =>
    if c = '/' then [] :: splitSlash cs
    else
      match splitSlash cs with
      | [] => [[c]]
      | w :: ws => (c :: w) :: ws

/-- the library's reading of the components of a path: `.` is dropped, `..` goes up, going up from
the root is an error (library `cfb`; used in /repo/src/vpx/mod.rs:643-777) -/
def chainFrom : Path → List Str → Option Path
  | acc, [] => some acc
  | acc, w :: ws =>
    if w = [] ∨ w = ['.'] then chainFrom acc ws
    else if w = ['.', '.'] then
      if acc = [] then none else chainFrom acc.dropLast ws
    else chainFrom (acc ++ [w]) ws

/-- the path a string stands for (library `cfb`; used in /repo/src/vpx/mod.rs:643-777) -/
def pathOf (s : Str) : Option Path := chainFrom [] (splitSlash s)

/-- `Path::join` (std, Unix): an absolute second part replaces the first (used in /repo/src/vpx/mod.rs:650-656) -/
def joinPath (a b : Str) : Str :=
  match b with
  | '/' :: _ => b
  | _ => a ++ ['/'] ++ b

/-- `CompoundFile::exists` on a path string: an unreadable path does not exist (used in /repo/src/vpx/mod.rs:643-777) -/
def Cfb.existsAt (c : Cfb) (s : Str) : Bool :=
  match pathOf s with
  | some p => c.exists L p
  | none => false

/-- `CompoundFile::open_stream` on a path string (used in /repo/src/vpx/mod.rs:780-793) -/
def Cfb.openAt (c : Cfb) (s : Str) : Res Bytes :=
  match pathOf s with
  | some p => c.openStream L p
  | none => .error .io

/-- `CompoundFile::create_stream` on a path string (used in /repo/src/vpx/mod.rs:614-618) -/
def Cfb.createAt (c : Cfb) (s : Str) (bs : Bytes) : Res Cfb :=
  match pathOf s with
  | some p => c.createStream L p bs
  | none => .error .io

end Vpin
