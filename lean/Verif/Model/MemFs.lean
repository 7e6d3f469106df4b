import Verif.Model.Bytes
import Verif.Model.Text
/-
/repo/src/filesystem.rs: `MemoryFileSystem`. Paths are taken as the strings they are turned into.
-/
namespace Vpin

/-- `HashMap<String, Vec<u8>>`, /repo/src/filesystem.rs:65-68 -/
abbrev Files := List (Str × Bytes)

/-- `HashMap::get` (std) (used in /repo/src/filesystem.rs:123-126) -/
def Files.get (fs : Files) (p : Str) : Option Bytes := (fs.find? fun e => e.1 == p).map (·.2)

/-- `HashMap::insert` (std) (used in /repo/src/filesystem.rs:163-168) -/
def Files.insert (fs : Files) (p : Str) (bs : Bytes) : Files := (p, bs) :: fs.filter fun e => e.1 != p

/-- `HashMap::remove` (std) (used in /repo/src/filesystem.rs:138-141) -/
def Files.remove (fs : Files) (p : Str) : Files := fs.filter fun e => e.1 != p

/-- `MemoryFileWriter` without the shared map, /repo/src/filesystem.rs:138-142 -/
structure MemWriter where
  path : Str
  buffer : Bytes
  deriving DecidableEq

/-- the file system and the writers in use, by the variable that holds them, /repo/src/filesystem.rs:65-68,144-148 -/
structure MemFs where
  files : Files
  writers : List (Nat × MemWriter)

/-- the calls of the API; `w` is the variable that holds a writer, /repo/src/filesystem.rs:116-232 -/
inductive FsOp where
  | createFile (w : Nat) (p : Str)
  | write (w : Nat) (bs : Bytes)
  | flush (w : Nat)
  | drop (w : Nat)
  | writeFile (p : Str) (bs : Bytes)
  | createDirAll (p : Str)
  | delete (p : Str)
  | clear
  deriving DecidableEq

/-- a new file system, /repo/src/filesystem.rs:116-121 -/
def MemFs.empty : MemFs := ⟨[], []⟩

/-- the writer held by a variable (used in /repo/src/filesystem.rs:144-168) -/
def MemFs.writer (s : MemFs) (w : Nat) : Option MemWriter := (s.writers.find? fun e => e.1 == w).map (·.2)

/-- the writers without one, /repo/src/filesystem.rs:163-168 -/
def MemFs.dropWriter (s : MemFs) (w : Nat) : List (Nat × MemWriter) := s.writers.filter fun e => e.1 != w

/-- One call, /repo/src/filesystem.rs:125-228; `none` if a variable is used that holds no writer, or assigned
while it still holds one (neither is a Rust program: assigning drops the old writer first, which is a `drop`
here). -/
def MemFs.step (s : MemFs) : FsOp → Option MemFs
  | .createFile w p =>
    match s.writer w with
    | some _ => none
    | none => some { s with writers := (w, ⟨p, []⟩) :: s.writers }
  | .write w bs =>
    match s.writer w with
    | none => none
    | some m => some { s with writers := (w, { m with buffer := m.buffer ++ bs }) :: s.dropWriter w }
  | .flush w =>
    match s.writer w with
    | none => none
    | some m => some { s with files := s.files.insert m.path m.buffer }
  | .drop w =>
    match s.writer w with
    | none => none
    | some m => some { files := s.files.insert m.path m.buffer, writers := s.dropWriter w }
  | .writeFile p bs => some { s with files := s.files.insert p bs }
  | .createDirAll _ => some s
  | .delete p => some { s with files := s.files.remove p }
  | .clear => some { s with files := [] }

/-- a sequence of calls, /repo/src/filesystem.rs:116-232 -/
def MemFs.run : List FsOp → MemFs → Option MemFs
  | [], s => some s
  | op :: ops, s => match s.step op with
    | none => none
    | some s => MemFs.run ops s

/-- `read_file` (and `open_file` followed by reading everything), /repo/src/filesystem.rs:180-202 -/
def MemFs.readFile (s : MemFs) (p : Str) : Res Bytes :=
  match s.files.get p with
  | some bs => .ok bs
  | none => .error .io

/-- `exists`, /repo/src/filesystem.rs:215-219 -/
def MemFs.exists (s : MemFs) (p : Str) : Bool := (s.files.get p).isSome

/-- `list_files`, /repo/src/filesystem.rs:119-122, in some order -/
def MemFs.listFiles (s : MemFs) : List Str := s.files.map (·.1)

end Vpin
