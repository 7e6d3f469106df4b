import Verif.Model.Cfb
/-
`compact`, /repo/src/vpx/mod.rs:316-355, as the sequence of states the directory goes through.
-/
namespace Vpin

/-- What a file holds: a finished compound file, or one that is still being written (or was cut off while it
was), or anything else. (used in /repo/src/vpx/mod.rs:323-355) -/
inductive FileState where
  | table (c : Cfb)
  | torn
  | other (bs : Bytes)
  deriving DecidableEq

/-- the files of a directory by name (used in /repo/src/vpx/mod.rs:323-355) -/
abbrev Disk := Str → Option FileState

/-- the directory with one file changed (used in /repo/src/vpx/mod.rs:323-355) -/
def Disk.set (d : Disk) (name : Str) (f : Option FileState) : Disk := fun n => if n = name then f else d n

/-- the part of a file name in front of its last `.`, unless that part is empty (`Path::file_stem`, std) (used in
/repo/src/vpx/mod.rs:323-355) -/
def fileStem (name : Str) : Str :=
  match name.reverse.dropWhile (· ≠ '.') with
  | [] => name
  | _ :: r => if r = [] then name else r.reverse

/-- `Path::with_extension` (std) on a file name (used in /repo/src/vpx/mod.rs:323-355) -/
def withExtension (name ext : Str) : Str := fileStem name ++ ['.'] ++ ext

/-- the first loop of `compact_cfb`, /repo/src/vpx/mod.rs:336-345: storages are created in the order in which
`walk` lists them. Class ids are left out. -/
def copyStorages (L : CfbLib) : List (Path × Entry) → Cfb → Res Cfb
  | [], out => .ok out
  | (p, .storage) :: rest, out => do
    let out ← out.createStorage L p
    copyStorages L rest out
  | (_, .stream _) :: rest, out => copyStorages L rest out

/-- the second loop, /repo/src/vpx/mod.rs:346-351: every stream is opened in the original and copied -/
def copyStreams (L : CfbLib) (orig : Cfb) : List (Path × Entry) → Cfb → Res Cfb
  | [], out => .ok out
  | (p, .stream _) :: rest, out => do
    let bs ← orig.openStream L p
    let out ← out.createNewStream L p bs
    copyStreams L orig rest out
  | (_, .storage) :: rest, out => copyStreams L orig rest out

/-- both loops on a new compound file, /repo/src/vpx/mod.rs:323-355 -/
def copyAll (L : CfbLib) (walk : List (Path × Entry)) (orig : Cfb) : Res Cfb := do
  let out ← copyStorages L walk []
  copyStreams L orig walk out

/-- `compact_cfb`, /repo/src/vpx/mod.rs:322-355: all states of the directory, in order, and the result.
`walk` is the order in which the library lists the entries. The file that is written counts as torn until the
flush; if it is the file that is read (the name already ends in `.compacting`), opening it with `truncate` has
emptied it, and the copy is taken to fail. Crashes are crashes of the process: a write that was done stays
done. -/
def compactTrace (L : CfbLib) (walk : Cfb → List (Path × Entry)) (inp : Str) (d : Disk) : List Disk × Res Unit :=
  let out := withExtension inp "compacting".toList
  match d inp with
  | some (.table c) =>
    let d1 := d.set out (some .torn)
    if out = inp then ([d, d1], .error .io)
    else
      match copyAll L (walk c) c with
      | .error e => ([d, d1], .error e)
      | .ok c' =>
        let d2 := d1.set out (some (.table c'))
        let d3 := d2.set inp none
        let d4 := (d3.set inp (d3 out)).set out none
        ([d, d1, d2, d3, d4], .ok ())
  | _ => ([d], .error .io)

end Vpin
