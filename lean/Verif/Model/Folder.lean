import Verif.Model.Compact
import Verif.Model.Vpx
/-
The calls of /repo/src/vpx/mod.rs that name files, on the files of one directory: what each of them does to the
directory, step by step, and what it returns.
-/
namespace Vpin

/-- `vbs_path_for`, /repo/src/vpx/mod.rs:585-588, for a file name -/
def vbsPathFor (name : Str) : Str := withExtension name "vbs".toList

/-- `ini_path_for`, /repo/src/vpx/mod.rs:590-593, for a file name -/
def iniPathFor (name : Str) : Str := withExtension name "ini".toList

/-- a call with the names of the files it is given, /repo/src/vpx/mod.rs:318-597 -/
inductive FolderCall where
  /-- `new_minimal_vpx` -/
  | newMinimal (table : Str)
  /-- `write` -/
  | write (table : Str) (s : VPX)
  /-- `read` -/
  | read (table : Str)
  /-- `verify` -/
  | verify (table : Str)
  /-- `open(..)?.is_locked()` -/
  | isLocked (table : Str)
  /-- `open_rw(..)?.lock()` -/
  | lock (table : Str)
  /-- `open_rw(..)?.unlock()` -/
  | unlock (table : Str)
  /-- `extractvbs` -/
  | extract (table : Str) (script : Option Str) (overwrite : Bool)
  /-- `importvbs` -/
  | importVbs (table : Str) (script : Option Str)
  /-- `compact` -/
  | compact (table : Str)

/-- what a call returns, /repo/src/vpx/mod.rs:318-597 -/
inductive Outcome where
  | done
  | failed (e : Err)
  | answer (b : Bool)
  | table (s : VPX)
  | extracted (script : Str)
  | existed (script : Str)
  | imported (script : Str)

/-- The states the directory goes through in a call, and the result. /repo/src/vpx/mod.rs:318-597. -/
abbrev Course := List Disk × Outcome

/-- `cfb::open` and `open_rw`: everything that is not a compound file is refused, /repo/src/vpx/mod.rs:358-371 -/
def openTable (d : Disk) (name : Str) : Res Cfb :=
  match d name with
  | some (.table c) => .ok c
  | _ => .error .io

/-- a file written anew (`File::options()…truncate(true)`, `std::fs::write`): it is empty or cut off until all of it is
there; if that fails, it stays so (used in /repo/src/vpx/mod.rs:409-420) -/
def writeFile (d : Disk) (name : Str) (content : Res FileState) (out : Outcome) : Course :=
  match content with
  | .ok f => ([d, d.set name (some .torn), d.set name (some f)], out)
  | .error e => ([d, d.set name (some .torn)], .failed e)

/-- `std::fs::read_to_string`: a compound file is not UTF-8 text (its first two bytes are D0 CF) (used in
/repo/src/vpx/mod.rs:536-557) -/
def readText (d : Disk) (name : Str) : Res Str :=
  match d name with
  | some (.other bs) =>
    match decodeUtf8 bs with
    | some text => .ok text
    | none => .error .io
  | _ => .error .io

/-- a call of `lock` or `unlock`: the file is changed in place if the counter is, /repo/src/vpx/mod.rs:242-268 -/
def lockCourse (d : Disk) (name : Str) (r : Res (Bool × Cfb)) : Course :=
  match r with
  | .ok (true, c) => writeFile d name (.ok (.table c)) (.answer true)
  | .ok (false, _) => ([d], .answer false)
  | .error e => ([d, d.set name (some .torn)], .failed e)

/-- `extractvbs`, /repo/src/vpx/mod.rs:508-527, and `extract_script`, 795-799 -/
def extractCourse (E : Env) (d : Disk) (table : Str) (script : Option Str) (overwrite : Bool) : Course :=
  let scriptPath := script.getD (vbsPathFor table)
  if d scriptPath = none ∨ overwrite = true then
    match (do fileGameData E (← openTable d table) : Res GameData) with
    | .error e => ([d], .failed e)
    | .ok g => writeFile d scriptPath (.ok (.other (encodeUtf8 g.code.string))) (.extracted scriptPath)
  else ([d], .existed scriptPath)

/-- `importvbs`, /repo/src/vpx/mod.rs:536-557 -/
def importCourse (E : Env) (d : Disk) (table : Str) (script : Option Str) : Course :=
  let scriptPath := script.getD (vbsPathFor table)
  if d scriptPath = none then ([d], .failed .io)
  else
    match openTable d table with
    | .error e => ([d], .failed e)
    | .ok c =>
      match (do
        let v ← readVersion E c
        let g ← readGameData E v c
        let text ← readText d scriptPath
        pure (v, g, text) : Res (Version × GameData × Str)) with
      | .error e => ([d], .failed e)
      | .ok (v, g, text) =>
        writeFile d table (do
          let c ← writeGameData E (g.setCode text) v c
          let c ← refreshMac E c
          pure (.table c)) (.imported scriptPath)

/-- `lock` and `unlock` of an opened file: without a game data that can be read nothing is written,
/repo/src/vpx/mod.rs:242-268 -/
def lockCall (E : Env) (d : Disk) (table : Str) (call : Cfb → Res (Bool × Cfb)) : Course :=
  match openTable d table with
  | .error e => ([d], .failed e)
  | .ok c =>
    match fileGameData E c with
    | .error e => ([d], .failed e)
    | .ok _ => lockCourse d table (call c)

/-- the course of a call, /repo/src/vpx/mod.rs:232-268, 316-320, 364-382, 402-420, 473-483, 508-583 -/
def FolderCall.course (E : Env) (walk : Cfb → List (Path × Entry)) (d : Disk) : FolderCall → Course
  | .newMinimal t => writeFile d t (do return .table (← writeMinimal E)) .done
  | .write t s => writeFile d t (do return .table (← s.write E)) .done
  | .read t =>
    match (do VPX.read E (← openTable d t) : Res VPX) with
    | .ok s => ([d], .table s)
    | .error e => ([d], .failed e)
  | .verify t =>
    match openTable d t with
    | .error _ => ([d], .answer false)
    | .ok c =>
      match Vpin.verify E c with
      | .ok b => ([d], .answer b)
      | .error e => ([d], .failed e)
  | .isLocked t =>
    match (do Vpin.isLocked E (← openTable d t) : Res Bool) with
    | .ok b => ([d], .answer b)
    | .error e => ([d], .failed e)
  | .lock t => lockCall E d t (Vpin.lock E)
  | .unlock t => lockCall E d t (Vpin.unlock E)
  | .extract t s o => extractCourse E d t s o
  | .importVbs t s => importCourse E d t s
  | .compact t =>
    match compactTrace E.toCfbLib walk t d with
    | (ds, .ok ()) => (ds, .done)
    | (ds, .error e) => (ds, .failed e)

/-- the directory after a call, /repo/src/vpx/mod.rs:318-597 -/
def Course.after (x : Course) (d : Disk) : Disk := x.1.getLast?.getD d

/-- the results of a sequence of calls, and the directory afterwards, /repo/src/vpx/mod.rs:318-597 -/
def runFolder (E : Env) (walk : Cfb → List (Path × Entry)) : List FolderCall → Disk → List Outcome × Disk
  | [], d => ([], d)
  | call :: calls, d =>
    let x := call.course E walk d
    let r := runFolder E walk calls (x.after d)
    (x.2 :: r.1, r.2)

end Vpin
