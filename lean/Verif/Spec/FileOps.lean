import Verif.Spec.Vpx
import Verif.Lemmas.MacFrame
/-
Vocabulary for operations on table files: what a usable file is, and histories of calls.
-/
namespace Vpin

/-- the path of the game data -/
abbrev gameDataPath : Path := gamePath "GameData".toList

/-- the path of the checksum -/
abbrev macPath : Path := gamePath "MAC".toList

/-- A file that can be worked on: its version and game data can be read (as `v` and `g`), the game data
can be stored without loss, its checksum can be computed, there is a place for the checksum, and the
custom info tags are names of properties. -/
structure TableFile (E : Env) (c : Cfb) (v : Version) (g : GameData) : Prop where
  version : readVersion E c = .ok v
  gamedata : readGameData E v c = .ok g
  storable : g.WF v.number
  hashable : ∃ m, generateMac E c = .ok m
  slot : (∃ old, c.get E.toCfbLib macPath = some (.stream old)) ∨
    (c.get E.toCfbLib macPath = none ∧ c.get E.toCfbLib [gameStg] = some .storage)
  tags : ∀ t ∈ tagNames E.toCfbLib c, TagName t

/-- the streams of the table info the checksum covers: all but the date and the number of the last save -/
def coveredInfo : List Str :=
  ["TableName".toList, "AuthorName".toList, "TableVersion".toList, "ReleaseDate".toList,
   "AuthorEmail".toList, "AuthorWebSite".toList, "TableBlurb".toList, "TableDescription".toList,
   "TableRules".toList, "Screenshot".toList]

/-- the paths the checksum of a file covers -/
inductive Covered (E : Env) (c : Cfb) : Path → Prop
  | version : Covered E c (gamePath "Version".toList)
  | info (n : Str) : n ∈ coveredInfo → Covered E c [infoStg, n]
  | tags : Covered E c (gamePath "CustomInfoTags".toList)
  | tag (t : Str) (p : Path) : t ∈ tagNames E.toCfbLib c → pathOf (infoStg ++ ['/'] ++ t) = some p → Covered E c p
  | data : Covered E c gameDataPath
  | collection (i : Nat) : Covered E c (itemPath "Collection".toList i)

/-- a call that changes a table file -/
inductive FileOp where
  | lock
  | unlock
  | importScript (script : Bytes)
  | writeGameData (g : GameData)

/-- the file after a call -/
def FileOp.run (E : Env) (c : Cfb) : FileOp → Res Cfb
  | .lock => do let (_, c) ← Vpin.lock E c; pure c
  | .unlock => do let (_, c) ← Vpin.unlock E c; pure c
  | .importScript s => Vpin.importScript E c (some s)
  | .writeGameData g => updateGameData E g c

/-- the file after a sequence of calls that all succeed -/
def runFile (E : Env) : List FileOp → Cfb → Res Cfb
  | [], c => .ok c
  | op :: ops, c => do runFile E ops (← op.run E c)

/-- lock or unlock -/
inductive LockCall where
  | lock
  | unlock
  deriving DecidableEq

/-- whether the table is meant to be locked after the call -/
def LockCall.wants : LockCall → Bool
  | .lock => true
  | .unlock => false

/-- a call of `lock` or `unlock`: its result and the file afterwards -/
def LockCall.run (E : Env) (c : Cfb) : LockCall → Res (Bool × Cfb)
  | .lock => Vpin.lock E c
  | .unlock => Vpin.unlock E c

/-- a sequence of calls: their results and the file afterwards -/
def runLocks (E : Env) : List LockCall → Cfb → Res (List Bool × Cfb)
  | [], c => .ok ([], c)
  | op :: ops, c => do
    let (r, c) ← op.run E c
    let (rs, c) ← runLocks E ops c
    pure (r :: rs, c)

/-- **Specification of the lock**: the state of the lock after every call, and before the first -/
def lockStates (initial : Bool) (calls : List LockCall) : List Bool := initial :: calls.map LockCall.wants

/-- **Specification of the results**: a call reports whether the state after it differs from that before -/
def lockChanges (initial : Bool) (calls : List LockCall) : List Bool :=
  List.zipWith (fun before after => before != after) (lockStates initial calls) (calls.map LockCall.wants)

end Vpin
