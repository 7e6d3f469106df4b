import Verif.Model.Folder
import Verif.Spec.Compact
import Verif.Spec.FileOps
/-
What a user expects of the calls that name files: a directory holds tables and other files, each call does to them what
its name says, and nothing else.
-/
namespace Vpin

/-- a file as its user sees it: a table, or some data -/
inductive SeenFile where
  | table (s : VPX)
  | data (bs : Bytes)

/-- a directory as its user sees it -/
abbrev SeenFolder := Str → Option SeenFile

/-- the directory with one file replaced or removed -/
def SeenFolder.put (a : SeenFolder) (name : Str) (f : Option SeenFile) : SeenFolder := fun n => if n = name then f else a n

/-- the table `new_minimal_vpx` makes -/
def minimalTable : VPX := ⟨[], TableInfo.new, ⟨1072⟩, GameData.default, [], [], [], [], []⟩

/-- a table is locked if its lock counter is odd -/
def VPX.lockedNow (s : VPX) : Bool := decide ((s.gamedata.locked.getD 0).toNat % 2 = 1)

/-- the table, locked or unlocked: the counter goes up by one if it has to change -/
def VPX.withLock (s : VPX) (want : Bool) : VPX :=
  if s.lockedNow = want then s
  else { s with gamedata := { s.gamedata with locked := some (s.gamedata.locked.getD 0 + 1) } }

/-- the table with another script -/
def VPX.withScript (s : VPX) (text : Str) : VPX := { s with gamedata := { s.gamedata with code := ⟨.utf8, text⟩ } }

/-- the name is that of a table -/
def SeenFolder.isTable (a : SeenFolder) (t : Str) : Prop := ∃ s, a t = some (.table s)

/-- **Specification**: what each call returns and how it changes the directory -/
inductive FolderCall.Expected (E : Env) (a : SeenFolder) : FolderCall → Outcome → SeenFolder → Prop
  | newMinimal (t : Str) : Expected E a (.newMinimal t) .done (a.put t (some (.table minimalTable)))
  | write (t : Str) (s : VPX) : s.WF E → Expected E a (.write t s) .done (a.put t (some (.table s)))
  | read (t : Str) (s : VPX) : a t = some (.table s) → Expected E a (.read t) (.table s) a
  | readOther (t : Str) : ¬ a.isTable t → Expected E a (.read t) (.failed .io) a
  | verify (t : Str) : a.isTable t → Expected E a (.verify t) (.answer true) a
  | verifyOther (t : Str) : ¬ a.isTable t → Expected E a (.verify t) (.answer false) a
  | isLocked (t : Str) (s : VPX) : a t = some (.table s) → Expected E a (.isLocked t) (.answer s.lockedNow) a
  | isLockedOther (t : Str) : ¬ a.isTable t → Expected E a (.isLocked t) (.failed .io) a
  | lock (t : Str) (s : VPX) : a t = some (.table s) →
      Expected E a (.lock t) (.answer (!s.lockedNow)) (a.put t (some (.table (s.withLock true))))
  | lockOther (t : Str) : ¬ a.isTable t → Expected E a (.lock t) (.failed .io) a
  | unlock (t : Str) (s : VPX) : a t = some (.table s) →
      Expected E a (.unlock t) (.answer s.lockedNow) (a.put t (some (.table (s.withLock false))))
  | unlockOther (t : Str) : ¬ a.isTable t → Expected E a (.unlock t) (.failed .io) a
  /-- a script that is there is kept, whether or not there is a table -/
  | extractKeeps (t : Str) (script : Option Str) : a (script.getD (vbsPathFor t)) ≠ none →
      Expected E a (.extract t script false) (.existed (script.getD (vbsPathFor t))) a
  | extract (t : Str) (script : Option Str) (overwrite : Bool) (s : VPX) : a t = some (.table s) →
      a (script.getD (vbsPathFor t)) = none ∨ overwrite = true →
      Expected E a (.extract t script overwrite) (.extracted (script.getD (vbsPathFor t)))
        (a.put (script.getD (vbsPathFor t)) (some (.data (encodeUtf8 s.gamedata.code.string))))
  | extractOther (t : Str) (script : Option Str) (overwrite : Bool) : ¬ a.isTable t →
      a (script.getD (vbsPathFor t)) = none ∨ overwrite = true →
      Expected E a (.extract t script overwrite) (.failed .io) a
  | importVbs (t : Str) (script : Option Str) (s : VPX) (bs : Bytes) (text : Str) : a t = some (.table s) →
      a (script.getD (vbsPathFor t)) = some (.data bs) → decodeUtf8 bs = some text → NulFree text →
      (encodeUtf8 text).length < 2 ^ 32 →
      Expected E a (.importVbs t script) (.imported (script.getD (vbsPathFor t)))
        (a.put t (some (.table (s.withScript text))))
  /-- without a table, or without a script that is text -/
  | importOther (t : Str) (script : Option Str) :
      ¬ a.isTable t ∨ (∀ bs, a (script.getD (vbsPathFor t)) = some (.data bs) → decodeUtf8 bs = none) →
      Expected E a (.importVbs t script) (.failed .io) a
  /-- the file with the extension `compacting` is gone afterwards -/
  | compact (t : Str) : a.isTable t → (¬ ∃ s, t = s ++ ".compacting".toList ∧ s ≠ []) →
      Expected E a (.compact t) .done (a.put (withExtension t "compacting".toList) none)
  | compactOther (t : Str) : ¬ a.isTable t → Expected E a (.compact t) (.failed .io) a

/-- a sequence of calls, each with its expected result -/
inductive ExpectedAll (E : Env) : SeenFolder → List FolderCall → List Outcome → SeenFolder → Prop
  | nil (a : SeenFolder) : ExpectedAll E a [] [] a
  | cons {a b c : SeenFolder} {call : FolderCall} {calls : List FolderCall} {o : Outcome} {os : List Outcome} :
      call.Expected E a o b → ExpectedAll E b calls os c → ExpectedAll E a (call :: calls) (o :: os) c

/-- equal results; a table that was read is the same table (the properties of the table info are a map) -/
def Outcome.Agrees : Outcome → Outcome → Prop
  | .table s, .table s' => s.Same s'
  | o, o' => o = o'

/-- a compound file that holds the table: it can be read and changed, and passes the check -/
structure Stored (E : Env) (c : Cfb) (s : VPX) : Prop where
  tree : c.Tree E.toCfbLib
  file : TableFile E c s.version s.gamedata
  checked : Vpin.verify E c = .ok true
  readable : ∃ s', VPX.read E c = .ok s' ∧ s.Same s'

/-- the directory holds what its user sees -/
def Represents (E : Env) (d : Disk) (a : SeenFolder) : Prop :=
  ∀ name, match a name with
    | none => d name = none
    | some (.data bs) => d name = some (.other bs)
    | some (.table s) => ∃ c, d name = some (.table c) ∧ Stored E c s

/-- the files a call may change -/
def FolderCall.writes : FolderCall → List Str
  | .newMinimal t => [t]
  | .write t _ => [t]
  | .read _ => []
  | .verify _ => []
  | .isLocked _ => []
  | .lock t => [t]
  | .unlock t => [t]
  | .extract t script _ => [script.getD (vbsPathFor t)]
  | .importVbs t _ => [t]
  | .compact t => [t, withExtension t "compacting".toList]

end Vpin
