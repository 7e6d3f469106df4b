import Verif.Model.GameItem
import Verif.Model.Version
/-
/repo/src/vpx/expanded/gameitems.rs: the file names of the items of an expanded table.
-/
namespace Vpin

/-- Unicode tables of std: `str::to_lowercase` and `char::is_alphanumeric`. What is assumed: names that
differ in the number behind `__` keep differing in lower case, and ASCII is as usual. (used in
/repo/src/vpx/expanded/gameitems.rs:141) -/
structure Unicode where
  lower : Str → Str
  alnum : Char → Bool
  lower_counter : ∀ s i j, lower (s ++ "__".toList ++ decimal i) = lower (s ++ "__".toList ++ decimal j) → i = j
  alnum_ascii : ∀ c : Char, c.toNat < 128 → alnum c = c.isAlphanum

/-- the loop of `FileNameGen::ensure_unique`, /repo/src/vpx/expanded/gameitems.rs:46-60, with fuel. The
counter is an `i32`, taken as unbounded here. -/
def uniqueLoop (U : Unicode) (used : List Str) (name : Str) : Nat → Nat → Res Str
  | 0, _ => .error .fuel
  | f + 1, counter =>
    let cand := name ++ "__".toList ++ decimal counter
    if used.contains (U.lower cand) then uniqueLoop U used name f (counter + 1) else .ok cand

/-- `FileNameGen::ensure_unique`, /repo/src/vpx/expanded/gameitems.rs:41-62: the name and the set of used
names afterwards -/
def ensureUnique (U : Unicode) (used : List Str) (name : Str) : Res (Str × List Str) :=
  if used.contains (U.lower name) then do
    let n ← uniqueLoop U used name (used.length + 1) 1
    pure (n, U.lower n :: used)
  else .ok (name, U.lower name :: used)

/-- `gameitem_filename_stem` before making it unique, /repo/src/vpx/expanded/gameitems.rs:131-139 -/
def itemStem (U : Unicode) (item : GameItemEnum) : Str :=
  let name := if item.name = [] then "unnamed".toList else item.name
  item.type_name ++ ['.'] ++ name.map fun c => if U.alnum c then c else '_'

/-- the file names (without `.json`) of all items, /repo/src/vpx/expanded/gameitems.rs:76-98 -/
def itemStems (U : Unicode) : List Str → List GameItemEnum → Res (List Str)
  | _, [] => .ok []
  | used, item :: items => do
    let (n, used) ← ensureUnique U used (itemStem U item)
    let ns ← itemStems U used items
    pure (n :: ns)

end Vpin
