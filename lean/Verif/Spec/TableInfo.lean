import Verif.Model.TableInfo
/-
Which table infos a file can hold, and when two are the same.
-/
namespace Vpin

/-- the stream names of the fixed fields -/
def reservedInfo : List Str :=
  ["TableName".toList, "AuthorName".toList, "Screenshot".toList, "TableBlurb".toList,
   "TableRules".toList, "AuthorEmail".toList, "ReleaseDate".toList, "TableSaveRev".toList,
   "TableVersion".toList, "AuthorWebSite".toList, "TableSaveDate".toList, "TableDescription".toList]

/-- a name that can be given to a stream and that a path leaves alone -/
def PlainName (s : Str) : Prop := validName s = true ∧ s ≠ ['.'] ∧ s ≠ ['.', '.']

instance (s : Str) : Decidable (PlainName s) := inferInstanceAs (Decidable (_ ∧ _ ∧ _))

/-- Custom properties have plain names, and no two of the fixed names and theirs are equal ignoring
case. -/
structure TableInfo.WF (L : CfbLib) (s : TableInfo) : Prop where
  plain : ∀ kv ∈ s.properties, PlainName kv.1
  distinct : ((reservedInfo ++ s.properties.map (·.1)).map L.fold).Nodup

/-- Equality of table infos: the properties are a map, so their order does not count. -/
def TableInfo.Same (a b : TableInfo) : Prop :=
  { a with properties := [] } = { b with properties := [] } ∧ a.properties.Perm b.properties

/-- names compared in ASCII upper case, children listed backwards -/
def sampleLib : CfbLib where
  fold := fun s => s.map asciiUpper
  fold_ascii := fun _ _ => rfl
  order := List.reverse
  order_perm := List.reverse_perm

def TableInfo.sample : TableInfo where
  table_name := some "Größe 7".toList
  author_name := none
  screenshot := some [0xff, 0xd8, 0, 1, 2]
  table_blurb := some []
  table_rules := some "Shoot the 🎯".toList
  author_email := some "a@b.c".toList
  release_date := none
  table_save_rev := some "12".toList
  table_version := some "1.0".toList
  author_website := none
  table_save_date := some "Mon Nov 16".toList
  table_description := some "x".toList
  properties := [("prop 1".toList, "value".toList), ("Übergröße".toList, []), ("...".toList, "\n".toList)]

end Vpin
