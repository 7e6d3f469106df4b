import Verif.Model.Cfb
/-
/repo/src/vpx/tableinfo.rs: the descriptive texts of a table, stored as streams of the storage
`TableInfo`.
-/
namespace Vpin

/-- `TableInfo`, /repo/src/vpx/tableinfo.rs:14-31. The `HashMap` of properties is a list of pairs in the
order in which the map happens to be iterated. -/
structure TableInfo where
  table_name : Option Str
  author_name : Option Str
  screenshot : Option Bytes
  table_blurb : Option Str
  table_rules : Option Str
  author_email : Option Str
  release_date : Option Str
  table_save_rev : Option Str
  table_version : Option Str
  author_website : Option Str
  table_save_date : Option Str
  table_description : Option Str
  properties : List (Str × Str)
  deriving DecidableEq, Repr

/-- `TableInfo::new`, /repo/src/vpx/tableinfo.rs:33-53 -/
def TableInfo.new : TableInfo :=
  ⟨none, none, none, none, none, none, none, none, none, none, none, none, []⟩

/-- the storage, /repo/src/vpx/tableinfo.rs:16-31 -/
def infoStg : Str := "TableInfo".toList

/-- the streams `write_tableinfo` writes for the fixed fields, in order,
/repo/src/vpx/tableinfo.rs:68-201; texts are UTF-16 (`write_stream_string`, 304-312) -/
def TableInfo.known (s : TableInfo) : List (Str × Option Bytes) :=
  [("TableName".toList, s.table_name.map encodeUtf16le),
   ("AuthorName".toList, s.author_name.map encodeUtf16le),
   ("Screenshot".toList, s.screenshot),
   ("TableBlurb".toList, s.table_blurb.map encodeUtf16le),
   ("TableRules".toList, s.table_rules.map encodeUtf16le),
   ("AuthorEmail".toList, s.author_email.map encodeUtf16le),
   ("ReleaseDate".toList, s.release_date.map encodeUtf16le),
   ("TableSaveRev".toList, s.table_save_rev.map encodeUtf16le),
   ("TableVersion".toList, s.table_version.map encodeUtf16le),
   ("AuthorWebSite".toList, s.author_website.map encodeUtf16le),
   ("TableSaveDate".toList, s.table_save_date.map encodeUtf16le),
   ("TableDescription".toList, s.table_description.map encodeUtf16le)]

/-- writing the fixed fields that are present, /repo/src/vpx/tableinfo.rs:61-208 -/
def writeKnown (L : CfbLib) : List (Str × Option Bytes) → Cfb → Res Cfb
  | [], c => .ok c
  | (_, none) :: rest, c => writeKnown L rest c
  | (name, some bs) :: rest, c => do
    let c ← c.createStream L [infoStg, name] bs
    writeKnown L rest c

/-- `for (key, value) in &table_info.properties`, /repo/src/vpx/tableinfo.rs:203-205 -/
def writeProps (L : CfbLib) : List (Str × Str) → Cfb → Res Cfb
  | [], c => .ok c
  | (k, v) :: rest, c => do
    let c ← c.createAt L (joinPath ('/' :: infoStg) k) (encodeUtf16le v)
    writeProps L rest c

/-- `write_tableinfo`, /repo/src/vpx/tableinfo.rs:61-208 -/
def TableInfo.write (L : CfbLib) (s : TableInfo) (c : Cfb) : Res Cfb := do
  let c ← c.createStorage L [infoStg]
  let c ← writeKnown L s.known c
  writeProps L s.properties c

/-- `HashMap::insert` (std) (used in /repo/src/vpx/tableinfo.rs:210-283) -/
def insertProp (k v : Str) (l : List (Str × Str)) : List (Str × Str) :=
  l.filter (fun e => e.1 ≠ k) ++ [(k, v)]

/-- what `read_tableinfo` does with one stream, /repo/src/vpx/tableinfo.rs:230-278 -/
def TableInfo.set (s : TableInfo) (name : Str) (bs : Bytes) : Res TableInfo :=
  if name = "Screenshot".toList then .ok { s with screenshot := some bs }
  else
    match decodeUtf16le bs with
    | .error _ => .error .io
    | .ok v =>
      .ok <|
        if name = "TableName".toList then { s with table_name := some v }
        else if name = "AuthorName".toList then { s with author_name := some v }
        else if name = "TableBlurb".toList then { s with table_blurb := some v }
        else if name = "TableRules".toList then { s with table_rules := some v }
        else if name = "AuthorEmail".toList then { s with author_email := some v }
        else if name = "ReleaseDate".toList then { s with release_date := some v }
        else if name = "TableSaveRev".toList then { s with table_save_rev := some v }
        else if name = "TableVersion".toList then { s with table_version := some v }
        else if name = "AuthorWebSite".toList then { s with author_website := some v }
        else if name = "TableSaveDate".toList then { s with table_save_date := some v }
        else if name = "TableDescription".toList then { s with table_description := some v }
        else { s with properties := insertProp name v s.properties }

/-- the loop over the entries; storages are filtered out, /repo/src/vpx/tableinfo.rs:217-282 -/
def TableInfo.setAll : List (Str × Entry) → TableInfo → Res TableInfo
  | [], s => .ok s
  | (_, .storage) :: rest, s => TableInfo.setAll rest s
  | (name, .stream bs) :: rest, s => do
    let s ← s.set name bs
    TableInfo.setAll rest s

/-- `read_tableinfo`, /repo/src/vpx/tableinfo.rs:210-283: a missing storage is a panic (`unwrap`).
Simplification: the path of a listed entry is taken to lead back to that entry and its file name to be
the entry's name (true unless a stream is called `.` or `..`). -/
def TableInfo.read (L : CfbLib) (c : Cfb) : Res TableInfo :=
  match c.readStorage L [infoStg] with
  | none => .error .panic
  | some es => TableInfo.setAll es TableInfo.new

end Vpin
