import Verif.Model.Biff
/-
/repo/src/vpx/collection.rs and /repo/src/vpx/custominfotags.rs
-/
namespace Vpin

/-- `Collection`, /repo/src/vpx/collection.rs:7-13 -/
structure Collection where
  name : Str
  items : List Str
  fire_events : Bool
  stop_single_events : Bool
  group_elements : Bool
  deriving DecidableEq, Repr

/-- the values `read` starts from, /repo/src/vpx/collection.rs:17-21 -/
def Collection.init : Collection := ⟨[], [], false, false, false⟩

/-- match arms of `collection::read`, /repo/src/vpx/collection.rs:22-51 -/
def Collection.arms : Handlers Collection :=
  [(tag!"NAME", fld getWide fun v s => { s with name := v }),
   (tag!"ITEM", fld getWide fun v s => { s with items := s.items ++ [v] }),
   (tag!"EVNT", fld getBool fun v s => { s with fire_events := v }),
   (tag!"SSNG", fld getBool fun v s => { s with stop_single_events := v }),
   (tag!"GREL", fld getBool fun v s => { s with group_elements := v })]

/-- `collection::read`, /repo/src/vpx/collection.rs:15-59 -/
def Collection.read (data : Bytes) : Res Collection := readStruct Collection.arms Collection.init data

/-- calls made by `collection::write` before `close(true)`, /repo/src/vpx/collection.rs:61-72 -/
def Collection.ops (s : Collection) : List WOp := List.flatten [
  [wWide tag!"NAME" s.name],
  s.items.map (wWide tag!"ITEM"),
  [wBool tag!"EVNT" s.fire_events],
  [wBool tag!"SSNG" s.stop_single_events],
  [wBool tag!"GREL" s.group_elements]]

/-- `collection::write`, /repo/src/vpx/collection.rs:61-72 -/
def Collection.write (s : Collection) : Res Bytes := writeBiff s.ops

/-- `CustomInfoTags`, /repo/src/vpx/custominfotags.rs:4 -/
abbrev CustomInfoTags := List Str

/-- match arms of `read_custominfotags`, /repo/src/vpx/custominfotags.rs:16-29; the default arm
reads the record data and drops it -/
def CustomInfoTags.arms : Handlers CustomInfoTags :=
  [(tag!"CUST", fld getString fun v s => s ++ [v]),
   (anyTag, fld getRecordData fun _ s => s)]

/-- `read_custominfotags`, /repo/src/vpx/custominfotags.rs:6-32 -/
def CustomInfoTags.read (data : Bytes) : Res CustomInfoTags := readStruct CustomInfoTags.arms [] data

/-- calls made by `write_custominfotags` before `close(true)`,
/repo/src/vpx/custominfotags.rs:34-41 -/
def CustomInfoTags.ops (s : CustomInfoTags) : List WOp := s.map (wString tag!"CUST")

/-- `write_custominfotags`, /repo/src/vpx/custominfotags.rs:34-41 -/
def CustomInfoTags.write (s : CustomInfoTags) : Res Bytes := writeBiff (CustomInfoTags.ops s)

end Vpin
