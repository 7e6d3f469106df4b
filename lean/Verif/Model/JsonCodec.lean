import Verif.Model.Json
import Verif.Model.Float
import Verif.Model.Common
import Verif.Model.Color
import Verif.Model.Hex
import Verif.Model.Sound
/-
How `serde` turns Rust values into JSON values and back: the basic types, `Option`, `Vec`, fixed arrays, structures
with `#[derive(Serialize, Deserialize)]`, and `F32WithNanInf` of /repo/src/vpx/json.rs.

Simplifications: a derived `Deserialize` also accepts an array in place of an object, which is an error here; if a
document has several faults, the fault of the first field of the structure is reported and not the first one of the
document.
-/
namespace Vpin

/-- `Serialize` and `Deserialize` of a type (derived by `serde`, for instance /repo/src/vpx/gameitem/wall.rs:222-229) -/
structure Codec (α : Type) where
  toJ : α → J
  ofJ : J → Res α

/-! ### Basic types (`serde`, `serde_json`) -/

/-- `Serialize` and `Deserialize` of `Bool` (derived by `serde`, for instance /repo/src/vpx/gameitem/wall.rs:97) -/
def jBool : Codec Bool where
  toJ b := .bool b
  ofJ | .bool b => .ok b
      | _ => .error .io

/-- `Serialize` and `Deserialize` of `Str` (derived by `serde`, for instance /repo/src/vpx/gameitem/wall.rs:97) -/
def jStr : Codec Str where
  toJ s := .str s
  ofJ | .str s => .ok s
      | _ => .error .io

/-- `Serialize` and `Deserialize` of `U8` (derived by `serde`, for instance /repo/src/vpx/gameitem/wall.rs:97) -/
def jU8 : Codec UInt8 where
  toJ n := .num n.toNat
  ofJ | .num n => if 0 ≤ n ∧ n < 2 ^ 8 then .ok (UInt8.ofNat n.toNat) else .error .io
      | _ => .error .io

/-- `Serialize` and `Deserialize` of `U16` (derived by `serde`, for instance /repo/src/vpx/gameitem/wall.rs:97) -/
def jU16 : Codec UInt16 where
  toJ n := .num n.toNat
  ofJ | .num n => if 0 ≤ n ∧ n < 2 ^ 16 then .ok (UInt16.ofNat n.toNat) else .error .io
      | _ => .error .io

/-- `Serialize` and `Deserialize` of `U32` (derived by `serde`, for instance /repo/src/vpx/gameitem/wall.rs:97) -/
def jU32 : Codec UInt32 where
  toJ n := .num n.toNat
  ofJ | .num n => if 0 ≤ n ∧ n < 2 ^ 32 then .ok (UInt32.ofNat n.toNat) else .error .io
      | _ => .error .io

/-- `Serialize` and `Deserialize` of `I32` (derived by `serde`, for instance /repo/src/vpx/gameitem/wall.rs:97) -/
def jI32 : Codec Int32 where
  toJ n := .num n.toInt
  ofJ | .num n => if -2 ^ 31 ≤ n ∧ n < 2 ^ 31 then .ok (Int32.ofInt n) else .error .io
      | _ => .error .io

/-- `n as f32` (derived by `serde`, for instance /repo/src/vpx/gameitem/wall.rs:98-134) -/
def f32OfInt (n : Int) : F32 :=
  if n < 0 then f32OfFrac n.natAbs 1 ||| 0x80000000 else f32OfFrac n.natAbs 1

/-- `f32`: NaN and the infinities are printed as `null`; an integer is accepted as well (derived by `serde`, for
example /repo/src/vpx/gameitem/wall.rs:97) -/
def jF32 : Codec F32 where
  toJ x := if x.isFinite then .f32 x else .null
  ofJ | .f32 x => .ok x
      | .num n => .ok (f32OfInt n)
      | _ => .error .io

/-- `Option<T>` as a value: `None` is `null` (derived by `serde`, for instance /repo/src/vpx/gameitem/wall.rs:97) -/
def jOpt {α : Type} (c : Codec α) : Codec (Option α) where
  toJ | none => .null
      | some a => c.toJ a
  ofJ | .null => .ok none
      | j => some <$> c.ofJ j

/-- `Vec<T>` (derived by `serde`, for instance /repo/src/vpx/gameitem/wall.rs:97) -/
def jVec {α : Type} (c : Codec α) : Codec (List α) where
  toJ l := .arr (l.map c.toJ)
  ofJ | .arr l => l.mapM c.ofJ
      | _ => .error .io

/-! ### Structures -/

/-- A field of a structure in its JSON object. `names`: its name and the aliases that are also read. `get`: the value
that is written, `none` if it is skipped. `set`: what the reader does with the member, or when there is none. (derived
by `serde`, for instance /repo/src/vpx/gameitem/wall.rs:97) -/
structure JField (σ : Type) where
  names : List Key
  get : σ → Option J
  set : Option J → σ → Res σ

/-- a field that has to be there (derived by `serde`, for instance /repo/src/vpx/gameitem/wall.rs:97) -/
def JField.req {σ α : Type} (names : List Key) (c : Codec α) (get : σ → α) (put : α → σ → σ) : JField σ where
  names := names
  get s := some (c.toJ (get s))
  set | none, _ => .error .io
      | some j, s => (fun a => put a s) <$> c.ofJ j

/-- a field of type `Option`: written as `null` if it is `None`; `null` and no member are read as `None` (derived by
`serde`, for instance /repo/src/vpx/gameitem/wall.rs:97) -/
def JField.opt {σ α : Type} (names : List Key) (c : Codec α) (get : σ → Option α) (put : Option α → σ → σ) :
    JField σ where
  names := names
  get s := some ((jOpt c).toJ (get s))
  set | none, s => .ok (put none s)
      | some j, s => (fun a => put a s) <$> (jOpt c).ofJ j

/-- a field of type `Option` with `#[serde(skip_serializing_if = "Option::is_none")]` (derived by `serde`, for instance
/repo/src/vpx/gameitem/wall.rs:97) -/
def JField.optSkip {σ α : Type} (names : List Key) (c : Codec α) (get : σ → Option α) (put : Option α → σ → σ) :
    JField σ where
  names := names
  get s := (get s).map c.toJ
  set | none, s => .ok (put none s)
      | some j, s => (fun a => put a s) <$> (jOpt c).ofJ j

/-- a field with `#[serde(default = ...)]` that is always written (derived by `serde`, for instance
/repo/src/vpx/gameitem/wall.rs:97) -/
def JField.default {σ α : Type} (names : List Key) (c : Codec α) (dflt : α) (get : σ → α) (put : α → σ → σ) :
    JField σ where
  names := names
  get s := some (c.toJ (get s))
  set | none, s => .ok (put dflt s)
      | some j, s => (fun a => put a s) <$> c.ofJ j

/-- the two fields of `TimerData` under `#[serde(flatten)]`, /repo/src/vpx/gameitem/select.rs:42-66 -/
def timerFields {σ : Type} (L : Lens σ TimerData) : List (JField σ) :=
  [.req [key!"is_timer_enabled"] jBool (fun s => (L.get s).is_enabled)
     (fun v s => L.put { L.get s with is_enabled := v } s),
   .req [key!"timer_interval"] jI32 (fun s => (L.get s).interval)
     (fun v s => L.put { L.get s with interval := v } s)]

/-- the members with one of these names (derived by `serde`, for instance /repo/src/vpx/gameitem/wall.rs:97) -/
def membersOf (names : List Key) (l : List (Key × J)) : List (Key × J) := l.filter fun m => names.contains m.1

/-- the member a field is read from; twice the same field is an error (derived by `serde`, for instance
/repo/src/vpx/gameitem/wall.rs:97) -/
def JField.find {σ : Type} (f : JField σ) (l : List (Key × J)) : Res (Option J) :=
  match membersOf f.names l with
  | [] => .ok none
  | [m] => .ok (some m.2)
  | _ => .error .io

/-- the object of a structure: its fields in order, under their first names (derived by `serde`, for instance
/repo/src/vpx/gameitem/wall.rs:97) -/
def writeJ {σ : Type} (fs : List (JField σ)) (s : σ) : J :=
  .obj (fs.filterMap fun f => (f.get s).map fun j => (f.names.headD 0, j))

/-- one field after the other (derived by `serde`, for instance /repo/src/vpx/gameitem/wall.rs:97) -/
def readJFields {σ : Type} (l : List (Key × J)) : List (JField σ) → σ → Res σ
  | [], s => .ok s
  | f :: fs, s =>
    match f.find l with
    | .error e => .error e
    | .ok o => match f.set o s with
      | .error e => .error e
      | .ok s => readJFields l fs s

/-- the structure of an object. `base` has the values of the fields that are not in the JSON form. Other members are
ignored. (derived by `serde`, for instance /repo/src/vpx/gameitem/wall.rs:97) -/
def readJ {σ : Type} (fs : List (JField σ)) (base : σ) : J → Res σ
  | .obj l => readJFields l fs base
  | _ => .error .io

/-- a structure (derived by `serde`, for instance /repo/src/vpx/gameitem/wall.rs:97) -/
def jStruct {σ : Type} (fs : List (JField σ)) (base : σ) : Codec σ := ⟨writeJ fs, readJ fs base⟩

/-! ### Types of the project used in many structures -/

/-- `Vertex2D`, /repo/src/vpx/gameitem/vertex2d.rs:4-9 -/
def jVertex2D : Codec Vertex2D :=
  jStruct [.req [key!"x"] jF32 (·.x) fun v s => { s with x := v },
           .req [key!"y"] jF32 (·.y) fun v s => { s with y := v }] Vertex2D.default

/-- `Vertex3D`, /repo/src/vpx/gameitem/vertex3d.rs:4-10 -/
def jVertex3D : Codec Vertex3D :=
  jStruct [.req [key!"x"] jF32 (·.x) fun v s => { s with x := v },
           .req [key!"y"] jF32 (·.y) fun v s => { s with y := v },
           .req [key!"z"] jF32 (·.z) fun v s => { s with z := v }] Vertex3D.default

/-- `Serialize` and `Deserialize` of `Color`, /repo/src/vpx/color.rs:41-100 -/
def jColor : Codec Color := ⟨Color.toJ, Color.ofJ⟩

/-! ### `F32WithNanInf` -/

/-- `serialize_f32_nan_inf_as_string`, /repo/src/vpx/json.rs:41-61 -/
def nanInfToJ (x : F32) : J :=
  if x.isNaN then .str ("NaN|".toList ++ hexEncode (le32 x))
  else if !x.isNeg && x.isInf then .str "Inf".toList
  else if x.isNeg && x.isInf then .str "-Inf".toList
  else .f32 x

/-- `deserialize_f32_nan_inf_from_string`, /repo/src/vpx/json.rs:63-98. `to_lowercase` is taken as the ASCII one: a
text that only Unicode lower casing would turn into an accepted one is an error here (there is one such letter, the
Kelvin sign, but no `k` is accepted). `copy_from_slice` panics unless there are four bytes. -/
def nanInfOfJ : J → Res F32
  | .str s =>
    let low := s.map asciiLower
    if low = "inf".toList then .ok 0x7f800000
    else if low = "-inf".toList then .ok 0xff800000
    else if low.take 4 = "nan|".toList then
      match hexDecode (low.drop 4) with
      | some [a, b, c, d] => .ok (ofLe32 [a, b, c, d])
      | some _ => .error .panic
      | none => .error .io
    else .error .io
  | .f32 x => .ok x
  | .num n => .ok (f32OfInt n)
  | _ => .error .io

/-- `F32WithNanInf`, /repo/src/vpx/json.rs:7-39 -/
def jNanInf : Codec F32 := ⟨nanInfToJ, nanInfOfJ⟩

/-! ### `Font` -/

/-- the names of the styles in `FontStyles`, `enum FontStyle`, /repo/src/vpx/gameitem/font.rs:38-46 -/
def fontStyleNames : List Str :=
  ["Normal".toList, "Bold".toList, "Italic".toList, "Underline".toList, "Strikethrough".toList]

/-- `HashSet<FontStyle>`: an array of names. A set iterates in an unspecified order; the model takes the order of the
declaration (`C46_style_any_order` shows that the order does not matter to the reader).
/repo/src/vpx/gameitem/font.rs:40-46. -/
def FontStyles.toJ (s : FontStyles) : J :=
  .arr (((if s.normal then ["Normal".toList] else []) ++ (if s.bold then ["Bold".toList] else []) ++
    (if s.italic then ["Italic".toList] else []) ++ (if s.underline then ["Underline".toList] else []) ++
    (if s.strikethrough then ["Strikethrough".toList] else [])).map .str)

/-- the name of one style, /repo/src/vpx/gameitem/font.rs:40-46 -/
def fontStyleOfJ : J → Res Str
  | .str s => if fontStyleNames.contains s then .ok s else .error .io
  | _ => .error .io

/-- the set with these members, /repo/src/vpx/gameitem/font.rs:40-46 -/
def FontStyles.ofNames (l : List Str) : FontStyles where
  normal := l.contains "Normal".toList
  bold := l.contains "Bold".toList
  italic := l.contains "Italic".toList
  underline := l.contains "Underline".toList
  strikethrough := l.contains "Strikethrough".toList

/-- from its JSON value, /repo/src/vpx/gameitem/font.rs:40-46 -/
def FontStyles.ofJ : J → Res FontStyles
  | .arr l => FontStyles.ofNames <$> l.mapM fontStyleOfJ
  | _ => .error .io

/-- `Serialize` and `Deserialize` of `FontStyles`, /repo/src/vpx/gameitem/font.rs:40-46 -/
def jFontStyles : Codec FontStyles := ⟨FontStyles.toJ, FontStyles.ofJ⟩

/-- `FontJson`, `from_font` and `to_font`, /repo/src/vpx/gameitem/font.rs:136-170; no character set is `CHARSET_ANSI` -/
def jFont : Codec Font :=
  jStruct [.optSkip [key!"charset"] jU16 (fun s => if s.charset = 0 then none else some s.charset)
             fun v s => { s with charset := v.getD 0 },
           .req [key!"style"] jFontStyles (·.style) fun v s => { s with style := v },
           .req [key!"weight"] jU16 (·.weight) fun v s => { s with weight := v },
           .req [key!"size"] jU32 (·.size) fun v s => { s with size := v },
           .req [key!"name"] jStr (·.name) fun v s => { s with name := v }] Font.default

end Vpin
