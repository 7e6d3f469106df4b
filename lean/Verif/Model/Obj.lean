import Verif.Model.Mesh
import Verif.Model.FloatText
/-
/repo/src/vpx/obj.rs: meshes as Wavefront OBJ files.

The text of the file (written and read by the library `wavefront-obj-io`) is taken as the list of its lines with
the texts of their numbers; that the library reads the lines that were written, in their order and with the same
texts, is assumed. (A primitive's name with a line break in it would break this; the name is not used when the
file is read.)
-/
namespace Vpin

/-- a line of an OBJ file (used in /repo/src/vpx/obj.rs:100-185) -/
inductive ObjLine where
  | comment (s : Str)
  | object (s : Str)
  | v (x y z : Str)
  | vt (u v : Str)
  | vn (x y z : Str)
  | f (corners : List (Nat × Option Nat × Option Nat))
  deriving DecidableEq, Repr

/-- join with single spaces (used in /repo/src/vpx/obj.rs:61-69) -/
def joinSpace : List Str → Str
  | [] => []
  | [w] => w
  | w :: ws => w ++ [' '] ++ joinSpace ws

/-- `obj_vpx_comment`, /repo/src/vpx/obj.rs:61-69 -/
def vpxComment (bs : Bytes) : Str := "vpx ".toList ++ joinSpace (bs.map hex2)

/-- value of a hexadecimal digit (used in /repo/src/vpx/obj.rs:71-93) -/
def hexCharVal (c : Char) : Option Nat :=
  if 0x30 ≤ c.toNat ∧ c.toNat ≤ 0x39 then some (c.toNat - 0x30)
  else if 0x61 ≤ c.toNat ∧ c.toNat ≤ 0x66 then some (c.toNat - 0x61 + 10)
  else if 0x41 ≤ c.toNat ∧ c.toNat ≤ 0x46 then some (c.toNat - 0x41 + 10)
  else none

/-- the digits loop of `u8::from_str_radix(s, 16)` (std) (used in /repo/src/vpx/obj.rs:71-93) -/
def hexDigits : Nat → Str → Option UInt8
  | acc, [] => some (UInt8.ofNat acc)
  | acc, c :: cs =>
    match hexCharVal c with
    | none => none
    | some d => if 16 * acc + d < 256 then hexDigits (16 * acc + d) cs else none

/-- `u8::from_str_radix(s, 16)` (std) (used in /repo/src/vpx/obj.rs:71-93) -/
def parseHexByte : Str → Option UInt8
  | [] => none
  | ['+'] => none
  | '+' :: cs => hexDigits 0 cs
  | cs => hexDigits 0 cs

/-- `str::split_whitespace` (std), taking only the space as white space (used in /repo/src/vpx/obj.rs:71-93) -/
def splitSpaces : Str → List Str
  | [] => []
  | c :: cs =>
    if c = ' ' then splitSpaces cs
    else
      match cs with
      | [] => [[c]]
      | d :: _ =>
        if d = ' ' then [c] :: splitSpaces cs
        else
          match splitSpaces cs with
          | [] => [[c]]
          | w :: ws => (c :: w) :: ws

/-- all of them, or a panic (`unwrap`) (used in /repo/src/vpx/obj.rs:71-93) -/
def parseHexAll : List Str → Res Bytes
  | [] => .ok []
  | w :: ws =>
    match parseHexByte w with
    | none => .error .panic
    | some b => do
      let bs ← parseHexAll ws
      pure (b :: bs)

/-- `VpxCommentBytes`, /repo/src/vpx/obj.rs:54-59 -/
inductive VpxBytes where
  | normal (bs : Bytes)
  | vertex (bs : Bytes)
  deriving DecidableEq, Repr

/-- `obj_parse_vpx_comment`, /repo/src/vpx/obj.rs:71-93 -/
def parseVpxComment (s : Str) : Res (Option VpxBytes) :=
  match s with
  | 'v' :: 'p' :: 'x' :: ' ' :: hex => do
    let bs ← parseHexAll (splitSpaces hex)
    if bs.length = 12 then pure (some (.normal bs))
    else if bs.length = 32 then pure (some (.vertex bs))
    else pure none
  | _ => .ok none

/-! ## The V coordinate -/

variable (T : FloatText)

/-- does the text recover `tv` when it is read? /repo/src/vpx/obj.rs:257-258,292-293,385 -/
def recovers (tv : F32) (s : Str) : Bool :=
  match T.parse64 s with
  | some v => v.oneMinus.toF32 == tv
  | none => false

/-- `estimated_flip_precision`, /repo/src/vpx/obj.rs:336-340. `ceil((23 - exponent) * LOG10_2)`, with 30103/100000
for the logarithm: for all 256 exponents the same number. -/
def flipPrecision (tv : F32) : Nat :=
  let e := tv.toNat / 0x800000 % 256
  let k := 150 - e
  max 1 (min 17 ((k * 30103 + 99999) / 100000))

/-- the loop that makes the text shorter, /repo/src/vpx/obj.rs:299-308 -/
def walkDown (probe : Nat → Option Str) : Nat → Str → Str
  | p + 2, t =>
    match probe (p + 1) with
    | some s => walkDown probe (p + 1) s
    | none => t
  | _, t => t

/-- `shortest_recovering_text`, /repo/src/vpx/obj.rs:289-315 -/
def shortestRecovering (flipped : F64) (tv : F32) : Option Str :=
  let probe := fun p => let s := T.showPrec p flipped; if recovers T tv s then some s else none
  let est := flipPrecision tv
  match probe est with
  | some t => some (walkDown probe est t)
  | none => (List.range' (est + 1) (17 - est)).findSome? probe

/-- `flipped_v`, /repo/src/vpx/obj.rs:235-275: the text and whether it is exact. `0.5 <= tv <= 2.0` is a
comparison of bit patterns, which are ordered like the positive numbers. -/
def flippedV (tv : F32) : Str × Bool :=
  if tv.isNaN then ("NaN".toList, false)
  else
    let flipped := tv.toF64.oneMinus
    if 0x3f000000 ≤ tv ∧ tv ≤ 0x40000000 then (T.show32 flipped.toF32, true)
    else if recovers T tv (T.show32 flipped.toF32) then (T.show32 flipped.toF32, true)
    else
      match shortestRecovering T flipped tv with
      | some t => (t, true)
      | none => (T.show64 flipped, false)

/-! ## Writing -/

/-- `needs_byte_preservation`, /repo/src/vpx/obj.rs:197-206 -/
def needsBytes (v : Vertex) (tvExact : Bool) : Bool :=
  [v.x, v.y, v.z, v.nx, v.ny, v.nz, v.tu, v.tv].any F32.isNaN || !tvExact

/-- the lines of a normal, /repo/src/vpx/obj.rs:151-160 -/
def normalLines (w : VertexWrapper) : List ObjLine :=
  (if needsBytes w.vertex (flippedV T w.vertex.tv).2 then [.comment (vpxComment w.encoded)] else [])
  ++ [.vn (T.show32 (if w.vertex.nx.isNaN then 0 else w.vertex.nx))
        (T.show32 (if w.vertex.ny.isNaN then 0 else w.vertex.ny))
        (T.show32 (if w.vertex.nz.isNaN then 0 else w.vertex.nz.neg))]

/-- a corner of a face: the number from 1 on (used in /repo/src/vpx/obj.rs:655-674) -/
def corner (i : Int) : Nat × Option Nat × Option Nat :=
  ((i + 1).toNat, some (i + 1).toNat, some (i + 1).toNat)

/-- `write_obj_to_writer`, /repo/src/vpx/obj.rs:100-183; the text of the third comment is left out -/
def writeObj (name : Str) (m : Mesh) : List ObjLine :=
  [.comment "VPXTOOL table OBJ file".toList, .comment "VPXTOOL OBJ file".toList, .comment "numVerts".toList,
   .object name]
  ++ m.vertices.map (fun w => .v (T.show32 w.vertex.x) (T.show32 w.vertex.y) (T.show32 w.vertex.z.neg))
  ++ m.vertices.map (fun w => .vt (T.show32 w.vertex.tu) (flippedV T w.vertex.tv).1)
  ++ m.vertices.flatMap (normalLines T)
  ++ m.faces.map fun f => .f [corner f.i2, corner f.i1, corner f.i0]

/-! ## Reading -/

/-- `VpxObjNormal`, /repo/src/vpx/obj.rs:683-690 -/
structure ObjNormal where
  x : F32
  y : F32
  z : F32
  bytes : Option VpxBytes
  deriving DecidableEq, Repr

/-- `FaceCorner`, /repo/src/vpx/obj.rs:746-750; 0 for a missing number -/
structure FaceCorner where
  v : Nat
  vt : Nat
  vn : Nat
  deriving DecidableEq, Repr

/-- `VpxObjReader`, /repo/src/vpx/obj.rs:470-488; fourth coordinates and the third texture coordinate are left out -/
structure ObjReader where
  faces : List (List FaceCorner) := []
  normalize : Bool := false
  vertices : List (F32 × F32 × F32) := []
  texcoords : List (F32 × F64) := []
  normals : List ObjNormal := []
  objects : Nat := 0
  previous : Option Str := none
  name : Str := []
  deriving DecidableEq, Repr

/-- parsing a number of a line; the library reports an error if it is none (used in /repo/src/vpx/obj.rs:515-612) -/
def number (s : Str) : Res F64 :=
  match T.parse64 s with
  | some v => .ok v
  | none => .error .io

/-- `ObjReader<f64> for VpxObjReader`, /repo/src/vpx/obj.rs:595-660 -/
def ObjReader.line (r : ObjReader) : ObjLine → Res ObjReader
  | .comment s => .ok { r with previous := some s }
  | .object s => .ok { r with objects := r.objects + 1, name := s, previous := none }
  | .v x y z => do
    let x ← number T x
    let y ← number T y
    let z ← number T z
    pure { r with vertices := r.vertices ++ [(x.toF32, y.toF32, z.toF32)], previous := none }
  | .vt u v => do
    let u ← number T u
    let v ← number T v
    pure { r with texcoords := r.texcoords ++ [(u.toF32, v)], previous := none }
  | .vn x y z => do
    let x ← number T x
    let y ← number T y
    let z ← number T z
    let bytes ← match r.previous with
      | some c => parseVpxComment c
      | none => pure none
    pure { r with normals := r.normals ++ [⟨x.toF32, y.toF32, z.toF32, bytes⟩], previous := none }
  | .f corners =>
    let cs := corners.map fun (v, vt, vn) => FaceCorner.mk v (vt.getD 0) (vn.getD 0)
    let matched := cs.length == 3 && cs.all fun c => c.v == c.vt && c.v == c.vn
    .ok { r with faces := r.faces ++ [cs], normalize := r.normalize || !matched, previous := none }

/-- all lines, in order (used in /repo/src/vpx/obj.rs:515-612) -/
def ObjReader.lines (r : ObjReader) : List ObjLine → Res ObjReader
  | [] => .ok r
  | l :: ls => do
    let r ← r.line T l
    ObjReader.lines r ls

/-- `resolve_index`, /repo/src/vpx/obj.rs:763-782 -/
def resolveIndex (i len : Nat) : Res Nat :=
  if i = 0 then .error .io else if len ≤ i - 1 then .error .io else .ok (i - 1)

/-- the numbers of a corner of a face, /repo/src/vpx/obj.rs:655-674 -/
abbrev Corner := Nat × Nat × Nat

/-- the corners of a face, /repo/src/vpx/obj.rs:811-817 -/
def resolveCorners (np nt nn : Nat) : List FaceCorner → Res (List Corner)
  | [] => .ok []
  | c :: cs => do
    let p ← resolveIndex c.v np
    let t ← resolveIndex c.vt nt
    let n ← resolveIndex c.vn nn
    let rest ← resolveCorners np nt nn cs
    pure ((p, t, n) :: rest)

/-- pairs of neighbours (used in /repo/src/vpx/obj.rs:800-855) -/
def neighbours : List α → List (α × α)
  | a :: b :: l => (a, b) :: neighbours (b :: l)
  | _ => []

/-- fan triangulation, /repo/src/vpx/obj.rs:823-826 -/
def fan : List Corner → List (Corner × Corner × Corner)
  | [] => []
  | c :: cs => (neighbours cs).map fun (a, b) => (c, a, b)

/-- the first loop of `triangulate_and_dedup`, /repo/src/vpx/obj.rs:803-827 -/
def triangulate (np nt nn : Nat) (reverse : Bool) : List (List FaceCorner) → Res (List (Corner × Corner × Corner))
  | [] => .ok []
  | face :: faces => do
    if face.length < 3 then throw .io
    let corners ← resolveCorners np nt nn face
    let rest ← triangulate np nt nn reverse faces
    pure (fan (if reverse then corners.reverse else corners) ++ rest)

/-- the number of a corner, new ones at the end: `combined_lookup.entry(..).or_insert_with(..)`,
/repo/src/vpx/obj.rs:835-841 -/
def cornerIndex (combined : List Corner) (c : Corner) : Nat × List Corner :=
  match combined.findIdx? (· == c) with
  | some i => (i, combined)
  | none => (combined.length, combined ++ [c])

/-- the second loop of `triangulate_and_dedup`, /repo/src/vpx/obj.rs:829-844 -/
def dedup : List Corner → List (Corner × Corner × Corner) → List Corner × List (Nat × Nat × Nat)
  | combined, [] => (combined, [])
  | combined, (a, b, c) :: ts =>
    let (i, combined) := cornerIndex combined a
    let (j, combined) := cornerIndex combined b
    let (k, combined) := cornerIndex combined c
    let (combined, rest) := dedup combined ts
    (combined, (i, j, k) :: rest)

/-- `triangulate_and_dedup`, /repo/src/vpx/obj.rs:794-850 -/
def triangulateAndDedup (faces : List (List FaceCorner)) (np nt nn : Nat) (reverse : Bool) :
    Res (List Corner × List (Nat × Nat × Nat)) := do
  let ts ← triangulate np nt nn reverse faces
  pure (dedup [] ts)

/-- `ObjData`, /repo/src/vpx/obj.rs:720-732 -/
structure ObjData where
  name : Str
  vertices : List (F32 × F32 × F32)
  texcoords : List (F32 × F64)
  normals : List ObjNormal
  faces : List Face
  deriving DecidableEq, Repr

/-- `a[i]`; panics if out of range (used in /repo/src/vpx/obj.rs:364-416) -/
def getOrPanic (l : List α) (i : Nat) : Res α :=
  match l[i]? with
  | some x => .ok x
  | none => .error .panic

/-- a face of the fast path, /repo/src/vpx/obj.rs:566-583; the numbers are cut to `u32` -/
def fastFace (reverse : Bool) (face : List FaceCorner) : Res Face := do
  let a ← getOrPanic face 0
  let b ← getOrPanic face 1
  let c ← getOrPanic face 2
  let n := fun (c : FaceCorner) => ((c.v % 4294967296 : Nat) : Int) - 1
  pure (if reverse then ⟨n c, n b, n a⟩ else ⟨n a, n b, n c⟩)

/-- `VpxObjReader::read`, /repo/src/vpx/obj.rs:504-593 -/
def readObjData (ls : List ObjLine) (reverse : Bool) : Res ObjData := do
  let r ← ObjReader.lines T {} ls
  if r.objects ≠ 1 then throw .io
  if r.normalize then
    let (combined, triangles) ← triangulateAndDedup r.faces r.vertices.length r.texcoords.length r.normals.length reverse
    let vertices ← combined.mapM fun c => getOrPanic r.vertices c.1
    let texcoords ← combined.mapM fun c => getOrPanic r.texcoords c.2.1
    let normals ← combined.mapM fun c => getOrPanic r.normals c.2.2
    pure ⟨r.name, vertices, texcoords, normals, triangles.map fun (i, j, k) => ⟨i, j, k⟩⟩
  else
    let faces ← r.faces.mapM (fastFace reverse)
    pure ⟨r.name, r.vertices, r.texcoords, r.normals, faces⟩

/-- `put_f32_le_nan_as_zero`, /repo/src/vpx/expanded/primitives.rs:674-685 -/
def le32NanZero (x : F32) : Bytes := if x.isNaN then le32 0 else le32 x

/-- `write_vertex`, /repo/src/vpx/obj.rs:430-451 -/
def vertexBytes (v : Vertex) (b : Option VpxBytes) : Bytes :=
  match b with
  | some (.vertex bs) => bs
  | _ =>
    le32 v.x ++ le32 v.y ++ le32 v.z
    ++ (match b with
      | some (.normal bs) => bs
      | _ => le32NanZero v.nx ++ le32NanZero v.ny ++ le32NanZero v.nz)
    ++ le32 v.tu ++ le32 v.tv

/-- `ReadObjResult`, /repo/src/vpx/obj.rs:342-352; only the number of `vertices` is used -/
structure ObjResult where
  finalVertices : List Vertex
  vertices : Nat
  faces : List Face
  encoded : Bytes
  name : Str
  deriving DecidableEq, Repr

/-- `read_obj_from_reader_with_options`, /repo/src/vpx/obj.rs:370-416 -/
def readObj (ls : List ObjLine) (convert : Bool) : Res ObjResult := do
  let d ← readObjData T ls convert
  let vs := ((d.vertices.zip d.texcoords).zip d.normals).map fun ((v, vt), vn) =>
    let z := if convert then v.2.2.neg else v.2.2
    let nz := if convert then vn.z.neg else vn.z
    let tv := if convert then vt.2.oneMinus.toF32 else vt.2.toF32
    (Vertex.mk v.1 v.2.1 z vn.x vn.y nz vt.1 tv, vn.bytes)
  pure ⟨vs.map (·.1), d.vertices.length, d.faces, vs.flatMap (fun (v, b) => vertexBytes v b), d.name⟩

/-- `read_obj_as_frame`, /repo/src/vpx/expanded/primitives.rs:915-943 -/
def readObjFrame (ls : List ObjLine) : Res (List FrameVertex) := do
  let d ← readObjData T ls true
  pure ((d.vertices.zip d.normals).map fun (v, vn) => ⟨v.1, v.2.1, v.2.2.neg, vn.x, vn.y, vn.z.neg⟩)

end Vpin
