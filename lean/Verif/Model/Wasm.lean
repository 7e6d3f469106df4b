import Verif.Model.Obj
import Verif.Model.Arith
import Verif.Model.BuiltinMesh
import Verif.Model.Expanded
/-
/repo/src/wasm.rs: what the package for web browsers offers. Objects of JavaScript are taken as the list of their keys
and values, typed arrays as lists; callbacks that report progress are left out. OBJ files are taken as their lines, as
in Model/Obj.
-/
namespace Vpin

/-- `PrimitiveMesh`, /repo/src/wasm.rs:178-185 -/
structure WasmMesh where
  name : Str
  positions : List F32
  texCoords : List F32
  normals : List F32
  indices : List UInt32
  deriving DecidableEq, Repr

/-- `slice::chunks_exact(2)` (std) (used in /repo/src/wasm.rs:319-433) -/
def chunks2 : List α → List (α × α)
  | a :: b :: l => (a, b) :: chunks2 l
  | _ => []

/-- `slice::chunks_exact(3)` (std) (used in /repo/src/wasm.rs:319-433) -/
def chunks3 : List α → List (α × α × α)
  | a :: b :: c :: l => (a, b, c) :: chunks3 l
  | _ => []

/-- the loops that fill the arrays, /repo/src/wasm.rs:270-294 and 461-482; `as u32` cuts the index -/
def WasmMesh.of (name : Str) (vs : List Vertex) (fs : List Face) : WasmMesh where
  name := name
  positions := vs.flatMap fun v => [v.x, v.y, v.z]
  texCoords := vs.flatMap fun v => [v.tu, v.tv]
  normals := vs.flatMap fun v => [v.nx, v.ny, v.nz]
  indices := fs.flatMap fun f => [f.i0, f.i1, f.i2].map fun i => UInt32.ofNat (i % 2 ^ 32).toNat

section
variable (T : FloatText)

/-- `obj_to_mesh`, /repo/src/wasm.rs:261-303 -/
def objToMesh (ls : List ObjLine) (convert : Bool) : Res WasmMesh := do
  let r ← readObj T ls convert
  pure (WasmMesh.of r.name r.finalVertices r.faces)

/-- `z_sign * z`, /repo/src/wasm.rs:369: multiplying by -1 changes the sign, by 1 nothing (of a NaN, whose sign is not
printed, other bits may change) -/
def zSigned (convert : Bool) (z : F32) : F32 := if convert then z.neg else z

/-- a triangle of `mesh_to_obj`, /repo/src/wasm.rs:402-426. The indices are below the number of vertices, and their
successors numbers of 32 bits: there cannot be 2^32 vertices in memory. -/
def triangleLine (vertCount : Nat) (convert : Bool) (t : UInt32 × UInt32 × UInt32) : Res ObjLine :=
  if vertCount ≤ t.1.toNat then .error .io
  else if vertCount ≤ t.2.1.toNat then .error .io
  else if vertCount ≤ t.2.2.toNat then .error .io
  else
    let c (i : UInt32) : Nat × Option Nat × Option Nat := (i.toNat + 1, some (i.toNat + 1), some (i.toNat + 1))
    .ok (.f (if convert then [c t.2.2, c t.2.1, c t.1] else [c t.1, c t.2.1, c t.2.2]))

/-- the text of a `v` coordinate, /repo/src/wasm.rs:375-397 -/
def vText (convert : Bool) (tv : F32) : Str := if convert then (flippedV T tv).1 else T.show32 tv

/-- `mesh_to_obj`, /repo/src/wasm.rs:318-431; the text of the comment is left out -/
def meshToObj (name : Str) (positions texCoords normals : List F32) (indices : List UInt32) (convert : Bool) :
    Res (List ObjLine) := do
  if positions.length % 3 ≠ 0 then throw .io
  if texCoords.length % 2 ≠ 0 then throw .io
  if normals.length % 3 ≠ 0 then throw .io
  if indices.length % 3 ≠ 0 then throw .io
  let vertCount := positions.length / 3
  if texCoords.length / 2 ≠ vertCount ∨ normals.length / 3 ≠ vertCount then throw .io
  let objectName := if name.isEmpty then "object".toList else name
  let faces ← (chunks3 indices).mapM (triangleLine vertCount convert)
  pure ([.comment "numVerts".toList, .object objectName]
    ++ (chunks3 positions).map (fun p => .v (T.show32 p.1) (T.show32 p.2.1) (T.show32 (zSigned convert p.2.2)))
    ++ (chunks2 texCoords).map (fun t => .vt (T.show32 t.1) (vText T convert t.2))
    ++ (chunks3 normals).map (fun n => .vn (T.show32 n.1) (T.show32 n.2.1) (T.show32 (zSigned convert n.2.2)))
    ++ faces)

end

section
variable [Arith]
open Arith

/-- the bounds of one axis, /repo/src/wasm.rs:221-232 -/
def axisBounds (xs : List F32) : F32 × F32 :=
  xs.foldl (fun b x => (if x <ᶠ b.1 then x else b.1, if b.2 <ᶠ x then x else b.2))
    (0x7f800000 /- infinity -/, 0xff800000 /- -infinity -/)

/-- `PrimitiveMesh::midpoint`, /repo/src/wasm.rs:216-240, axis by axis -/
def WasmMesh.midpoint (m : WasmMesh) : List F32 :=
  if m.positions.isEmpty then [0, 0, 0]
  else
    let mid (xs : List F32) := let b := axisBounds xs; (b.1 +ᶠ b.2) *ᶠ fHalf
    let ps := chunks3 m.positions
    [mid (ps.map (·.1)), mid (ps.map (·.2.1)), mid (ps.map (·.2.2))]

/-- `generate_builtin_primitive`, /repo/src/wasm.rs:451-490 -/
def generateBuiltinPrimitive (sides : UInt32) (inside : Bool) : Res WasmMesh := do
  match ← buildBuiltinPrimitiveMesh sides inside with
  | none => throw .io
  | some (vs, ts) => pure (WasmMesh.of "primitive".toList vs (ts.map Tri.face))

end

/-- `root_dir`, /repo/src/wasm.rs:44,108 -/
def wasmRoot : Str := "/vpx".toList

/-- `extract`, /repo/src/wasm.rs:33-78, from the compound file that `vpx::from_bytes` opens; the files of the object
are those of the file system, in the order of its list -/
def extractFiles (V : Env) (E : ExpandEnv) (c : Cfb) : Res Files := do
  let t ← VPX.read V c
  match expand E .Obj wasmRoot t [] with
  | (.ok (), fs) => pure fs
  | (.error e, _) => throw e

/-- `assemble`, /repo/src/wasm.rs:80-139, up to the compound file that `vpx::to_bytes` makes bytes of -/
def assembleFiles (V : Env) (E : ExpandEnv) (files : List (Str × Bytes)) : Res Cfb := do
  let fs := files.foldl (fun (fs : Files) f => fs.insert f.1 f.2) []
  let t ← assemble E wasmRoot fs
  t.write V

end Vpin
