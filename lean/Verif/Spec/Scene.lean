import Verif.Model.ObjExport
/-
What the files written by the OBJ export say, by the rules of OBJ and MTL files:

* positions, texture coordinates and normals are numbered from 1 through the whole file, whatever object they are
  written under;
* a face belongs to the object, the material and the smoothing group last named before it.
-/
namespace Vpin.Scene

open Vpin

/-- what a corner of a face refers to -/
structure Corner where
  position : F32 × F32 × F32
  texcoord : F32 × F32
  normal : F32 × F32 × F32
  deriving DecidableEq, Repr

/-- a triangle; a corner is `none` if it refers to something that is not in the file -/
structure Triangle where
  corners : List (Option Corner)
  /-- the name behind the last `usemtl` -/
  material : Option Str
  /-- an `s 1` came before -/
  smooth : Bool
  deriving DecidableEq, Repr

/-- an object: its name and its triangles -/
structure Object where
  name : Str
  triangles : List Triangle
  deriving DecidableEq, Repr

/-- all positions of a file -/
def positions (ls : List SceneLine) : List (F32 × F32 × F32) :=
  ls.filterMap fun
    | .v x y z => some (x, y, z)
    | _ => none

/-- all texture coordinates of a file -/
def texcoords (ls : List SceneLine) : List (F32 × F32) :=
  ls.filterMap fun
    | .vt u v => some (u, v)
    | _ => none

/-- all normals of a file -/
def normals (ls : List SceneLine) : List (F32 × F32 × F32) :=
  ls.filterMap fun
    | .vn x y z => some (x, y, z)
    | _ => none

/-- number `n` of a list, counted from 1 -/
def nth {α : Type} (l : List α) (n : Nat) : Option α := if n = 0 then none else l[n - 1]?

/-- what the corner `a/b/c` refers to -/
def resolve (P : List (F32 × F32 × F32)) (T : List (F32 × F32)) (N : List (F32 × F32 × F32)) (c : Nat × Nat × Nat) :
    Option Corner :=
  match nth P c.1, nth T c.2.1, nth N c.2.2 with
  | some p, some t, some n => some ⟨p, t, n⟩
  | _, _, _ => none

/-- the triangles before the next object, and the objects from there on -/
def split (P : List (F32 × F32 × F32)) (T : List (F32 × F32)) (N : List (F32 × F32 × F32)) :
    Option Str → Bool → List SceneLine → List Triangle × List Object
  | _, _, [] => ([], [])
  | m, s, .object n :: rest =>
    let r := split P T N m s rest
    ([], ⟨n, r.1⟩ :: r.2)
  | _, s, .usemtl n :: rest => split P T N (some n) s rest
  | m, _, .smooth :: rest => split P T N m true rest
  | m, s, .f a b c :: rest =>
    let r := split P T N m s rest
    (⟨[a, b, c].map (resolve P T N), m, s⟩ :: r.1, r.2)
  | m, s, _ :: rest => split P T N m s rest

/-- the objects of an OBJ file -/
def objects (ls : List SceneLine) : List Object :=
  (split (positions ls) (texcoords ls) (normals ls) none false ls).2

/-- the triangles of an OBJ file that belong to no object -/
def loose (ls : List SceneLine) : List Triangle :=
  (split (positions ls) (texcoords ls) (normals ls) none false ls).1

/-! ### What is expected -/

/-- something to be shown: a mesh with its name, how it is moved, its material (none: as before) and its texture -/
abbrev Shape := Block

/-- a shape with at least a vertex and a face -/
def solid (b : Shape) : Bool := !b.vertices.isEmpty && !b.faces.isEmpty

/-- the corners of the faces are vertices of the shape -/
def CornersInside (b : Shape) : Prop :=
  ∀ f ∈ b.faces, ∀ i ∈ [f.i0, f.i1, f.i2], 0 ≤ i ∧ i < b.vertices.length

/-- the vertex as it should be written: moved, scaled to the unit and mirrored at the plane z = 0; the texture
coordinate counted from the lower edge; what is not a number as 0 -/
def placed [Arith] (scale : F32) (t : Vec3) (v : Vertex) : Corner where
  position := (Arith.mul (Arith.add v.x t.x) scale, Arith.mul (Arith.add v.y t.y) scale,
    (Arith.mul (Arith.add v.z t.z) scale).neg)
  texcoord := (if v.tu.isNaN then 0 else v.tu, if v.tv.isNaN then 0 else Arith.sub f32One v.tv)
  normal := (if v.nx.isNaN then 0 else v.nx, if v.ny.isNaN then 0 else v.ny, if v.nz.isNaN then 0 else v.nz.neg)

/-- the name a material and a texture go by in the files: the spaces of the material are left out; with textures
the name of the texture follows -/
def mtlName (sanitize : Str → Str) (textures : Bool) (material : Str) (texture : Option Str) : Str :=
  material.filter (· != ' ') ++
    if textures then
      match texture with
      | some (c :: cs) => "__".toList ++ sanitize (c :: cs)
      | _ => []
    else []

/-- the objects expected of shapes, with the material and the smoothing group in force before them. Mirroring turns the
triangles over; so their corners come in reverse. -/
def expected [Arith] (sanitize : Str → Str) (o : ObjExportOptions) : Option Str → Bool → List Shape → List Object
  | _, _, [] => []
  | m, s, b :: rest =>
    let m' := match b.material with
      | some x => some (mtlName sanitize o.extract_textures x b.texture)
      | none => m
    let s' := s || b.smoothing
    ⟨b.name, b.faces.map fun f =>
      ⟨[f.i2, f.i1, f.i0].map fun i => (b.vertices[i.toNat]?).map (placed o.units.scale b.translation), m', s'⟩⟩ ::
        expected sanitize o m' s' rest

end Vpin.Scene
