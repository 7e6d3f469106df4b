import Verif.Spec.Scene
/-
What the MTL file and the images written by the OBJ export should be.
-/
namespace Vpin.Scene

open Vpin

/-- the sections of an MTL file: the name behind `newmtl` and the lines up to the next one; first the lines before the
first section -/
def sections : List MtlLine → List MtlLine × List (Str × List MtlLine)
  | [] => ([], [])
  | .newmtl n :: rest =>
    let r := sections rest
    ([], (n, r.1) :: r.2)
  | l :: rest =>
    let r := sections rest
    (l :: r.1, r.2)

/-- the materials of an MTL file -/
def materials (ls : List MtlLine) : List (Str × List MtlLine) := (sections ls).2

/-- a material and a texture, as a shape uses them -/
abbrev Use := Str × Option Str

/-- the materials and textures used by shapes, in their order -/
def uses (shapes : List Shape) : List Use := shapes.filterMap fun b => b.material.map fun m => (m, b.texture)

/-- a texture without a name is none -/
def key (u : Use) : Str × Str := (u.1, u.2.getD [])

/-- the image a texture stands for: the first one of that name, whatever the case of its ASCII letters -/
def imageOf (images : List ImageData) (t : Str) : Option ImageData :=
  if t = [] then none else images.find? fun i => i.name.map asciiLower == t.map asciiLower

/-- the content of the file of an image: what is stored, or the bitmap as a BMP file -/
def contentOf (E : ExpandEnv) (i : ImageData) : Option (Res Bytes) :=
  match i.jpeg, i.bits with
  | some j, _ => some (.ok j.data)
  | none, some bits => some (bmpFile E bits i.width i.height)
  | none, none => none

/-- the texture has an image with content -/
def hasImage (E : ExpandEnv) (images : List ImageData) (t : Str) : Bool :=
  ((imageOf images t).bind (contentOf E)).isSome

/-- the colours of a material, as the exporter takes them -/
structure Look where
  diffuse : Color
  specular : Color
  dissolve : F32
  deriving DecidableEq, Repr

/-- the first material of that name, whatever the case of its ASCII letters: among those stored since 10.8, and then
among the older ones. The highlights of a metal have its own colour. -/
def lookOf (g : GameData) (name : Str) : Option Look :=
  if name = [] then none
  else
    match (g.materials.getD []).find? fun m => m.name.map asciiLower == name.map asciiLower with
    | some m => some ⟨m.base_color, if m.type_ = .Metal then m.base_color else m.glossy_color,
        if m.opacity_active then m.opacity else f32One⟩
    | none =>
      match g.materials_old.find? fun m => m.name.map asciiLower == name.map asciiLower with
      | some m => some ⟨m.base_color, if m.is_metal then m.base_color else m.glossy_color,
          if m.opacity_active_edge_alpha.toNat % 2 = 1 then m.opacity else f32One⟩
      | none => none

/-- the lines behind `newmtl`: for a material that is not in the table white without highlights -/
def lookLines [Arith] (l : Option Look) (map : Option Str) : List MtlLine :=
  let part (c : UInt8) : F32 := Arith.div (Arith.ofNat c.toNat) 0x437f0000
  [.ns 0x40fafafa, .ka 0 0 0] ++
  (match l with
   | some l =>
     [.kd (part l.diffuse.r) (part l.diffuse.g) (part l.diffuse.b),
      .ks (part l.specular.r) (part l.specular.g) (part l.specular.b), .ni fOneHalf, .d l.dissolve]
   | none => [.kd f32One f32One f32One, .ks 0 0 0, .ni fOneHalf, .d f32One]) ++
  [.illum 5] ++
  match map with
  | some p => [.mapKd p, .mapKa p]
  | none => []

/-- the uses that get a section of their own: those not to be repeated (`once`) only if the same material and texture
did not come before -/
def kept (once : Use → Bool) : List Use → List Use → List Use
  | _, [] => []
  | before, u :: rest =>
    if once u && before.any (fun x => key x == key u) then kept once (u :: before) rest
    else u :: kept once (u :: before) rest

/-- a use gets a section once only: if that is asked for, and whenever its texture comes with an image -/
def onceOnly (E : ExpandEnv) (o : ObjExportOptions) (images : List ImageData) (u : Use) : Bool :=
  o.dedup_mtl_blocks || (o.extract_textures && u.2.any (hasImage E images))

/-- the section expected of a use; `file` gives the files of the textures -/
def sectionOf [Arith] (sanitize : Str → Str) (o : ObjExportOptions) (g : GameData) (file : Str → Option Str) (u : Use) :
    Str × List MtlLine :=
  (mtlName sanitize o.extract_textures u.1 u.2,
    lookLines (lookOf g u.1) (if o.extract_textures then (u.2.bind file).map ("images/".toList ++ ·) else none))

/-- what is expected of the files of the textures -/
structure TextureFiles (E : ExpandEnv) (o : ObjExportOptions) (images : List ImageData) (us : List Use)
    (files : List (Str × Bytes)) (file : Str → Option Str) : Prop where
  /-- every texture that is used and has an image has a file -/
  complete : o.extract_textures = true → ∀ u ∈ us, ∀ t, u.2 = some t → hasImage E images t = true →
    ∃ f, file t = some f
  /-- the file of a texture has the content of its image; its name is that of the image with the extension of its
  path, and maybe a number -/
  content : ∀ t f, file t = some f → ∃ i bs suffix, imageOf images t = some i ∧ contentOf E i = some (.ok bs) ∧
    (f, bs) ∈ files ∧ f = fileName (E.sanitize i.name ++ suffix) i.ext ∧
      (suffix = [] ∨ ∃ n : Nat, suffix = "_dedup".toList ++ decimal n)
  /-- no other files -/
  needed : ∀ p ∈ files, o.extract_textures = true ∧ ∃ u ∈ us, ∃ t, u.2 = some t ∧ file t = some p.1
  /-- no two of these files have the same name, even if the case of letters does not matter -/
  distinct : (files.map fun p => E.U.lower p.1).Nodup

end Vpin.Scene
