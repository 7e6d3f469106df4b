import Verif.Model.Expanded
import Verif.Spec.ExpandedJson
import Verif.Spec.GameItemJson
import Verif.Spec.Mesh
import Verif.Spec.Obj
import Verif.Spec.Sound
import Verif.Spec.TableJson
/-
When two tables are the same for the user although their compressed data may differ, and which tables an expanded
directory can hold.
-/
namespace Vpin

/-! ### The same table -/

/-- the same image: all fields are equal but for the compressed pixels, which decompress to the same -/
structure SameImage (E : ExpandEnv) (a b : ImageData) : Prop where
  fields : { a with bits := none } = { b with bits := none }
  pixels : a.bits.map (fromLzwBlocks E.fromLzw) = b.bits.map (fromLzwBlocks E.fromLzw)

/-- the frames of the animation of a primitive, if it has one -/
def Primitive.frames (Z : Zlib) (p : Primitive) : Option (Res (List (List FrameVertex))) :=
  match p.compressed_animation_vertices_data, p.compressed_animation_vertices_len with
  | some datas, some lens => some ((datas.zip lens).mapM fun x => readFrame Z x.1 x.2)
  | _, _ => none

/-- the same item: all fields are equal, but for the compressed mesh and animation of a primitive, which decompress to
the same -/
def SameItem (E : ExpandEnv) (a b : GameItemEnum) : Prop :=
  a.withoutMesh = b.withoutMesh ∧
  ∀ p q, a = .primitive p → b = .primitive q → p.readMesh E.Z = q.readMesh E.Z ∧ p.frames E.Z = q.frames E.Z

/-- one list is like the other, element by element -/
def SameList {α : Type} (r : α → α → Prop) (l l' : List α) : Prop :=
  l.length = l'.length ∧ ∀ (i : Nat) a b, l[i]? = some a → l'[i]? = some b → r a b

/-- the same table -/
structure SameTable (E : ExpandEnv) (t t' : VPX) : Prop where
  version : t.version = t'.version
  info : t.info = t'.info
  custominfotags : t.custominfotags = t'.custominfotags
  gamedata : t.gamedata = t'.gamedata
  gameitems : SameList (SameItem E) t.gameitems t'.gameitems
  images : SameList (SameImage E) t.images t'.images
  sounds : t.sounds = t'.sounds
  fonts : t.fonts = t'.fonts
  collections : t.collections = t'.collections

/-! ### What the files can hold -/

/-- The image has one kind of data, and its extension says which: a link has none, a bitmap has as many pixels as it
says and a size a BMP file can have. -/
structure ImageData.Expandable (E : ExpandEnv) (s : ImageData) : Prop where
  json : s.JsonOk E.J.keeps
  data : (s.isLink = true ∧ s.jpeg = none ∧ s.bits = none) ∨
    (s.isLink = false ∧ ∃ jpeg, s.jpeg = some jpeg ∧ s.bits = none ∧
      eqIgnoreAsciiCase s.ext "bmp".toList = false) ∨
    (s.isLink = false ∧ s.jpeg = none ∧ eqIgnoreAsciiCase s.ext "bmp".toList = true ∧
      ∃ bits px, s.bits = some bits ∧ fromLzwBlocks E.fromLzw bits = .ok px ∧
        px.length = 4 * (s.width.toNat * s.height.toNat) ∧ E.bmp.fits s.width s.height)

/-- The mesh can be in files of that format. -/
def MeshFits (E : ExpandEnv) (fmt : MeshFormat) (name : Str) (m : Mesh) : Prop :=
  match fmt with
  | .Obj => E.obj.nameOk name ∧ (∀ f ∈ m.faces, f.Below 4294967295) ∧
      ∀ w ∈ m.vertices, w.vertex.HasNaN ∨ w.vertex.TextExact E.T
  | .Glb => (writeGlbFile E.J name m).length < 4294967296
  | .Gltf => (writeGltfFiles E.J [] name m).2.length < 18446744073709551616

/-- the numbers of the normal are numbers -/
def FrameVertex.Numeric (v : FrameVertex) : Prop := v.nx.isNaN = false ∧ v.ny.isNaN = false ∧ v.nz.isNaN = false

/-- The frame can be in a file of that format, beside the mesh. -/
def FrameFits (E : ExpandEnv) (fmt : MeshFormat) (name : Str) (m : Mesh) (frame : List FrameVertex) : Prop :=
  frame.length = m.vertices.length ∧
  (E.Z.compress (frame.flatMap FrameVertex.bytes)).length < 4294967296 ∧
  (∀ v ∈ frame, v.Numeric) ∧
  match fmt with
  | .Obj => ∀ v ∈ frame, TextExact E.T v.x ∧ TextExact E.T v.y ∧ TextExact E.T v.z.neg ∧ TextExact E.T v.nx ∧
      TextExact E.T v.ny ∧ TextExact E.T v.nz.neg
  | .Glb => (writeGlbFile E.J name ⟨replaceVertices m.vertices frame, m.faces⟩).length < 4294967296
  | .Gltf => (writeGltfFiles E.J [] name ⟨replaceVertices m.vertices frame, m.faces⟩).2.length < 18446744073709551616

/-- the name as it is in file names -/
def escapedName (U : Unicode) (name : Str) : Str := name.map fun c => if U.alnum c then c else '_'

/-- a name that is taken for that of an animation frame -/
def AnimName (U : Unicode) (name : Str) : Prop :=
  ∃ (a : Str) (k : Nat), escapedName U name = a ++ "_anim_".toList ++ decimal k

/-- The mesh and the animation of the primitive can be in files: the mesh can be read, and if there is an animation, then
there is a mesh and at least one frame. -/
structure Primitive.Expandable (E : ExpandEnv) (fmt : MeshFormat) (p : Primitive) : Prop where
  name : p.name ≠ "json".toList
  notAnim : ¬ AnimName E.U p.name
  mesh : ∃ om, p.readMesh E.Z = .ok om ∧ ∀ m, om = some m → MeshFits E fmt p.name m
  frames : p.compressed_animation_vertices_data = none ∨
    ∃ m datas lens frames, p.readMesh E.Z = .ok (some m) ∧ p.compressed_animation_vertices_data = some datas ∧
      p.compressed_animation_vertices_len = some lens ∧ datas ≠ [] ∧ lens.length = datas.length ∧
      (datas.zip lens).mapM (fun x => readFrame E.Z x.1 x.2) = .ok frames ∧
      ∀ fr ∈ frames, FrameFits E fmt p.name m fr

def GameItemEnum.Expandable (E : ExpandEnv) (fmt : MeshFormat) (g : GameItemEnum) : Prop :=
  g.JsonOk E.J.keeps ∧ ∀ p, g = .primitive p → p.Expandable E fmt

/-- The format of a WAV file is consistent; other sounds have no format. -/
def SoundData.Expandable (E : ExpandEnv) (s : SoundData) : Prop :=
  if isWav E.ext s.path then s.wave_form.Consistent else s.wave_form = WaveForm.default

/-- Numbers can be in JSON, the script was read from bytes, and the materials agree with each other. -/
structure GameData.Expandable (E : ExpandEnv) (g : GameData) : Prop where
  json : g.JsonOk E.J.keeps
  code : ∃ d, g.code = StringWithEncoding.ofBytes d
  modern : ∀ ms, g.materials = some ms → (∀ m ∈ ms, m.JsonOk E.J.keeps) ∧
    ms.mapM SaveMaterial.ofMaterial = .ok g.materials_old ∧
    g.materials_physics_old = some (ms.map SavePhysicsMaterial.ofMaterial) ∧
    g.materials_size = UInt32.ofNat ms.length
  old : g.materials = none → (∀ m ∈ g.materials_old, m.JsonOk E.J.keeps) ∧
    (∀ ps, g.materials_physics_old = some ps → ∀ p ∈ ps, p.JsonOk E.J.keeps) ∧
    g.materials_size = UInt32.ofNat g.materials_old.length
  probes : ∀ ps, g.render_probes = some ps → ∀ p ∈ ps, p.JsonOk E.J.keeps

/-- the files of images, sounds and fonts, as they are named in their directories -/
def imageFiles (E : ExpandEnv) (images : List ImageData) : List Str :=
  (images.zip (dedupNames E [] 0 (images.map (·.name)))).map fun (s, d) => s.file d

def soundFiles (E : ExpandEnv) (sounds : List SoundData) : List Str :=
  (sounds.zip (dedupNames E [] 0 (sounds.map (·.name)))).map fun (s, d) => s.file E d

def fontFiles (E : ExpandEnv) (fonts : List FontData) : List Str := fonts.map (·.file E)

/-- All parts can be in files, the names of files are names and not paths, fonts have different files, and the
counts are right. -/
structure VPX.Expandable (E : ExpandEnv) (fmt : MeshFormat) (t : VPX) : Prop where
  properties : (t.info.properties.map (·.1)).Nodup
  items : ∀ g ∈ t.gameitems, g.Expandable E fmt
  images : ∀ s ∈ t.images, s.Expandable E
  sounds : ∀ s ∈ t.sounds, s.Expandable E
  gamedata : t.gamedata.Expandable E
  imageNames : ∀ f ∈ imageFiles E t.images, '/' ∉ f
  soundNames : ∀ f ∈ soundFiles E t.sounds, '/' ∉ f
  fontNames : ∀ f ∈ fontFiles E t.fonts, '/' ∉ f
  fontsDiffer : (fontFiles E t.fonts).Nodup
  counts : t.gamedata.gameitems_size = UInt32.ofNat t.gameitems.length ∧
    t.gamedata.images_size = UInt32.ofNat t.images.length ∧
    t.gamedata.sounds_size = UInt32.ofNat t.sounds.length ∧
    t.gamedata.fonts_size = UInt32.ofNat t.fonts.length ∧
    t.gamedata.collections_size = UInt32.ofNat t.collections.length

/-- nothing is in the directory -/
def EmptyDir (root : Str) (fs : Files) : Prop := ∀ f, fs.get (root ++ '/' :: f) = none

end Vpin
