import Verif.Model.Json
import Verif.Model.Mesh
import Verif.Model.Arith
/-
What a glTF 2.0 file says, read from its JSON and its binary data by the rules of the glTF standard
(https://registry.khronos.org/glTF/specs/2.0/glTF-2.0.html and the extensions KHR_lights_punctual,
KHR_materials_transmission, KHR_node_visibility), and what makes it a sound file. Independent of the exporter. Only the
members that the exporter may write are read; a mesh with several primitives, accessors with an offset and data in
several buffers are not understood here.
-/
namespace Vpin
namespace Gltf

/-- a number: `none` is `null`, which stands for what JSON cannot write -/
abbrev Num := Option F32

structure View where
  offset : Nat
  length : Nat
  target : Option Nat
  deriving DecidableEq, Repr

structure Accessor where
  view : Nat
  component : Nat
  count : Nat
  type : Str
  min : Option (List Num)
  max : Option (List Num)
  deriving DecidableEq, Repr

/-- a mesh with one primitive -/
structure Mesh where
  name : Str
  position : Nat
  normal : Nat
  texcoord : Nat
  indices : Nat
  mode : Nat
  material : Option Nat
  deriving DecidableEq, Repr

structure Node where
  name : Str
  mesh : Option Nat
  light : Option Nat
  camera : Option Nat
  children : Option (List Nat)
  translation : Option (List Num)
  rotation : Option (List Num)
  scale : Option (List Num)
  visible : Option Bool
  extras : Option J

structure Material where
  name : Str
  color : Option (List Num)
  texture : Option Nat
  metallic : Num
  roughness : Num
  alphaMode : Option Str
  doubleSided : Option Bool
  transmission : Option Num
  deriving DecidableEq, Repr

structure Texture where
  sampler : Nat
  source : Nat
  name : Str
  deriving DecidableEq, Repr

structure Image where
  view : Nat
  mime : Str
  name : Str
  deriving DecidableEq, Repr

structure Sampler where
  magFilter : Nat
  minFilter : Nat
  wrapS : Nat
  wrapT : Nat
  deriving DecidableEq, Repr

structure Light where
  name : Str
  type : Str
  color : List Num
  intensity : Num
  range : Num
  deriving DecidableEq, Repr

structure Camera where
  name : Str
  type : Str
  yfov : Num
  znear : Num
  zfar : Num
  deriving DecidableEq, Repr

structure Buffer where
  length : Nat
  uri : Option Str
  deriving DecidableEq, Repr

structure File where
  version : Str
  extensionsUsed : List Str
  lights : List Light
  scene : Nat
  scenes : List (List Nat)
  nodes : List Node
  meshes : List Mesh
  cameras : List Camera
  accessors : List Accessor
  views : List View
  buffers : List Buffer
  materials : List Material
  textures : List Texture
  images : List Image
  samplers : List Sampler

/-! ### Reading the JSON -/

/-- an integer that is not negative -/
def readNat : J → Option Nat
  | .num n => if 0 ≤ n then some n.toNat else none
  | _ => none

def readStr : J → Option Str
  | .str s => some s
  | _ => none

def readBool : J → Option Bool
  | .bool b => some b
  | _ => none

def readNum : J → Option Num
  | .f32 x => some (some x)
  | .null => some none
  | _ => none

def readList {α : Type} (read : J → Option α) : J → Option (List α)
  | .arr l => l.mapM read
  | _ => none

/-- a member that may be missing -/
def readMaybe {α : Type} (read : J → Option α) : J → Option (Option α)
  | .null => some none
  | j => (read j).map some

/-- a list that is empty if the member is missing -/
def readMaybeList {α : Type} (read : J → Option α) (j : J) : Option (List α) := (readMaybe (readList read) j).map (·.getD [])

/-- one object, in an array of length one -/
def readSingle : J → Option J
  | .arr [j] => some j
  | _ => none

def View.read (j : J) : Option View := do
  let 0 ← readNat (j.at key!"buffer") | none
  pure ⟨← readNat (j.at key!"byteOffset"), ← readNat (j.at key!"byteLength"), ← readMaybe readNat (j.at key!"target")⟩

def Accessor.read (j : J) : Option Accessor := do
  pure ⟨← readNat (j.at key!"bufferView"), ← readNat (j.at key!"componentType"), ← readNat (j.at key!"count"),
    ← readStr (j.at key!"type"), ← readMaybe (readList readNum) (j.at key!"min"), ← readMaybe (readList readNum) (j.at key!"max")⟩

def Mesh.read (j : J) : Option Mesh := do
  let p ← readSingle (j.at key!"primitives")
  let a := p.at key!"attributes"
  pure ⟨← readStr (j.at key!"name"), ← readNat (a.at key!"POSITION"), ← readNat (a.at key!"NORMAL"), ← readNat (a.at key!"TEXCOORD_0"),
    ← readNat (p.at key!"indices"), ← readNat (p.at key!"mode"), ← readMaybe readNat (p.at key!"material")⟩

def Node.read (j : J) : Option Node := do
  let e := j.at key!"extensions"
  pure ⟨← readStr (j.at key!"name"), ← readMaybe readNat (j.at key!"mesh"),
    ← readMaybe readNat ((e.at key!"KHR_lights_punctual").at key!"light"), ← readMaybe readNat (j.at key!"camera"),
    ← readMaybe (readList readNat) (j.at key!"children"), ← readMaybe (readList readNum) (j.at key!"translation"),
    ← readMaybe (readList readNum) (j.at key!"rotation"), ← readMaybe (readList readNum) (j.at key!"scale"),
    ← readMaybe readBool ((e.at key!"KHR_node_visibility").at key!"visible"), ← readMaybe some (j.at key!"extras")⟩

def Material.read (j : J) : Option Material := do
  let p := j.at key!"pbrMetallicRoughness"
  pure ⟨← readStr (j.at key!"name"), ← readMaybe (readList readNum) (p.at key!"baseColorFactor"),
    ← readMaybe readNat ((p.at key!"baseColorTexture").at key!"index"), ← readNum (p.at key!"metallicFactor"),
    ← readNum (p.at key!"roughnessFactor"), ← readMaybe readStr (j.at key!"alphaMode"),
    ← readMaybe readBool (j.at key!"doubleSided"),
    ← readMaybe (fun e => readNum (e.at key!"transmissionFactor"))
      ((j.at key!"extensions").at key!"KHR_materials_transmission")⟩

def Texture.read (j : J) : Option Texture := do
  pure ⟨← readNat (j.at key!"sampler"), ← readNat (j.at key!"source"), ← readStr (j.at key!"name")⟩

def Image.read (j : J) : Option Image := do
  pure ⟨← readNat (j.at key!"bufferView"), ← readStr (j.at key!"mimeType"), ← readStr (j.at key!"name")⟩

def Sampler.read (j : J) : Option Sampler := do
  pure ⟨← readNat (j.at key!"magFilter"), ← readNat (j.at key!"minFilter"), ← readNat (j.at key!"wrapS"), ← readNat (j.at key!"wrapT")⟩

def Light.read (j : J) : Option Light := do
  pure ⟨← readStr (j.at key!"name"), ← readStr (j.at key!"type"), ← readList readNum (j.at key!"color"),
    ← readNum (j.at key!"intensity"), ← readNum (j.at key!"range")⟩

def Camera.read (j : J) : Option Camera := do
  let p := j.at key!"perspective"
  pure ⟨← readStr (j.at key!"name"), ← readStr (j.at key!"type"), ← readNum (p.at key!"yfov"), ← readNum (p.at key!"znear"),
    ← readNum (p.at key!"zfar")⟩

def Buffer.read (j : J) : Option Buffer := do
  pure ⟨← readNat (j.at key!"byteLength"), ← readMaybe readStr (j.at key!"uri")⟩

/-- the file that the JSON describes -/
def File.read (j : J) : Option File := do
  pure ⟨← readStr ((j.at key!"asset").at key!"version"),
    ← readMaybeList readStr (j.at key!"extensionsUsed"),
    ← readMaybeList Light.read (((j.at key!"extensions").at key!"KHR_lights_punctual").at key!"lights"),
    ← readNat (j.at key!"scene"),
    ← readList (fun s => readList readNat (s.at key!"nodes")) (j.at key!"scenes"),
    ← readList Node.read (j.at key!"nodes"),
    ← readList Mesh.read (j.at key!"meshes"),
    ← readMaybeList Camera.read (j.at key!"cameras"),
    ← readList Accessor.read (j.at key!"accessors"),
    ← readList View.read (j.at key!"bufferViews"),
    ← readList Buffer.read (j.at key!"buffers"),
    ← readMaybeList Material.read (j.at key!"materials"),
    ← readMaybeList Texture.read (j.at key!"textures"),
    ← readMaybeList Image.read (j.at key!"images"),
    ← readMaybeList Sampler.read (j.at key!"samplers")⟩

/-! ### Sound files -/

/-- bytes of a component -/
def componentBytes : Nat → Option Nat
  | 5123 => some 2
  | 5125 => some 4
  | 5126 => some 4
  | _ => none

/-- components of an element -/
def components (type : Str) : Option Nat :=
  if type = "SCALAR".toList then some 1
  else if type = "VEC2".toList then some 2
  else if type = "VEC3".toList then some 3
  else none

/-- An accessor and its view fit: the elements fill the view. -/
def Fills (a : Accessor) (v : View) : Prop :=
  ∃ b c, componentBytes a.component = some b ∧ components a.type = some c ∧ v.length = a.count * (b * c)

/-- The accessors of a mesh: as many normals and texture coordinates as positions, corners in threes. -/
structure Mesh.Sound (f : File) (m : Mesh) : Prop where
  triangles : m.mode = 4
  position : ∃ p, f.accessors[m.position]? = some p ∧ p.component = 5126 ∧ p.type = "VEC3".toList ∧
    p.min.isSome ∧ p.max.isSome
  normal : ∃ p n, f.accessors[m.position]? = some p ∧ f.accessors[m.normal]? = some n ∧ n.component = 5126 ∧
    n.type = "VEC3".toList ∧ n.count = p.count
  texcoord : ∃ p t, f.accessors[m.position]? = some p ∧ f.accessors[m.texcoord]? = some t ∧ t.component = 5126 ∧
    t.type = "VEC2".toList ∧ t.count = p.count
  indices : ∃ i, f.accessors[m.indices]? = some i ∧ (i.component = 5123 ∨ i.component = 5125) ∧
    i.type = "SCALAR".toList ∧ i.count % 3 = 0
  material : ∀ k, m.material = some k → k < f.materials.length

/-- Everything that the parts of a file refer to is there, and fits. -/
structure File.Sound (f : File) (bin : Bytes) : Prop where
  version : f.version = "2.0".toList
  buffer : ∃ uri, f.buffers = [⟨bin.length, uri⟩]
  /-- the views follow one another in the data -/
  views : ∀ v ∈ f.views, v.offset + v.length ≤ bin.length
  ordered : f.views.Pairwise fun v w => v.offset + v.length ≤ w.offset
  accessors : ∀ a ∈ f.accessors, ∃ v, f.views[a.view]? = some v ∧ Fills a v
  meshes : ∀ m ∈ f.meshes, m.Sound f
  /-- no part of the data is shared by images and accessors -/
  views_used : (f.images.map (·.view) ++ f.accessors.map (·.view)).Perm (List.range f.views.length)
  materials : ∀ m ∈ f.materials, ∀ t, m.texture = some t → t < f.textures.length
  textures : ∀ t ∈ f.textures, t.sampler < f.samplers.length ∧ t.source < f.images.length
  node_mesh : ∀ n ∈ f.nodes, ∀ k, n.mesh = some k → k < f.meshes.length
  node_light : ∀ n ∈ f.nodes, ∀ k, n.light = some k → k < f.lights.length
  node_camera : ∀ n ∈ f.nodes, ∀ k, n.camera = some k → k < f.cameras.length
  /-- the extensions in use are declared, and no others -/
  extensions : ∀ e, e ∈ f.extensionsUsed ↔
    (e = "KHR_lights_punctual".toList ∧ f.lights ≠ []) ∨
    (e = "KHR_materials_transmission".toList ∧ ∃ m ∈ f.materials, m.transmission.isSome) ∨
    (e = "KHR_node_visibility".toList ∧ ∃ n ∈ f.nodes, n.visible.isSome)
  extensions_once : f.extensionsUsed.Nodup

/-- the children of node `i` -/
def File.childrenOf (f : File) (i : Nat) : List Nat := (f.nodes[i]?.bind (·.children)).getD []

/-- node `j` is in the part of the scene that hangs on node `i` -/
inductive File.Under (f : File) (i : Nat) : Nat → Prop where
  | here : f.Under i i
  | child (j k : Nat) (h : f.Under i j) (hk : k ∈ f.childrenOf j) : f.Under i k

/-- The scene is a tree: it has one root, the children of the nodes are, together with the root, all nodes, each once,
and every node hangs on the root. A list of children is not empty. Only leaves are moved, so that the transformation of
a leaf is its place in the scene. -/
structure File.Tree (f : File) (root : Nat) : Prop where
  scene : f.scenes[f.scene]? = some [root]
  once : (root :: (List.range f.nodes.length).flatMap f.childrenOf).Perm (List.range f.nodes.length)
  under : ∀ i < f.nodes.length, f.Under root i
  nonempty : ∀ n ∈ f.nodes, n.children ≠ some []
  still : ∀ n ∈ f.nodes, n.children.isSome → n.translation = none ∧ n.rotation = none ∧ n.scale = none

/-! ### Reading the data -/

/-- the bytes of a view -/
def View.bytes (v : View) (bin : Bytes) : Bytes := (bin.drop v.offset).take v.length

/-- component `k` of the data of a float accessor -/
def floatAt (bs : Bytes) (k : Nat) : F32 := ofLe32 ((bs.drop (4 * k)).take 4)

/-- component `k` of the data of an index accessor -/
def indexAt (component : Nat) (bs : Bytes) (k : Nat) : Nat :=
  if component = 5125 then leNat ((bs.drop (4 * k)).take 4) else leNat ((bs.drop (2 * k)).take 2)

/-- the bytes and the number of elements of accessor `i` -/
def File.data (f : File) (bin : Bytes) (i : Nat) : Option (Accessor × Bytes) := do
  let a ← f.accessors[i]?
  let v ← f.views[a.view]?
  pure (a, v.bytes bin)

/-- the triples of floats of accessor `i` -/
def File.vec3s (f : File) (bin : Bytes) (i : Nat) : Option (List (F32 × F32 × F32)) :=
  (f.data bin i).map fun d => (List.range d.1.count).map fun k =>
    (floatAt d.2 (3 * k), floatAt d.2 (3 * k + 1), floatAt d.2 (3 * k + 2))

/-- the pairs of floats of accessor `i` -/
def File.vec2s (f : File) (bin : Bytes) (i : Nat) : Option (List (F32 × F32)) :=
  (f.data bin i).map fun d => (List.range d.1.count).map fun k => (floatAt d.2 (2 * k), floatAt d.2 (2 * k + 1))

/-- the triangles of accessor `i` -/
def File.triangles (f : File) (bin : Bytes) (i : Nat) : Option (List (Nat × Nat × Nat)) :=
  (f.data bin i).map fun d => (List.range (d.1.count / 3)).map fun k =>
    (indexAt d.1.component d.2 (3 * k), indexAt d.1.component d.2 (3 * k + 1), indexAt d.1.component d.2 (3 * k + 2))

/-- the bytes of the image file of texture `t` -/
def File.textureBytes (f : File) (bin : Bytes) (t : Nat) : Option Bytes := do
  let t ← f.textures[t]?
  let i ← f.images[t.source]?
  let v ← f.views[i.view]?
  pure (v.bytes bin)

/-- `x` is one of the numbers, and the smallest by value -/
def IsLeast (x : Num) (l : List F32) : Prop := ∃ y, x = some y ∧ y ∈ l ∧ ∀ z ∈ l, y.val ≤ z.val

/-- `x` is one of the numbers, and the largest by value -/
def IsGreatest (x : Num) (l : List F32) : Prop := ∃ y, x = some y ∧ y ∈ l ∧ ∀ z ∈ l, z.val ≤ y.val

/-- glTF requires that the data of an accessor starts at a multiple of the size of its components -/
def File.Aligned (f : File) : Prop :=
  ∀ a ∈ f.accessors, ∀ v, f.views[a.view]? = some v → ∀ b, componentBytes a.component = some b → v.offset % b = 0

end Gltf
end Vpin
