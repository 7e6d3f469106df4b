import Verif.Spec.GltfFile
/-
The GLB container of the glTF 2.0 standard, chapter 4.4: a header with magic word, version and length of the file, then
chunks with length, type and data; all lengths are multiples of four. Independent of the code that writes and reads it.
-/
namespace Vpin
namespace Gltf

/-- the chunks in `bs`: type and data; `fuel` is a bound on their number -/
def glbChunks : Nat → Bytes → Option (List (Nat × Bytes))
  | _, [] => some []
  | 0, _ => none
  | fuel + 1, bs =>
    let n := leNat (bs.take 4)
    if bs.length < 8 + n ∨ n % 4 ≠ 0 then none
    else (glbChunks fuel (bs.drop (8 + n))).map fun rest => (leNat ((bs.drop 4).take 4), (bs.drop 8).take n) :: rest

/-- the JSON text and the data of a GLB file: the chunks of the types `JSON` and `BIN` -/
def readContainer (bs : Bytes) : Option (Bytes × Bytes) :=
  if leNat (bs.take 4) = 0x46546C67 ∧ leNat ((bs.drop 4).take 4) = 2 ∧ leNat ((bs.drop 8).take 4) = bs.length then
    match glbChunks 2 (bs.drop 12) with
    | some [(0x4E4F534A, json), (0x004E4942, bin)] => some (json, bin)
    | _ => none
  else none

/-- the file and the data in a GLB file -/
def openGlb (parse : Bytes → Option J) (bs : Bytes) : Option (File × Bytes) := do
  let (text, bin) ← readContainer bs
  let f ← File.read (← parse text)
  match f.buffers with
  | [b] => if b.uri = none ∧ b.length ≤ bin.length ∧ bin.length < b.length + 4 then pure (f, bin.take b.length) else none
  | _ => none

def uriDigit (c : Char) : Option Nat :=
  if '0' ≤ c ∧ c ≤ '9' then some (c.toNat - 48)
  else if 'A' ≤ c ∧ c ≤ 'F' then some (c.toNat - 55)
  else if 'a' ≤ c ∧ c ≤ 'f' then some (c.toNat - 87)
  else none

/-- the name that a URI stands for: `%41` is `A`. Characters outside of ASCII are taken as they are; escapes of them
are not understood. -/
def unescape : Str → Option Str
  | [] => some []
  | '%' :: a :: b :: r => do
    let n := 16 * (← uriDigit a) + (← uriDigit b)
    if n < 128 then pure (Char.ofNat n :: (← unescape r)) else none
  | c :: r => if c = '%' then none else (unescape r).map (c :: ·)

/-- the file and the data of a `.gltf` file in a directory -/
def openGltf (parse : Bytes → Option J) (dir : Str → Option Bytes) (name : Str) : Option (File × Bytes) := do
  let f ← File.read (← parse (← dir name))
  match f.buffers with
  | [b] =>
    let bin ← dir (← unescape (← b.uri))
    if b.length ≤ bin.length then pure (f, bin.take b.length) else none
  | _ => none

/-- a directory after files were written to it: what was written last is there -/
def written (files : List (Str × Bytes)) (name : Str) : Option Bytes :=
  (files.reverse.find? fun e => e.1 == name).map (·.2)

/-- no list of the document is longer than memory can hold -/
def File.Small (f : File) : Prop :=
  ∀ n ∈ [f.lights.length, f.nodes.length, f.meshes.length, f.cameras.length, f.accessors.length, f.views.length,
    f.materials.length, f.textures.length, f.images.length, f.samplers.length], n < 18446744073709551616

end Gltf
end Vpin
