import Verif.Model.GltfDoc
/-! Helper lemmas: the JSON of a glTF file says what the file says. -/
namespace Vpin
open Gltf

theorem find_filterMap_members (l : List (Key × Option J)) (k : Key) (h : (l.map (·.1)).Nodup) :
    ((l.filterMap fun m => m.2.map fun j => (m.1, j)).find? fun m => m.1 == k).map (·.2) =
      (l.find? fun m => m.1 == k).bind (·.2) := by
  induction l with
  | nil => rfl
  | cons m rest ih =>
    obtain ⟨key, v⟩ := m
    rw [List.map_cons, List.nodup_cons] at h
    have ih := ih h.2
    by_cases hk : key = k
    · subst hk
      cases v with
      | some j => simp
      | none =>
        simp only [List.filterMap_cons, Option.map_none, List.find?_cons, beq_self_eq_true, Option.bind_some]
        rw [ih]
        have : rest.find? (fun m => m.1 == key) = none := by
          rw [List.find?_eq_none]
          intro m hm
          simp only [beq_iff_eq]
          intro he
          have := List.mem_map_of_mem (f := fun x : Key × Option J => x.1) hm
          rw [he] at this
          exact h.1 this
        rw [this]
        rfl
    · have hb : (key == k) = false := by simpa using hk
      cases v with
      | some j =>
        simp only [List.filterMap_cons, Option.map_some, List.find?_cons, hb]
        exact ih
      | none =>
        simp only [List.filterMap_cons, Option.map_none, List.find?_cons, hb]
        exact ih

theorem at_members (l : List (Key × Option J)) (k : Key) (h : (l.map (·.1)).Nodup) :
    (members l).at k = ((l.find? fun m => m.1 == k).bind (·.2)).getD .null := by
  show (((l.filterMap fun m => m.2.map fun j => (m.1, j)).find? fun m => m.1 == k).map (·.2)).getD .null = _
  rw [find_filterMap_members l k h]

theorem at_null (k : Key) : J.null.at k = .null := rfl

theorem nat_num (n : Nat) : readNat (.num n) = some n := by simp [readNat]

theorem str_str (s : Str) : readStr (.str s) = some s := rfl

theorem bool_bool (b : Bool) : readBool (.bool b) = some b := rfl

theorem number_jNum (x : Num) : readNum (jNum x) = some x := by cases x <;> rfl

theorem mapM_map_some {α : Type} {f : α → J} {read : J → Option α} : ∀ {l : List α}, (∀ a ∈ l, read (f a) = some a) →
    (l.map f).mapM read = some l
  | [], _ => rfl
  | a :: l, h => by
    rw [List.map_cons, List.mapM_cons, h a (by simp), mapM_map_some fun b hb => h b (by simp [hb])]
    rfl

theorem list_arr {α : Type} {f : α → J} {read : J → Option α} {l : List α} (h : ∀ a ∈ l, read (f a) = some a) :
    readList read (.arr (l.map f)) = some l := mapM_map_some h

theorem list_jNums (l : List Num) : readList readNum (jNums l) = some l := list_arr fun x _ => number_jNum x

theorem list_jNats (l : List Nat) : readList readNat (jNats l) = some l := list_arr fun n _ => nat_num n

theorem optional_map {α : Type} {f : α → J} {read : J → Option α} (o : Option α) (hn : ∀ a, o = some a → f a ≠ .null)
    (h : ∀ a, o = some a → read (f a) = some a) : readMaybe read ((o.map f).getD .null) = some o := by
  cases o with
  | none => rfl
  | some a =>
    show readMaybe read (f a) = _
    have hn := hn a rfl
    have h := h a rfl
    cases hf : f a <;> simp_all [readMaybe]

theorem optional_nat (o : Option Nat) : readMaybe readNat ((o.map fun (n : Nat) => J.num n).getD .null) = some o :=
  optional_map (f := fun (n : Nat) => .num n) o (by simp) fun n _ => nat_num n

theorem optional_jNums (o : Option (List Num)) : readMaybe (readList readNum) ((o.map jNums).getD .null) = some o :=
  optional_map o (by simp [jNums]) fun l _ => list_jNums l

theorem optional_jNats (o : Option (List Nat)) : readMaybe (readList readNat) ((o.map jNats).getD .null) = some o :=
  optional_map o (by simp [jNats]) fun l _ => list_jNats l

theorem optional_str (o : Option Str) : readMaybe readStr ((o.map J.str).getD .null) = some o :=
  optional_map o (by simp) fun _ _ => rfl

theorem optional_bool (o : Option Bool) : readMaybe readBool ((o.map J.bool).getD .null) = some o :=
  optional_map o (by simp) fun _ _ => rfl

theorem listOrEmpty_some {α : Type} {f : α → J} {read : J → Option α} {l : List α} (h : ∀ a ∈ l, read (f a) = some a) :
    readMaybeList read (.arr (l.map f)) = some l := by
  show ((readList read (.arr (l.map f))).map some).map (·.getD []) = _
  rw [list_arr h]
  rfl

theorem listOrEmpty_jSome {α : Type} {f : α → J} {read : J → Option α} {l : List α} (h : ∀ a ∈ l, read (f a) = some a) :
    readMaybeList read ((jSome f l).getD .null) = some l := by
  cases l with
  | nil => rfl
  | cons a l => exact listOrEmpty_some h

theorem bind_some {α β : Type} (a : α) (f : α → Option β) : (some a >>= f) = f a := rfl

theorem pure_some {α : Type} (a : α) : (pure a : Option α) = some a := rfl

/-- reads the members of a literal object -/
local macro "read_members" "[" ls:Lean.Parser.Tactic.simpLemma,* "]" : tactic =>
  `(tactic| simp (disch := (simp only [List.map_cons, List.map_nil]; decide)) only [$ls,*, at_members, List.find?,
    Nat.reduceBEq, Option.bind_some, Option.bind_none, Option.getD_some, Option.getD_none, nat_num, str_str, bool_bool,
    number_jNum, list_jNums, list_jNats, optional_nat, optional_jNums, optional_jNats, optional_str, optional_bool,
    readSingle, bind_some, pure_some, at_null])

theorem Gltf.View.read_json (v : View) : View.read v.json = some v := by
  read_members [View.read, View.json, show (J.num 0) = J.num ((0 : Nat) : Int) from rfl]

theorem Gltf.Accessor.read_json (v : Accessor) : Accessor.read v.json = some v := by
  read_members [Accessor.read, Accessor.json]

theorem Gltf.Mesh.read_json (v : Gltf.Mesh) : Mesh.read v.json = some v := by
  read_members [Mesh.read, Mesh.json]

theorem Gltf.Texture.read_json (v : Texture) : Texture.read v.json = some v := by
  read_members [Texture.read, Texture.json]

theorem Gltf.Image.read_json (v : Gltf.Image) : Image.read v.json = some v := by
  read_members [Image.read, Image.json]

theorem Gltf.Sampler.read_json (v : Sampler) : Sampler.read v.json = some v := by
  read_members [Sampler.read, Sampler.json]

theorem Gltf.Light.read_json (v : Gltf.Light) : Light.read v.json = some v := by
  read_members [Light.read, Light.json]

theorem Gltf.Camera.read_json (v : Gltf.Camera) : Camera.read v.json = some v := by
  read_members [Camera.read, Camera.json]

theorem Gltf.Buffer.read_json (v : Gltf.Buffer) : Buffer.read v.json = some v := by
  read_members [Buffer.read, Buffer.json]

theorem Gltf.Material.read_json (v : Gltf.Material) : Material.read v.json = some v := by
  have ht : ((v.texture.map fun (n : Nat) => members [(key!"index", some (.num n))]).getD .null).at key!"index" =
      (v.texture.map fun (n : Nat) => J.num n).getD .null := by
    cases v.texture with
    | none => rfl
    | some n => rfl
  have hx : readMaybe (fun e => readNum (e.at key!"transmissionFactor"))
      (((v.transmission.map fun x => members [(key!"KHR_materials_transmission",
        some (members [(key!"transmissionFactor", some (jNum x))]))]).getD .null).at
          key!"KHR_materials_transmission") = some v.transmission := by
    cases v.transmission with
    | none => rfl
    | some x =>
      show (readNum (jNum x)).map some = _
      rw [number_jNum]
      rfl
  read_members [Material.read, Material.json, ht, hx]

theorem readMaybe_extras {o : Option J} (h : o ≠ some .null) : readMaybe some (o.getD .null) = some o := by
  cases o with
  | none => rfl
  | some j => cases j <;> first | rfl | exact absurd rfl h

theorem Gltf.Node.read_json (v : Gltf.Node) (h : v.extras ≠ some .null) : Node.read v.json = some v := by
  have hl : (((nodeExtensions v.light v.visible).getD .null).at key!"KHR_lights_punctual").at key!"light" =
      (v.light.map fun (n : Nat) => J.num n).getD .null := by
    cases v.light <;> cases v.visible <;> rfl
  have hv : (((nodeExtensions v.light v.visible).getD .null).at key!"KHR_node_visibility").at key!"visible" =
      (v.visible.map J.bool).getD .null := by
    cases v.light <;> cases v.visible <;> rfl
  read_members [Node.read, Node.json, hl, hv, readMaybe_extras h]

theorem Gltf.File.read_json (f : Gltf.File) (h : ∀ n ∈ f.nodes, n.extras ≠ some .null) : File.read f.json = some f := by
  have h1 : readMaybeList readStr (.arr (f.extensionsUsed.map .str)) = some f.extensionsUsed :=
    listOrEmpty_some fun _ _ => rfl
  have h2 : readMaybeList Light.read (.arr (f.lights.map Light.json)) = some f.lights :=
    listOrEmpty_some fun l _ => l.read_json
  have h3 : readList (fun s => readList readNat (s.at key!"nodes"))
      (.arr (f.scenes.map fun l => members [(key!"nodes", some (jNats l))])) = some f.scenes :=
    list_arr (f := fun l => members [(key!"nodes", some (jNats l))]) fun l _ => list_jNats l
  have h4 : readList Node.read (.arr (f.nodes.map Node.json)) = some f.nodes := list_arr fun n hn => n.read_json (h n hn)
  have h5 : readList Mesh.read (.arr (f.meshes.map Mesh.json)) = some f.meshes := list_arr fun n _ => n.read_json
  have h6 : readMaybeList Camera.read (.arr (f.cameras.map Camera.json)) = some f.cameras :=
    listOrEmpty_some fun l _ => l.read_json
  have h7 : readList Accessor.read (.arr (f.accessors.map Accessor.json)) = some f.accessors :=
    list_arr fun n _ => n.read_json
  have h8 : readList View.read (.arr (f.views.map View.json)) = some f.views := list_arr fun n _ => n.read_json
  have h9 : readList Buffer.read (.arr (f.buffers.map Buffer.json)) = some f.buffers := list_arr fun n _ => n.read_json
  have h10 : readMaybeList Material.read ((jSome Material.json f.materials).getD .null) = some f.materials :=
    listOrEmpty_jSome fun l _ => l.read_json
  have h11 : readMaybeList Texture.read ((jSome Texture.json f.textures).getD .null) = some f.textures :=
    listOrEmpty_jSome fun l _ => l.read_json
  have h12 : readMaybeList Image.read ((jSome Image.json f.images).getD .null) = some f.images :=
    listOrEmpty_jSome fun l _ => l.read_json
  have h13 : readMaybeList Sampler.read ((jSome Sampler.json f.samplers).getD .null) = some f.samplers :=
    listOrEmpty_jSome fun l _ => l.read_json
  read_members [File.read, File.json, h1, h2, h3, h4, h5, h6, h7, h8, h9, h10, h11, h12, h13]

end Vpin
