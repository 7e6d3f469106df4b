import Verif.Props.Vpx
/-
C23: editing a table in memory.
-/
namespace Vpin

/-- an edit of a table in memory -/
inductive Edit where
  | addItem (g : GameItemEnum)
  | putImage (i : ImageData)
  | script (s : Str)

/-- the table after an edit -/
def VPX.edit (s : VPX) : Edit → VPX
  | .addItem g => s.addGameItem g
  | .putImage i => (s.addOrReplaceImage i).1
  | .script t => s.setScript t

/-- the table after a sequence of edits, first one first -/
def VPX.edits (s : VPX) (es : List Edit) : VPX := es.foldl VPX.edit s

/-- the names are equal up to the case of ASCII letters -/
def SameName (a b : Str) : Prop := a.map asciiLower = b.map asciiLower

instance (a b : Str) : Decidable (SameName a b) := inferInstanceAs (Decidable (_ = _))

theorem eqIgnore_iff {a b : Str} : eqIgnoreAsciiCase a b = true ↔ SameName a b := by
  simp [eqIgnoreAsciiCase, SameName]

/-- no two images have the same name -/
def VPX.UniqueImages (s : VPX) : Prop := s.images.Pairwise fun a b => ¬ SameName a.name b.name

/-- the image with a name -/
def VPX.imageNamed (s : VPX) (n : Str) : Option ImageData := s.images.find? fun i => decide (SameName i.name n)

/-- the names of the images in order, up to the case of ASCII letters -/
def VPX.imageNames (s : VPX) : List Str := s.images.map fun i => i.name.map asciiLower

/-- what replacing the first match in a list does -/
theorem putImage_split (l : List ImageData) (n : Str) :
    (∃ a x b, l = a ++ x :: b ∧ SameName x.name n ∧ (∀ y ∈ a, ¬ SameName y.name n) ∧
      l.findIdx? (fun i => eqIgnoreAsciiCase i.name n) = some a.length) ∨
    ((∀ y ∈ l, ¬ SameName y.name n) ∧ l.findIdx? (fun i => eqIgnoreAsciiCase i.name n) = none) := by
  induction l with
  | nil => right; simp
  | cons x xs ih =>
    by_cases hx : SameName x.name n
    · left
      refine ⟨[], x, xs, rfl, hx, by simp, ?_⟩
      rw [List.findIdx?_cons, if_pos (eqIgnore_iff.2 hx)]; rfl
    · have hx' : ¬ eqIgnoreAsciiCase x.name n = true := fun h => hx (eqIgnore_iff.1 h)
      rcases ih with ⟨a, y, b, rfl, h1, h2, h3⟩ | ⟨h1, h2⟩
      · left
        refine ⟨x :: a, y, b, rfl, h1, ?_, ?_⟩
        · intro z hz
          rcases List.mem_cons.1 hz with rfl | hz
          · exact hx
          · exact h2 z hz
        · rw [List.findIdx?_cons, if_neg hx', h3]; rfl
      · right
        refine ⟨?_, ?_⟩
        · intro z hz
          rcases List.mem_cons.1 hz with rfl | hz
          · exact hx
          · exact h1 z hz
        · rw [List.findIdx?_cons, if_neg hx', h2]; rfl

/-- an image is put in the place of the first one with its name, or at the end -/
theorem VPX.putImage_cases (s : VPX) (i : ImageData) :
    (∃ a x b, s.images = a ++ x :: b ∧ SameName x.name i.name ∧ (∀ y ∈ a, ¬ SameName y.name i.name) ∧
      s.addOrReplaceImage i = ({ s with images := a ++ i :: b }, some x)) ∨
    ((∀ y ∈ s.images, ¬ SameName y.name i.name) ∧
      s.addOrReplaceImage i = ({ s with
        images := s.images ++ [i]
        gamedata := { s.gamedata with images_size := s.gamedata.images_size + 1 } }, none)) := by
  rcases putImage_split s.images i.name with ⟨a, x, b, h1, h2, h3, h4⟩ | ⟨h1, h2⟩
  · left
    refine ⟨a, x, b, h1, h2, h3, ?_⟩
    unfold VPX.addOrReplaceImage
    rw [h4]
    dsimp only
    rw [h1]
    simp
  · right
    refine ⟨h1, ?_⟩
    unfold VPX.addOrReplaceImage
    rw [h2]

/-- **C23.** After any sequence of edits of a table whose counts are right, the counts are right, as long as
they fit in 32 bits. -/
theorem C23_counts (s : VPX) (es : List Edit) (h : s.Counts)
    (hg : s.gameitems.length + es.length < 2 ^ 32) (hi : s.images.length + es.length < 2 ^ 32) :
    (s.edits es).Counts := by
  induction es generalizing s with
  | nil => exact h
  | cons e es ih =>
    simp only [List.length_cons] at hg hi
    show ((s.edit e).edits es).Counts
    cases e with
    | addItem g =>
      refine ih _ ⟨?_, h.images, h.sounds, h.fonts, h.collections⟩ ?_ ?_
      · show (UInt32.ofNat (s.gameitems ++ [g]).length).toNat = (s.gameitems ++ [g]).length
        simp only [List.length_append, List.length_singleton, UInt32.toNat_ofNat']
        exact Nat.mod_eq_of_lt (by omega)
      · simp only [VPX.edit, VPX.addGameItem, List.length_append, List.length_singleton]; omega
      · simp only [VPX.edit, VPX.addGameItem]; omega
    | putImage i =>
      rcases s.putImage_cases i with ⟨a, x, b, h1, -, -, h4⟩ | ⟨-, h2⟩
      · have hl : (a ++ i :: b).length = s.images.length := by rw [h1]; simp
        simp only [VPX.edit]
        rw [h4]
        refine ih _ ⟨h.gameitems, h.images.trans hl.symm, h.sounds, h.fonts, h.collections⟩ ?_ ?_
        · dsimp only; omega
        · show (a ++ i :: b).length + _ < _
          omega
      · simp only [VPX.edit]
        rw [h2]
        refine ih _ ⟨h.gameitems, ?_, h.sounds, h.fonts, h.collections⟩ ?_ ?_
        · show (s.gamedata.images_size + 1).toNat = (s.images ++ [i]).length
          rw [UInt32.toNat_add, h.images]
          simp only [List.length_append, List.length_singleton]
          exact Nat.mod_eq_of_lt (by simp; omega)
        · dsimp only; omega
        · simp only [List.length_append, List.length_singleton]; omega
    | script t =>
      refine ih _ ⟨h.gameitems, h.images, h.sounds, h.fonts, h.collections⟩ ?_ ?_
      · simp only [VPX.edit, VPX.setScript]; omega
      · simp only [VPX.edit, VPX.setScript]; omega

/-- **C23.** No two images have the same name after any sequence of edits, if none had before. -/
theorem C23_images_unique (s : VPX) (es : List Edit) (h : s.UniqueImages) : (s.edits es).UniqueImages := by
  induction es generalizing s with
  | nil => exact h
  | cons e es ih =>
    refine ih (s.edit e) ?_
    cases e with
    | addItem g => exact h
    | putImage i =>
      simp only [VPX.edit]
      unfold VPX.UniqueImages at *
      rcases s.putImage_cases i with ⟨a, x, b, h1, h2, -, h4⟩ | ⟨h1, h2⟩
      · rw [h4]
        rw [h1] at h
        dsimp only
        rw [List.pairwise_append] at h ⊢
        obtain ⟨p1, p2, p3⟩ := h
        rw [List.pairwise_cons] at p2 ⊢
        refine ⟨p1, ⟨?_, p2.2⟩, ?_⟩
        · intro y hy hn
          exact p2.1 y hy (h2.trans hn)
        · intro y hy z hz
          rcases List.mem_cons.1 hz with rfl | hz
          · intro hn
            exact p3 y hy x (by simp) (hn.trans h2.symm)
          · exact p3 y hy z (by simp [hz])
      · rw [h2]
        dsimp only
        rw [List.pairwise_append]
        refine ⟨h, by simp, ?_⟩
        intro y hy z hz
        simp only [List.mem_singleton] at hz
        subst hz
        exact h1 y hy
    | script t => exact h

/-- **C23.** Images keep their positions: the names in order (up to case) are those from before, followed
by new ones. -/
theorem C23_positions (s : VPX) (es : List Edit) : s.imageNames <+: (s.edits es).imageNames := by
  induction es generalizing s with
  | nil => exact List.prefix_refl _
  | cons e es ih =>
    refine List.IsPrefix.trans ?_ (ih (s.edit e))
    cases e with
    | addItem g => exact List.prefix_refl _
    | putImage i =>
      simp only [VPX.edit]
      unfold VPX.imageNames
      rcases s.putImage_cases i with ⟨a, x, b, h1, h2, -, h4⟩ | ⟨h1, h2⟩
      · rw [h4, h1]
        unfold SameName at h2
        simp [h2]
      · rw [h2]
        simp
    | script t => exact List.prefix_refl _

/-- **C23.** After putting an image, its name finds it and every other name finds what it found before; the
result tells what was replaced. -/
theorem C23_image_found (s : VPX) (i : ImageData) (n : Str) :
    (s.edit (.putImage i)).imageNamed n = (if SameName i.name n then some i else s.imageNamed n) ∧
      (s.addOrReplaceImage i).2 = s.imageNamed i.name := by
  have skip : ∀ (l : List ImageData) (m : Str), (∀ y ∈ l, ¬ SameName y.name m) →
      l.find? (fun i => decide (SameName i.name m)) = none := by
    intro l m h
    rw [List.find?_eq_none]
    simpa using h
  simp only [VPX.edit]
  unfold VPX.imageNamed
  rcases s.putImage_cases i with ⟨a, x, b, h1, h2, h3, h4⟩ | ⟨h1, h2⟩
  · rw [h4, h1]
    dsimp only
    constructor
    · by_cases hn : SameName i.name n
      · rw [if_pos hn, List.find?_append, skip a n (fun y hy h => h3 y hy (h.trans hn.symm))]
        simp [hn]
      · rw [if_neg hn, List.find?_append, List.find?_append]
        have hx : ¬ SameName x.name n := fun h => hn (h2.symm.trans h)
        simp [hn, hx]
    · rw [List.find?_append, skip a _ h3]
      simp [h2]
  · rw [h2]
    dsimp only
    constructor
    · by_cases hn : SameName i.name n
      · rw [if_pos hn, List.find?_append, skip _ n (fun y hy h => h1 y hy (h.trans hn.symm))]
        simp [hn]
      · rw [if_neg hn, List.find?_append]
        simp [hn]
    · exact (skip _ _ h1).symm

/-- **C23.** Items are appended in order and nothing else changes them. -/
theorem C23_items (s : VPX) (es : List Edit) :
    (s.edits es).gameitems = s.gameitems ++ es.filterMap (fun | .addItem g => some g | _ => none) := by
  induction es generalizing s with
  | nil => simp [VPX.edits]
  | cons e es ih =>
    show ((s.edit e).edits es).gameitems = _
    rw [ih]
    cases e with
    | addItem g => simp [VPX.edit, VPX.addGameItem]
    | putImage i =>
      rcases s.putImage_cases i with ⟨a, x, b, -, -, -, h4⟩ | ⟨-, h2⟩
      · simp [VPX.edit, h4]
      · simp [VPX.edit, h2]
    | script t => simp [VPX.edit, VPX.setScript]

/-- **C23.** The script is the last one that was set. -/
theorem C23_script (s : VPX) (es : List Edit) :
    (s.edits es).gamedata.code.string =
      ((es.filterMap (fun | .script t => some t | _ => none)).getLast?).getD s.gamedata.code.string := by
  induction es generalizing s with
  | nil => rfl
  | cons e es ih =>
    show ((s.edit e).edits es).gamedata.code.string = _
    rw [ih]
    cases e with
    | addItem g => simp [VPX.edit, VPX.addGameItem]
    | putImage i =>
      rcases s.putImage_cases i with ⟨a, x, b, -, -, -, h4⟩ | ⟨-, h2⟩
      · simp [VPX.edit, h4]
      · simp [VPX.edit, h2]
    | script t =>
      simp only [VPX.edit, VPX.setScript, GameData.setCode, List.filterMap_cons, List.getLast?_cons]
      simp

/-- **C23.** Nothing but items, images, their counts and the script is touched. -/
theorem C23_rest_untouched (s : VPX) (es : List Edit) :
    (s.edits es).custominfotags = s.custominfotags ∧ (s.edits es).info = s.info ∧
      (s.edits es).version = s.version ∧ (s.edits es).sounds = s.sounds ∧ (s.edits es).fonts = s.fonts ∧
      (s.edits es).collections = s.collections ∧
      { (s.edits es).gamedata with
        gameitems_size := s.gamedata.gameitems_size
        images_size := s.gamedata.images_size
        code := s.gamedata.code } = s.gamedata := by
  induction es generalizing s with
  | nil => exact ⟨rfl, rfl, rfl, rfl, rfl, rfl, rfl⟩
  | cons e es ih =>
    show ((s.edit e).edits es).custominfotags = _ ∧ _
    have key : ∀ t : VPX, t.custominfotags = s.custominfotags → t.info = s.info → t.version = s.version →
        t.sounds = s.sounds → t.fonts = s.fonts → t.collections = s.collections →
        { t.gamedata with
          gameitems_size := s.gamedata.gameitems_size
          images_size := s.gamedata.images_size
          code := s.gamedata.code } = s.gamedata →
        (t.edits es).custominfotags = s.custominfotags ∧ (t.edits es).info = s.info ∧
          (t.edits es).version = s.version ∧ (t.edits es).sounds = s.sounds ∧
          (t.edits es).fonts = s.fonts ∧ (t.edits es).collections = s.collections ∧
          { (t.edits es).gamedata with
            gameitems_size := s.gamedata.gameitems_size
            images_size := s.gamedata.images_size
            code := s.gamedata.code } = s.gamedata := by
      intro t e1 e2 e3 e4 e5 e6 e7
      obtain ⟨f1, f2, f3, f4, f5, f6, f7⟩ := ih t
      refine ⟨f1.trans e1, f2.trans e2, f3.trans e3, f4.trans e4, f5.trans e5, f6.trans e6, ?_⟩
      rw [← f7] at e7
      exact e7
    cases e with
    | addItem g => exact key _ rfl rfl rfl rfl rfl rfl rfl
    | putImage i =>
      rcases s.putImage_cases i with ⟨a, x, b, -, -, -, h4⟩ | ⟨-, h2⟩
      · apply key (s.edit (.putImage i)) <;> simp [VPX.edit, h4]
      · apply key (s.edit (.putImage i)) <;> simp [VPX.edit, h2]
    | script t => exact key _ rfl rfl rfl rfl rfl rfl rfl

/-- replacing one image in another case, adding one, adding an item and setting the script twice -/
def sampleEdits : List Edit :=
  [.putImage { ImageData.sample with name := ImageData.sample.name.map asciiUpper },
   .addItem (.generic 99 ⟨[], []⟩), .script "a".toList,
   .putImage { ImageData.sample with name := "new".toList }, .script "b".toList]

/-- the sample table with two images of different names -/
def VPX.sampleTwo : VPX :=
  { VPX.sample with images := [ImageData.sample, { ImageData.sampleBits with name := "other".toList }] }

example : VPX.sampleTwo.Counts ∧ VPX.sampleTwo.UniqueImages ∧
    (VPX.sampleTwo.edits sampleEdits).images.length = 3 ∧
    (VPX.sampleTwo.edits sampleEdits).gamedata.images_size = 3 ∧
    (VPX.sampleTwo.edits sampleEdits).gamedata.gameitems_size = 22 := by
  refine ⟨⟨rfl, rfl, rfl, rfl, rfl⟩, ?_, ?_, ?_, ?_⟩
  · unfold VPX.UniqueImages
    decide +kernel
  all_goals decide +kernel

end Vpin
