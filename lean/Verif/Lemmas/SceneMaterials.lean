import Verif.Lemmas.Scene
import Verif.Spec.SceneMaterials
/-
The MTL file and the images of an export.
-/
namespace Vpin
open Scene

theorem imageByName_eq (images : List ImageData) (t : Str) : imageByName images t = imageOf images t := by
  unfold imageByName imageOf eqIgnoreAsciiCase
  cases t <;> simp

theorem imagePayload_eq (E : ExpandEnv) (i : ImageData) : imagePayload E i = contentOf E i := by
  unfold imagePayload contentOf
  cases i.jpeg <;> cases i.bits <;> rfl

/-- the file of a texture -/
def fileOf (s : ObjState) (t : Str) : Option Str := (s.filenames.find? (fun p => p.1 == t)).map (·.2)

/-- what is known about the images written -/
structure ImgInv (E : ExpandEnv) (images : List ImageData) (s : ObjState) : Prop where
  found : ∀ t f, fileOf s t = some f → ∃ i bs, imageOf images t = some i ∧ contentOf E i = some (.ok bs) ∧
    (f, bs) ∈ s.images ∧ ∃ suffix, f = fileName (E.sanitize i.name ++ suffix) i.ext ∧
      (suffix = [] ∨ ∃ n : Nat, suffix = "_dedup".toList ++ decimal n)
  used : s.used = (s.images.map fun p => E.U.lower p.1).reverse
  distinct : s.used.Nodup
  needed : ∀ p ∈ s.images, ∃ t, fileOf s t = some p.1

theorem imageNameLoop_ok {U : Unicode} {used : List Str} {base ext : Str} : ∀ {fuel c : Nat} {n : Str} {c' : Nat},
    imageNameLoop U used base ext fuel c = .ok (n, c') →
    U.lower n ∉ used ∧ ∃ k : Nat, n = fileName (base ++ "_dedup".toList ++ decimal k) ext := by
  intro fuel
  induction fuel with
  | zero => intro c n c' h; cases h
  | succ f ih =>
    intro c n c' h
    unfold imageNameLoop at h
    dsimp only at h
    rcases Res.ite_ok h with ⟨_, h⟩ | ⟨hn, h⟩
    · exact ih h
    · cases h
      exact ⟨by simpa using hn, c + 1, rfl⟩

theorem sanitizedImageFilename_fresh {E : ExpandEnv} {name ext n : Str} {s s' : ObjState}
    (h : sanitizedImageFilename E name ext s = .ok (n, s')) : E.U.lower n ∉ s.used ∧
      ∃ suffix, n = fileName (E.sanitize name ++ suffix) ext ∧
        (suffix = [] ∨ ∃ n : Nat, suffix = "_dedup".toList ++ decimal n) := by
  unfold sanitizedImageFilename at h
  obtain ⟨⟨n1, c⟩, h1, h⟩ := Res.unbind h
  cases h
  rcases Res.ite_ok h1 with ⟨_, h1⟩ | ⟨hn, h1⟩
  · obtain ⟨a, k, b⟩ := imageNameLoop_ok h1
    exact ⟨a, _, by rw [b, List.append_assoc], .inr ⟨k, rfl⟩⟩
  · cases h1
    exact ⟨by simpa using hn, [], by simp, .inl rfl⟩

theorem ensure_spec {E : ExpandEnv} {images : List ImageData} {t : Str} {s s' : ObjState} {r : Option Str}
    (hi : ImgInv E images s) (h : ensureImageWritten E images t s = .ok (r, s')) :
    ImgInv E images s' ∧ r = (fileOf s' t).map imagePath ∧ (fileOf s' t).isSome = hasImage E images t ∧
      (∀ t', hasImage E images t' = false ∨ (fileOf s t').isSome → fileOf s' t' = fileOf s t') ∧
      (∀ t', t' ≠ t → fileOf s' t' = fileOf s t') := by
  unfold ensureImageWritten at h
  split at h
  · rename_i p hp
    cases h
    have hf : fileOf s t = some p.2 := by simp [fileOf, hp]
    refine ⟨hi, by rw [hf]; rfl, ?_, fun _ _ => rfl, fun _ _ => rfl⟩
    obtain ⟨i, bs, h1, h2, _⟩ := hi.found _ _ hf
    simp [hf, hasImage, h1, h2]
  · rename_i hp
    have hf : fileOf s t = none := by simp [fileOf, hp]
    rw [imageByName_eq] at h
    split at h
    · rename_i hn
      cases h
      exact ⟨hi, by rw [hf]; rfl, by simp [hf, hasImage, hn], fun _ _ => rfl, fun _ _ => rfl⟩
    · rename_i i hn
      rw [imagePayload_eq] at h
      split at h
      · rename_i hc
        cases h
        exact ⟨hi, by rw [hf]; rfl, by simp [hf, hasImage, hn, hc], fun _ _ => rfl, fun _ _ => rfl⟩
      · rename_i content hc
        obtain ⟨⟨f, s1⟩, h1, h⟩ := Res.unbind h
        obtain ⟨bs, rfl, h⟩ := Res.unbind h
        cases h
        obtain ⟨_, _, _, _, e5, e6, e7⟩ := sanitizedImageFilename_spec h1
        obtain ⟨g1, suffix, g2, g3⟩ := sanitizedImageFilename_fresh h1
        have hfile : ∀ t', fileOf { s1 with images := s1.images ++ [(f, bs)], filenames := (t, f) :: s1.filenames } t' =
            if t = t' then some f else fileOf s t' := by
          intro t'
          unfold fileOf
          dsimp only
          rw [List.find?_cons]
          by_cases ht : t = t'
          · subst ht; simp
          · have hb : (t == t') = false := by simpa using ht
            rw [if_neg ht, e6]
            dsimp only
            rw [hb]
        refine ⟨⟨?_, ?_, ?_, ?_⟩, ?_, ?_, ?_, ?_⟩
        · intro t' f' hf'
          rw [hfile] at hf'
          by_cases ht : t = t'
          · subst ht
            rw [if_pos rfl] at hf'
            cases hf'
            exact ⟨i, bs, hn, hc, by simp, suffix, g2, g3⟩
          · rw [if_neg ht] at hf'
            obtain ⟨i', bs', a, b, c, d⟩ := hi.found t' f' hf'
            exact ⟨i', bs', a, b, by simp [e5, c], d⟩
        · show s1.used = _
          rw [e7, hi.used]
          simp [e5]
        · show s1.used.Nodup
          rw [e7]
          exact List.nodup_cons.mpr ⟨g1, hi.distinct⟩
        · intro p hp'
          rw [List.mem_append] at hp'
          rcases hp' with hp' | hp'
          · rw [e5] at hp'
            obtain ⟨t', ht'⟩ := hi.needed p hp'
            refine ⟨t', ?_⟩
            rw [hfile, if_neg ?_, ht']
            intro he
            subst he
            rw [hf] at ht'; cases ht'
          · simp at hp'
            subst hp'
            exact ⟨t, by rw [hfile, if_pos rfl]⟩
        · rw [hfile, if_pos rfl]; rfl
        · rw [hfile, if_pos rfl]
          simp [hasImage, hn, hc]
        · intro t' ht'
          rw [hfile, if_neg ?_]
          intro he
          subst he
          rcases ht' with ht' | ht'
          · simp [hasImage, hn, hc] at ht'
          · rw [hf] at ht'; cases ht'
        · intro t' ht'
          rw [hfile, if_neg (fun he => ht' he.symm)]

/-! ### Sections -/

/-- uses that are not repeated -/
def onceUse (E : ExpandEnv) (o : ObjExportOptions) (vpx : VPX) (u : Use) : Bool :=
  o.dedup_mtl_blocks || (o.extract_textures && u.2.any (hasImage E vpx.images))

/-- the file a section refers to -/
def mapOf (o : ObjExportOptions) (s : ObjState) (t : Option Str) : Option Str :=
  if o.extract_textures then (t.bind (fileOf s)).map imagePath else none

theorem kept_append (once : Use → Bool) : ∀ (us before : List Use) (u : Use),
    kept once before (us ++ [u]) = kept once before us ++
      if once u && (before.any (fun x => key x == key u) || us.any (fun x => key x == key u)) then [] else [u] := by
  intro us
  induction us with
  | nil =>
    intro before u
    rw [List.nil_append, List.any_nil, Bool.or_false, kept, kept]
    split <;> rfl
  | cons x us ih =>
    intro before u
    have e : ∀ b : Bool, ((x :: before).any (fun y => key y == key u) || b) =
        (before.any (fun y => key y == key u) || (key x == key u || b)) := by
      intro b
      rw [List.any_cons]
      cases (key x == key u) <;> cases (before.any fun y => key y == key u) <;> rfl
    rw [List.cons_append, kept, kept, ih, e]
    rw [List.any_cons]
    split <;> simp

theorem kept_mem {once : Use → Bool} : ∀ {us before : List Use} {u : Use}, u ∈ kept once before us → u ∈ us := by
  intro us
  induction us with
  | nil => intro before u h; cases h
  | cons x us ih =>
    intro before u h
    rw [kept] at h
    split at h
    · exact List.mem_cons_of_mem _ (ih h)
    · rcases List.mem_cons.mp h with rfl | h
      · simp
      · exact List.mem_cons_of_mem _ (ih h)

theorem kept_sublist {once : Use → Bool} : ∀ {us before : List Use}, (kept once before us).Sublist us := by
  intro us
  induction us with
  | nil => intro before; exact List.Sublist.refl _
  | cons x us ih =>
    intro before
    rw [kept]
    split
    · exact (ih).cons _
    · exact (ih).cons_cons _

theorem kept_all {once : Use → Bool} (h : ∀ u, once u = false) : ∀ (us before : List Use), kept once before us = us := by
  intro us
  induction us with
  | nil => intro _; rfl
  | cons x us ih => intro before; rw [kept, h x]; simp [ih]

theorem kept_covers {once : Use → Bool} : ∀ {us before : List Use} {u : Use}, u ∈ us →
    (∃ x ∈ kept once before us, key x = key u) ∨ ∃ x ∈ before, key x = key u := by
  intro us
  induction us with
  | nil => intro before u h; cases h
  | cons x us ih =>
    intro before u h
    rw [kept]
    by_cases hc : (once x && before.any (fun y => key y == key x)) = true
    · rw [if_pos hc]
      obtain ⟨y, hy, hk⟩ := List.any_eq_true.mp (Bool.and_eq_true_iff.mp hc).2
      have hk : key y = key x := by simpa using hk
      rcases List.mem_cons.mp h with rfl | h
      · exact .inr ⟨y, hy, hk⟩
      · rcases ih (before := x :: before) h with h | ⟨z, hz, hk'⟩
        · exact .inl h
        · rcases List.mem_cons.mp hz with rfl | hz
          · exact .inr ⟨y, hy, hk.trans hk'⟩
          · exact .inr ⟨z, hz, hk'⟩
    · rw [if_neg hc]
      rcases List.mem_cons.mp h with rfl | h
      · exact .inl ⟨_, by simp, rfl⟩
      · rcases ih (before := x :: before) h with ⟨z, hz, hk'⟩ | ⟨z, hz, hk'⟩
        · exact .inl ⟨z, by simp [hz], hk'⟩
        · rcases List.mem_cons.mp hz with rfl | hz
          · exact .inl ⟨_, by simp, hk'⟩
          · exact .inr ⟨z, hz, hk'⟩

theorem kept_distinct {once : Use → Bool} (h : ∀ u, once u = true) : ∀ (us before : List Use),
    ((kept once before us).map key).Nodup ∧ ∀ u ∈ kept once before us, ∀ x ∈ before, key x ≠ key u := by
  intro us
  induction us with
  | nil => intro before; exact ⟨by simp [kept], by simp [kept]⟩
  | cons x us ih =>
    intro before
    obtain ⟨i1, i2⟩ := ih (x :: before)
    rw [kept]
    by_cases hc : (once x && before.any (fun y => key y == key x)) = true
    · rw [if_pos hc]
      exact ⟨i1, fun u hu y hy => i2 u hu y (by simp [hy])⟩
    · rw [if_neg hc]
      refine ⟨?_, ?_⟩
      · rw [List.map_cons, List.nodup_cons]
        refine ⟨?_, i1⟩
        intro hm
        obtain ⟨u, hu, he⟩ := List.mem_map.mp hm
        exact i2 u hu x (by simp) he.symm
      · intro u hu y hy
        rcases List.mem_cons.mp hu with rfl | hu
        · intro he
          refine hc ?_
          rw [h, Bool.true_and, List.any_eq_true]
          exact ⟨y, hy, by simpa using he⟩
        · exact i2 u hu y (by simp [hy])

variable [Arith]

/-- the section of a use -/
def useSection (E : ExpandEnv) (o : ObjExportOptions) (vpx : VPX) (s : ObjState) (u : Use) : List MtlLine :=
  mtlBlock vpx.gamedata (mtlName E.sanitize o.extract_textures u.1 u.2) u.1 (mapOf o s u.2)

/-- what is known about the MTL file after some uses -/
structure MtlInv (E : ExpandEnv) (o : ObjExportOptions) (vpx : VPX) (us : List Use) (s : ObjState) : Prop where
  img : ImgInv E vpx.images s
  mtl : s.mtl = .comment "VPin table mat file".toList ::
    (kept (onceUse E o vpx) [] us).flatMap (useSection E o vpx s)
  seen : ∀ k, k ∈ s.seen ↔ ∃ u ∈ us, onceUse E o vpx u = true ∧ key u = k
  files : o.extract_textures = true → ∀ u ∈ us, ∀ t, u.2 = some t → (fileOf s t).isSome = hasImage E vpx.images t
  only : ∀ t f, fileOf s t = some f → o.extract_textures = true ∧ ∃ u ∈ us, u.2 = some t

omit [Arith] in
theorem onceUse_key {E : ExpandEnv} {o : ObjExportOptions} {vpx : VPX} {u x : Use} (h : key u = key x) :
    onceUse E o vpx u = onceUse E o vpx x := by
  obtain ⟨m, t⟩ := u
  obtain ⟨m', t'⟩ := x
  have h2 : t.getD [] = t'.getD [] := congrArg Prod.snd h
  have e : hasImage E vpx.images [] = false := rfl
  unfold onceUse
  cases t with
  | none =>
    cases t' with
    | none => rfl
    | some t' => simp at h2; subst h2; simp [e]
  | some t =>
    cases t' with
    | none => simp at h2; subst h2; simp [e]
    | some t' => simp at h2; subst h2; rfl

theorem emit_spec {E : ExpandEnv} {o : ObjExportOptions} {vpx : VPX} {m : Str} {t : Option Str} {us : List Use}
    {s s' : ObjState} {n : Str} (hi : MtlInv E o vpx us s) (h : emitMtlBlock E o vpx m t s = .ok (n, s')) :
    MtlInv E o vpx (us ++ [(m, t)]) s' := by
  unfold emitMtlBlock at h
  obtain ⟨⟨map, s1⟩, h1, h⟩ := Res.unbind h
  -- the image
  have key1 : ImgInv E vpx.images s1 ∧ map = mapOf o s1 t ∧ s1.mtl = s.mtl ∧ s1.seen = s.seen ∧
      (o.extract_textures && map.isSome) = (o.extract_textures && t.any (hasImage E vpx.images)) ∧
      (o.extract_textures = true → ∀ t', t = some t' → (fileOf s1 t').isSome = hasImage E vpx.images t') ∧
      (∀ t', hasImage E vpx.images t' = false ∨ (fileOf s t').isSome → fileOf s1 t' = fileOf s t') ∧
      (∀ t', fileOf s1 t' = fileOf s t' ∨ (o.extract_textures = true ∧ t = some t')) := by
    clear h
    cases hx : o.extract_textures with
    | false =>
      rw [hx] at h1
      have h2 : (none, s) = (map, s1) := by cases t <;> exact Except.ok.inj h1
      cases h2
      refine ⟨hi.img, by simp [mapOf, hx], rfl, rfl, rfl, fun h => (by cases h), fun _ _ => rfl, fun _ => .inl rfl⟩
    | true =>
      rw [hx] at h1
      cases t with
      | none =>
        cases h1
        refine ⟨hi.img, by simp [mapOf], rfl, rfl, rfl, fun _ _ h => (by cases h), fun _ _ => rfl, fun _ => .inl rfl⟩
      | some t0 =>
        obtain ⟨a, b, c, d, e⟩ := ensure_spec hi.img h1
        obtain ⟨_, _, f1, f2⟩ := ensureImageWritten_frame h1
        refine ⟨a, ?_, f1, f2, ?_, ?_, d, ?_⟩
        · simp [mapOf, hx, b]
        · rw [b, Option.isSome_map, c]
          rfl
        · intro _ t' ht'
          cases ht'
          exact c
        · intro t'
          by_cases ht : t' = t0
          · subst ht; exact .inr ⟨rfl, rfl⟩
          · exact .inl (e t' ht)
  obtain ⟨g1, g2, g3, g4, g5, g6, g7, g8⟩ := key1
  dsimp only at h
  rw [mtlBlockName_eq] at h
  have honce : (o.dedup_mtl_blocks || (o.extract_textures && map.isSome)) = onceUse E o vpx (m, t) := by
    unfold onceUse; rw [g5]
  rw [honce] at h
  -- sections written before stay as they are
  have hmap : ∀ u ∈ us, mapOf o s1 u.2 = mapOf o s u.2 := by
    intro u hu
    unfold mapOf
    cases hx : o.extract_textures with
    | false => rfl
    | true =>
      obtain ⟨m', t'⟩ := u
      cases t' with
      | none => rfl
      | some t' =>
        have h3 := hi.files hx _ hu t' rfl
        have h4 := g7 t' (by
          cases hh : hasImage E vpx.images t' with
          | false => exact .inl rfl
          | true => rw [hh] at h3; exact .inr h3)
        show ((some t').bind (fileOf s1)).map imagePath = ((some t').bind (fileOf s)).map imagePath
        simp [h4]
  have hold : (kept (onceUse E o vpx) [] us).flatMap (useSection E o vpx s1) =
      (kept (onceUse E o vpx) [] us).flatMap (useSection E o vpx s) := by
    rw [List.flatMap_def, List.flatMap_def]
    congr 1
    refine List.map_congr_left fun u hu => ?_
    unfold useSection
    rw [hmap u (kept_mem hu)]
  have hfiles : ∀ s2 : ObjState, s2.filenames = s1.filenames → o.extract_textures = true → ∀ u ∈ us ++ [(m, t)], ∀ t',
      u.2 = some t' → (fileOf s2 t').isSome = hasImage E vpx.images t' := by
    intro s2 he hx u hu t' ht'
    have hs2 : fileOf s2 t' = fileOf s1 t' := by unfold fileOf; rw [he]
    rw [hs2]
    rw [List.mem_append] at hu
    rcases hu with hu | hu
    · have h3 := hi.files hx u hu t' ht'
      rw [g7 t' (by
        cases hh : hasImage E vpx.images t' with
        | false => exact .inl rfl
        | true => rw [hh] at h3; exact .inr h3)]
      exact h3
    · simp at hu
      subst hu
      exact g6 hx t' ht'
  have honly : ∀ s2 : ObjState, s2.filenames = s1.filenames → ∀ t' f, fileOf s2 t' = some f →
      o.extract_textures = true ∧ ∃ u ∈ us ++ [(m, t)], u.2 = some t' := by
    intro s2 he t' f hf
    have hs2 : fileOf s2 t' = fileOf s1 t' := by unfold fileOf; rw [he]
    rw [hs2] at hf
    rcases g8 t' with h3 | ⟨h3, h4⟩
    · rw [h3] at hf
      obtain ⟨a, u, hu, hut⟩ := hi.only t' f hf
      exact ⟨a, u, by simp [hu], hut⟩
    · exact ⟨h3, (m, t), by simp, h4⟩
  have hany : (us.any (fun x => key x == key (m, t))) = true ↔ ∃ u ∈ us, key u = key (m, t) := by
    rw [List.any_eq_true]
    constructor
    · rintro ⟨x, hx, he⟩; exact ⟨x, hx, by simpa using he⟩
    · rintro ⟨x, hx, he⟩; exact ⟨x, hx, by simpa using he⟩
  have hseen : onceUse E o vpx (m, t) = true → (key (m, t) ∈ s.seen ↔ ∃ u ∈ us, key u = key (m, t)) := by
    intro ho
    rw [hi.seen]
    constructor
    · rintro ⟨u, hu, _, he⟩; exact ⟨u, hu, he⟩
    · rintro ⟨u, hu, he⟩; exact ⟨u, hu, by rw [onceUse_key he, ho], he⟩
  rcases Res.ite_ok h with ⟨hc, h⟩ | ⟨hc, h⟩
  · cases h
    obtain ⟨ho, hm⟩ := Bool.and_eq_true_iff.mp hc
    have hm : key (m, t) ∈ s.seen := by rw [g4] at hm; simpa [key] using hm
    have hus := (hseen ho).mp hm
    refine ⟨g1, ?_, ?_, hfiles _ rfl, honly _ rfl⟩
    · rw [g3, hi.mtl, kept_append, if_pos ?_, List.append_nil, hold]
      rw [ho, Bool.true_and, List.any_nil, Bool.false_or]
      exact hany.mpr hus
    · intro k
      rw [g4, hi.seen]
      constructor
      · rintro ⟨u, hu, a, b⟩; exact ⟨u, by simp [hu], a, b⟩
      · rintro ⟨u, hu, a, b⟩
        rw [List.mem_append] at hu
        rcases hu with hu | hu
        · exact ⟨u, hu, a, b⟩
        · simp at hu
          subst hu
          obtain ⟨x, hx, he⟩ := hus
          exact ⟨x, hx, by rw [onceUse_key he, ho], he.trans b⟩
  · cases h
    have hnew : ¬ (onceUse E o vpx (m, t) = true ∧ ∃ u ∈ us, key u = key (m, t)) := by
      rintro ⟨ho, hus⟩
      refine hc ?_
      rw [ho, Bool.true_and]
      have := (hseen ho).mpr hus
      rw [g4]
      simpa [key] using this
    refine ⟨⟨?_, g1.used, g1.distinct, ?_⟩, ?_, ?_, hfiles _ rfl, honly _ rfl⟩
    · exact g1.found
    · exact g1.needed
    · show s1.mtl ++ mtlBlock vpx.gamedata _ m map = .comment "VPin table mat file".toList ::
        (kept (onceUse E o vpx) [] (us ++ [(m, t)])).flatMap (useSection E o vpx s1)
      rw [g3, hi.mtl, kept_append, if_neg ?_, List.flatMap_append]
      · rw [hold, List.flatMap_cons, List.flatMap_nil, List.append_nil, List.cons_append, g2]
        rfl
      · rw [List.any_nil, Bool.false_or]
        intro hcc
        obtain ⟨ho, ha⟩ := Bool.and_eq_true_iff.mp hcc
        exact hnew ⟨ho, hany.mp ha⟩
    · intro k
      show k ∈ (if onceUse E o vpx (m, t) = true then (m, t.getD []) :: s1.seen else s1.seen) ↔ _
      cases ho : onceUse E o vpx (m, t) with
      | true =>
        rw [if_pos rfl, List.mem_cons, g4, hi.seen]
        constructor
        · rintro (rfl | ⟨u, hu, a, b⟩)
          · exact ⟨(m, t), by simp, ho, rfl⟩
          · exact ⟨u, by simp [hu], a, b⟩
        · rintro ⟨u, hu, a, b⟩
          rw [List.mem_append] at hu
          rcases hu with hu | hu
          · exact .inr ⟨u, hu, a, b⟩
          · simp at hu
            subst hu
            exact .inl b.symm
      | false =>
        rw [if_neg (by simp), g4, hi.seen]
        constructor
        · rintro ⟨u, hu, a, b⟩; exact ⟨u, by simp [hu], a, b⟩
        · rintro ⟨u, hu, a, b⟩
          rw [List.mem_append] at hu
          rcases hu with hu | hu
          · exact ⟨u, hu, a, b⟩
          · simp at hu
            subst hu
            rw [ho] at a; cases a

end Vpin
