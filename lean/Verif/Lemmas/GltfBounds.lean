import Verif.Lemmas.GltfData
/-! Helper lemmas: the smallest and largest coordinates, in IEEE arithmetic. -/
namespace Vpin

theorem finite_parts {x : F32} (h : x.isFinite = true) : x.isNaN = false ∧ x.isInf = false := by
  unfold F32.isFinite at h
  unfold F32.isNaN F32.isInf
  have h := of_decide_eq_true h
  constructor
  · exact decide_eq_false (by omega)
  · exact beq_eq_false_iff_ne.mpr (by omega)

theorem ieeeLt_finite {a b : F32} (ha : a.isFinite = true) (hb : b.isFinite = true) :
    ieeeLt a b = decide (a.val < b.val) := by
  obtain ⟨a1, a2⟩ := finite_parts ha
  obtain ⟨b1, b2⟩ := finite_parts hb
  simp [ieeeLt, a1, a2, b1, b2]

section
variable (sin cos : F32 → F32) (pow : F32 → F32 → F32)

theorem ieee_fmin_finite {a b : F32} (ha : a.isFinite = true) (hb : b.isFinite = true) :
    (ieee sin cos pow).fmin a b = if b.val < a.val then b else a := by
  show (if a.isNaN then b else if b.isNaN then a else if ieeeLt b a then b else a) = _
  rw [ieeeLt_finite hb ha, (finite_parts ha).1, (finite_parts hb).1]
  simp

theorem ieee_fmax_finite {a b : F32} (ha : a.isFinite = true) (hb : b.isFinite = true) :
    (ieee sin cos pow).fmax a b = if a.val < b.val then b else a := by
  show (if a.isNaN then b else if b.isNaN then a else if ieeeLt a b then b else a) = _
  rw [ieeeLt_finite ha hb, (finite_parts ha).1, (finite_parts hb).1]
  simp

theorem ieee_fmin_first {b : F32} (hb : b.isFinite = true) : (ieee sin cos pow).fmin fInf b = b := by
  show (if fInf.isNaN then b else if b.isNaN then fInf else if ieeeLt b fInf then b else fInf) = _
  obtain ⟨b1, b2⟩ := finite_parts hb
  have : ieeeLt b fInf = true := by
    unfold ieeeLt
    rw [b1, b2, show fInf.isNaN = false from by decide +kernel, show fInf.isInf = true from by decide +kernel,
      show fInf.isNeg = false from by decide +kernel]
    simp
  rw [this, b1]
  simp

theorem ieee_fmax_first {b : F32} (hb : b.isFinite = true) : (ieee sin cos pow).fmax fNegInf b = b := by
  show (if fNegInf.isNaN then b else if b.isNaN then fNegInf else if ieeeLt fNegInf b then b else fNegInf) = _
  obtain ⟨b1, b2⟩ := finite_parts hb
  have : ieeeLt fNegInf b = true := by
    unfold ieeeLt
    rw [b1, b2, show fNegInf.isNaN = false from by decide +kernel, show fNegInf.isInf = true from by decide +kernel,
      show fNegInf.isNeg = true from by decide +kernel]
    simp
  rw [this, b1]
  have : fNegInf.isNaN = false := by decide +kernel
  simp [this]

theorem fold_fmin : ∀ (l : List F32) (a : F32), a.isFinite = true → (∀ x ∈ l, x.isFinite = true) →
    l.foldl (ieee sin cos pow).fmin a ∈ a :: l ∧ ∀ z ∈ a :: l, (l.foldl (ieee sin cos pow).fmin a).val ≤ z.val
  | [], a, _, _ => by simp
  | b :: l, a, ha, h => by
    have hb := h b (by simp)
    rw [List.foldl_cons, ieee_fmin_finite sin cos pow ha hb]
    have hc : ∀ c : F32, c = (if b.val < a.val then b else a) → c.isFinite = true ∧ (c = a ∨ c = b) ∧
        c.val ≤ a.val ∧ c.val ≤ b.val := by
      intro c hc
      by_cases hlt : b.val < a.val
      · rw [if_pos hlt] at hc
        subst hc
        exact ⟨hb, Or.inr rfl, by omega, by omega⟩
      · rw [if_neg hlt] at hc
        subst hc
        exact ⟨ha, Or.inl rfl, by omega, by omega⟩
    generalize (if b.val < a.val then b else a) = c at hc
    obtain ⟨c1, c2, c3, c4⟩ := hc c rfl
    obtain ⟨i1, i2⟩ := fold_fmin l c c1 (fun x hx => h x (by simp [hx]))
    constructor
    · rcases List.mem_cons.mp i1 with i1 | i1
      · rw [i1]
        rcases c2 with rfl | rfl <;> simp
      · simp [i1]
    · intro z hz
      simp only [List.mem_cons] at hz
      rcases hz with rfl | rfl | hz
      · exact Int.le_trans (i2 c (by simp)) c3
      · exact Int.le_trans (i2 c (by simp)) c4
      · exact i2 z (by simp [hz])

theorem fold_fmax : ∀ (l : List F32) (a : F32), a.isFinite = true → (∀ x ∈ l, x.isFinite = true) →
    l.foldl (ieee sin cos pow).fmax a ∈ a :: l ∧ ∀ z ∈ a :: l, z.val ≤ (l.foldl (ieee sin cos pow).fmax a).val
  | [], a, _, _ => by simp
  | b :: l, a, ha, h => by
    have hb := h b (by simp)
    rw [List.foldl_cons, ieee_fmax_finite sin cos pow ha hb]
    have hc : ∀ c : F32, c = (if a.val < b.val then b else a) → c.isFinite = true ∧ (c = a ∨ c = b) ∧
        a.val ≤ c.val ∧ b.val ≤ c.val := by
      intro c hc
      by_cases hlt : a.val < b.val
      · rw [if_pos hlt] at hc
        subst hc
        exact ⟨hb, Or.inr rfl, by omega, by omega⟩
      · rw [if_neg hlt] at hc
        subst hc
        exact ⟨ha, Or.inl rfl, by omega, by omega⟩
    generalize (if a.val < b.val then b else a) = c at hc
    obtain ⟨c1, c2, c3, c4⟩ := hc c rfl
    obtain ⟨i1, i2⟩ := fold_fmax l c c1 (fun x hx => h x (by simp [hx]))
    constructor
    · rcases List.mem_cons.mp i1 with i1 | i1
      · rw [i1]
        rcases c2 with rfl | rfl <;> simp
      · simp [i1]
    · intro z hz
      simp only [List.mem_cons] at hz
      rcases hz with rfl | rfl | hz
      · exact Int.le_trans c3 (i2 c (by simp))
      · exact Int.le_trans c4 (i2 c (by simp))
      · exact i2 z (by simp [hz])

theorem least_fold {l : List F32} (hn : l ≠ []) (h : ∀ x ∈ l, x.isFinite = true) :
    Gltf.IsLeast (num (l.foldl (ieee sin cos pow).fmin fInf)) l := by
  cases l with
  | nil => exact absurd rfl hn
  | cons a l =>
    rw [List.foldl_cons, ieee_fmin_first sin cos pow (h a (by simp))]
    obtain ⟨h1, h2⟩ := fold_fmin sin cos pow l a (h a (by simp)) (fun x hx => h x (by simp [hx]))
    exact ⟨_, by rw [num, if_pos (h _ h1)], h1, h2⟩

theorem greatest_fold {l : List F32} (hn : l ≠ []) (h : ∀ x ∈ l, x.isFinite = true) :
    Gltf.IsGreatest (num (l.foldl (ieee sin cos pow).fmax fNegInf)) l := by
  cases l with
  | nil => exact absurd rfl hn
  | cons a l =>
    rw [List.foldl_cons, ieee_fmax_first sin cos pow (h a (by simp))]
    obtain ⟨h1, h2⟩ := fold_fmax sin cos pow l a (h a (by simp)) (fun x hx => h x (by simp [hx]))
    exact ⟨_, by rw [num, if_pos (h _ h1)], h1, h2⟩

end

/-- the bounds, coordinate by coordinate -/
theorem sceneBounds_parts [Arith] (u : ExportUnits) (vs : List Vertex) :
    let ps := vs.map fun v => (toUnits u v.x, toUnits u v.z, toUnits u v.y)
    sceneBounds u vs =
      (⟨(ps.map fun p => p.1).foldl Arith.fmin fInf, (ps.map fun p => p.2.1).foldl Arith.fmin fInf,
        (ps.map fun p => p.2.2).foldl Arith.fmin fInf⟩,
       ⟨(ps.map fun p => p.1).foldl Arith.fmax fNegInf, (ps.map fun p => p.2.1).foldl Arith.fmax fNegInf,
        (ps.map fun p => p.2.2).foldl Arith.fmax fNegInf⟩) := by
  unfold sceneBounds
  generalize fInf = a
  generalize fNegInf = b
  show vs.foldl _ ((⟨a, a, a⟩ : Vec3), (⟨b, b, b⟩ : Vec3)) = _
  have : ∀ (vs : List Vertex) (a1 a2 a3 b1 b2 b3 : F32),
      let ps := vs.map fun v => (toUnits u v.x, toUnits u v.z, toUnits u v.y)
      vs.foldl (fun (b : Vec3 × Vec3) v =>
        let p := gltfPoint u v.x v.y v.z
        ((⟨Arith.fmin b.1.x p.x, Arith.fmin b.1.y p.y, Arith.fmin b.1.z p.z⟩ : Vec3),
         (⟨Arith.fmax b.2.x p.x, Arith.fmax b.2.y p.y, Arith.fmax b.2.z p.z⟩ : Vec3)))
        ((⟨a1, a2, a3⟩ : Vec3), (⟨b1, b2, b3⟩ : Vec3)) =
      (⟨(ps.map fun p => p.1).foldl Arith.fmin a1, (ps.map fun p => p.2.1).foldl Arith.fmin a2,
        (ps.map fun p => p.2.2).foldl Arith.fmin a3⟩,
       ⟨(ps.map fun p => p.1).foldl Arith.fmax b1, (ps.map fun p => p.2.1).foldl Arith.fmax b2,
        (ps.map fun p => p.2.2).foldl Arith.fmax b3⟩) := by
    intro vs
    induction vs with
    | nil => intros; rfl
    | cons v vs ih =>
      intro a1 a2 a3 b1 b2 b3
      exact ih _ _ _ _ _ _
  exact this vs a a a b b b

end Vpin
