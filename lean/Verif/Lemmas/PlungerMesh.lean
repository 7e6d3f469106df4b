import Verif.Lemmas.ItemMesh
import Verif.Spec.PlungerShape
/-
What the surfaces of revolution and the spring of a plunger are made of, vertex by vertex and triangle by triangle.
-/
namespace Vpin

section
variable [Arith]
open Arith

/-- a ring of 16 points with its normals -/
def Ring16 (r : List (V3 F32) × List (V3 F32) × F32) : Prop := r.1.length = 16 ∧ r.2.1.length = 16

omit [Arith] in
theorem ringFaces_length (base : UInt16) : (ringFaces 16 base).length = 32 := by
  unfold ringFaces
  rw [List.length_flatMap]
  simp only [List.length_cons, List.length_nil]
  decide

theorem connectRings_sizes {m : RawMesh} {a b : List (V3 F32) × List (V3 F32) × F32} (ha : Ring16 a) (hb : Ring16 b)
    (base : UInt16) :
    (connectRings m a.1 b.1 a.2.1 b.2.1 base a.2.2 b.2.2).1.vertices.length = m.vertices.length + 32 ∧
      (connectRings m a.1 b.1 a.2.1 b.2.1 base a.2.2 b.2.2).1.faces.length = m.faces.length + 32 ∧
      (connectRings m a.1 b.1 a.2.1 b.2.1 base a.2.2 b.2.2).2 = base + 32 := by
  have h1 := ringVertices_length (ring := a.1) (normals := a.2.1) (by rw [ha.1, ha.2]) a.2.2
  have h2 := ringVertices_length (ring := b.1) (normals := b.2.1) (by rw [hb.1, hb.2]) b.2.2
  refine ⟨?_, ?_, ?_⟩
  · simp only [connectRings, List.length_append, h1, h2, ha.1, hb.1]
  · simp only [connectRings, List.length_append, ha.1, ringFaces_length]
  · simp only [connectRings, ha.1]; rfl

/-- what was there stays where it was -/
theorem connectAll_prefix : ∀ (rs : List (List (V3 F32) × List (V3 F32) × F32)) (m : RawMesh) (base : UInt16),
    m.vertices <+: (connectAll m base rs).vertices ∧ m.faces <+: (connectAll m base rs).faces
  | [], m, base => ⟨List.prefix_refl _, List.prefix_refl _⟩
  | [_], m, base => ⟨List.prefix_refl _, List.prefix_refl _⟩
  | a :: b :: rest, m, base => by
    obtain ⟨h1, h2⟩ := connectAll_prefix (b :: rest) (connectRings m a.1 b.1 a.2.1 b.2.1 base a.2.2 b.2.2).1
      (connectRings m a.1 b.1 a.2.1 b.2.1 base a.2.2 b.2.2).2
    refine ⟨List.IsPrefix.trans ?_ h1, List.IsPrefix.trans ?_ h2⟩
    · simp only [connectRings, List.append_assoc]; exact List.prefix_append _ _
    · simp only [connectRings]; exact List.prefix_append _ _

omit [Arith] in
theorem prefix_at {β : Type} {l l' : List β} (h : l <+: l') {i : Nat} (hi : i < l.length) : l'[i]? = l[i]? := by
  obtain ⟨t, rfl⟩ := h
  exact List.getElem?_append_left hi

theorem connectAll_sizes : ∀ (rs : List (List (V3 F32) × List (V3 F32) × F32)) (m : RawMesh) (base : UInt16),
    (∀ r ∈ rs, Ring16 r) →
    (connectAll m base rs).vertices.length = m.vertices.length + 32 * (rs.length - 1) ∧
      (connectAll m base rs).faces.length = m.faces.length + 32 * (rs.length - 1)
  | [], m, base, _ => ⟨rfl, rfl⟩
  | [_], m, base, _ => ⟨rfl, rfl⟩
  | a :: b :: rest, m, base, h => by
    have ha := h a List.mem_cons_self
    have hb := h b (List.mem_cons_of_mem _ List.mem_cons_self)
    obtain ⟨h1, h2, -⟩ := connectRings_sizes (m := m) ha hb base
    obtain ⟨h3, h4⟩ := connectAll_sizes (b :: rest) (connectRings m a.1 b.1 a.2.1 b.2.1 base a.2.2 b.2.2).1
      (connectRings m a.1 b.1 a.2.1 b.2.1 base a.2.2 b.2.2).2 fun r hr => h r (List.mem_cons_of_mem _ hr)
    simp only [connectAll]
    rw [h3, h4, h1, h2]
    simp only [List.length_cons]
    omega

theorem connectAll_at : ∀ (rs : List (List (V3 F32) × List (V3 F32) × F32)) (m : RawMesh) (base : UInt16),
    (∀ r ∈ rs, Ring16 r) → ∀ (i : Nat) a b, rs[i]? = some a → rs[i + 1]? = some b →
    (∀ j, j < 16 →
      (connectAll m base rs).vertices[m.vertices.length + (32 * i + j)]? = (ringVertices a.1 a.2.1 a.2.2)[j]? ∧
      (connectAll m base rs).vertices[m.vertices.length + (32 * i + 16 + j)]? = (ringVertices b.1 b.2.1 b.2.2)[j]?) ∧
    ∀ j, j < 32 →
      (connectAll m base rs).faces[m.faces.length + (32 * i + j)]? = (ringFaces 16 (base + UInt16.ofNat (32 * i)))[j]?
  | [], m, base, _, i, a, b, h1, _ => by cases h1
  | [_], m, base, _, i, a, b, _, h2 => by
    cases i <;> cases h2
  | x :: y :: rest, m, base, h, i, a, b, h1, h2 => by
    have hx := h x List.mem_cons_self
    have hy := h y (List.mem_cons_of_mem _ List.mem_cons_self)
    obtain ⟨s1, s2, s3⟩ := connectRings_sizes (m := m) hx hy base
    have lx := ringVertices_length (ring := x.1) (normals := x.2.1) (by rw [hx.1, hx.2]) x.2.2
    have ly := ringVertices_length (ring := y.1) (normals := y.2.1) (by rw [hy.1, hy.2]) y.2.2
    cases i with
    | zero =>
      obtain rfl : x = a := Option.some.inj h1
      obtain rfl : y = b := Option.some.inj h2
      obtain ⟨p1, p2⟩ := connectAll_prefix (y :: rest) (connectRings m x.1 y.1 x.2.1 y.2.1 base x.2.2 y.2.2).1
        (connectRings m x.1 y.1 x.2.1 y.2.1 base x.2.2 y.2.2).2
      simp only [connectAll]
      refine ⟨fun j hj => ⟨?_, ?_⟩, fun j hj => ?_⟩
      · rw [prefix_at p1 (by rw [s1]; omega)]
        simp only [connectRings, List.append_assoc]
        rw [List.getElem?_append_right (by omega), List.getElem?_append_left (by rw [lx, hx.1]; omega)]
        congr 1; omega
      · rw [prefix_at p1 (by rw [s1]; omega)]
        simp only [connectRings, List.append_assoc]
        rw [List.getElem?_append_right (by omega), List.getElem?_append_right (by rw [lx, hx.1]; omega)]
        congr 1; rw [lx, hx.1]; omega
      · rw [prefix_at p2 (by rw [s2]; omega)]
        simp only [connectRings]
        rw [List.getElem?_append_right (by omega)]
        have hb : base + UInt16.ofNat (32 * 0) = base := by simp
        rw [hb, hx.1]
        congr 1; omega
    | succ i =>
      obtain ⟨r1, r2⟩ := connectAll_at (y :: rest) (connectRings m x.1 y.1 x.2.1 y.2.1 base x.2.2 y.2.2).1
        (connectRings m x.1 y.1 x.2.1 y.2.1 base x.2.2 y.2.2).2 (fun r hr => h r (List.mem_cons_of_mem _ hr)) i a b h1 h2
      rw [s1] at r1
      rw [s2, s3] at r2
      have hb : base + 32 + UInt16.ofNat (32 * i) = base + UInt16.ofNat (32 * (i + 1)) := by
        rw [Nat.mul_add, UInt16.ofNat_add, UInt16.add_assoc, UInt16.add_comm 32]; rfl
      rw [hb] at r2
      simp only [connectAll]
      refine ⟨fun j hj => ⟨?_, ?_⟩, fun j hj => ?_⟩
      · rw [← (r1 j hj).1]; congr 1; omega
      · rw [← (r1 j hj).2]; congr 1; omega
      · rw [← r2 j hj, show m.faces.length + (32 * (i + 1) + j) = m.faces.length + 32 + (32 * i + j) by omega, s3]

/-- a vertex of a ring -/
theorem ringVertices_at {ring normals : List (V3 F32)} {tv : F32} {j : Nat} {p n : V3 F32} (hp : ring[j]? = some p)
    (hn : normals[j]? = some n) : ∃ w, (ringVertices ring normals tv)[j]? = some w ∧
      (⟨w.x, w.y, w.z⟩ : V3 F32) = p ∧ (⟨w.nx, w.ny, w.nz⟩ : V3 F32) = n ∧ w.tv = tv ∧
      w.tu = (let u := f0p51 +ᶠ ofNat j *ᶠ (f32One /ᶠ ofNat ring.length)
        if f32One <ᶠ u then u -ᶠ f32One else u) := by
  have h : (ring.zip normals).zipIdx[j]? = some ((p, n), j) := by
    rw [List.getElem?_zipIdx, List.getElem?_zip_eq_some (z := (p, n)) |>.mpr ⟨hp, hn⟩]; simp
  unfold ringVertices
  rw [List.getElem?_map, h]
  exact ⟨_, rfl, rfl, rfl, rfl, rfl⟩

omit [Arith] in
theorem ringFaces_at {base : Nat} (hb : base + 32 ≤ 65536) {j : Nat} (hj : j < 16) :
    (ringFaces 16 (UInt16.ofNat base))[2 * j]? = some ⟨base + j, base + 16 + j, base + (j + 1) % 16⟩ ∧
      (ringFaces 16 (UInt16.ofNat base))[2 * j + 1]? =
        some ⟨base + (j + 1) % 16, base + 16 + j, base + 16 + (j + 1) % 16⟩ := by
  have hw : ∀ k, k < 32 → (UInt16.ofNat base + UInt16.ofNat k).toNat = base + k := by
    intro k hk
    rw [UInt16.toNat_add, UInt16.toNat_ofNat', UInt16.toNat_ofNat']
    omega
  have hw2 : ∀ k, k < 16 → (UInt16.ofNat base + UInt16.ofNat 16 + UInt16.ofNat k).toNat = base + 16 + k := by
    intro k hk
    rw [UInt16.toNat_add, UInt16.toNat_add, UInt16.toNat_ofNat', UInt16.toNat_ofNat', UInt16.toNat_ofNat']
    omega
  have hg : ∀ (l : List Nat) (f g : Nat → Face) (i : Nat) (k : Nat), l[i]? = some k →
      (l.flatMap fun i => [f i, g i])[2 * i]? = some (f k) ∧
        (l.flatMap fun i => [f i, g i])[2 * i + 1]? = some (g k) := by
    intro l f g
    induction l with
    | nil => intro i k h; cases h
    | cons x l ih =>
      intro i k h
      cases i with
      | zero => cases h; exact ⟨rfl, rfl⟩
      | succ i =>
        obtain ⟨h1, h2⟩ := ih i k h
        exact ⟨h1, h2⟩
  have hm : (j + 1) % 16 < 16 := Nat.mod_lt _ (by omega)
  have := hg (List.range 16) (fun i => face16 (UInt16.ofNat base + UInt16.ofNat i)
      (UInt16.ofNat base + UInt16.ofNat 16 + UInt16.ofNat i) (UInt16.ofNat base + UInt16.ofNat ((i + 1) % 16)))
    (fun i => face16 (UInt16.ofNat base + UInt16.ofNat ((i + 1) % 16))
      (UInt16.ofNat base + UInt16.ofNat 16 + UInt16.ofNat i)
      (UInt16.ofNat base + UInt16.ofNat 16 + UInt16.ofNat ((i + 1) % 16))) j j (by rw [List.getElem?_range hj])
  unfold ringFaces
  dsimp only
  rw [this.1, this.2]
  simp only [face16, hw j (by omega), hw _ (Nat.lt_of_lt_of_le hm (by omega)), hw2 j hj, hw2 _ hm]
  constructor <;> congr 2 <;> omega

/-! ### Rings as the specification has them -/

open Scene

/-- the points, normals and texture coordinate of a ring -/
def RingSpec.data (r : RingSpec) (c : F32) : List (V3 F32) × List (V3 F32) × F32 :=
  (latheRing r.y c r.radius,
    (match r.facing with
      | none => ringNormals c (latheRing r.y c r.radius)
      | some n => List.replicate nLathe n), r.tv)

theorem RingSpec.data_ring (r : RingSpec) (c : F32) : Ring16 (RingSpec.data r c) := by
  unfold Ring16 RingSpec.data
  refine ⟨latheRing_length _ _ _, ?_⟩
  cases r.facing
  · simp only [ringNormals_length, latheRing_length]
  · simp [nLathe]

theorem latheRing_at {r : RingSpec} {c : F32} {j : Nat} (hj : j < 16) :
    (latheRing r.y c r.radius)[j]? = some (r.point c j) := by
  simp only [latheRing, nLathe, List.getElem?_map, List.getElem?_range hj, Option.map_some]
  rfl

theorem RingSpec.normals_at {r : RingSpec} {c : F32} {j : Nat} (hj : j < 16) :
    (RingSpec.data r c).2.1[j]? = some (r.normal c (r.point c j)) := by
  unfold RingSpec.data RingSpec.normal
  cases r.facing
  · simp only [ringNormals, List.getElem?_map, latheRing_at hj, Option.map_some, Option.getD_none]
  · rename_i n
    show (List.replicate 16 n)[j]? = some n
    rw [List.getElem?_replicate, if_pos hj]

theorem isRing_of {m : RawMesh} {c : F32} {first : Nat} {r : RingSpec}
    (h : ∀ j, j < 16 → m.vertices[first + j]? = (ringVertices (RingSpec.data r c).1 (RingSpec.data r c).2.1
      (RingSpec.data r c).2.2)[j]?) : IsRing m c first r := by
  intro j hj
  obtain ⟨w, h1, h2, h3, h4, h5⟩ := ringVertices_at (tv := (RingSpec.data r c).2.2)
    (show (RingSpec.data r c).1[j]? = _ from latheRing_at hj) (RingSpec.normals_at hj)
  have hl : (RingSpec.data r c).1.length = 16 := (RingSpec.data_ring r c).1
  rw [hl] at h5
  exact ⟨w, by rw [h j hj, h1], h2, h3, h4, h5⟩

omit [Arith] in
theorem isBand_of {m : RawMesh} {i : Nat} (hi : 32 * i + 32 ≤ 65536)
    (h : ∀ j, j < 32 → m.faces[32 * i + j]? = (ringFaces 16 (UInt16.ofNat (32 * i)))[j]?) : IsBand m (32 * i) (32 * i) := by
  intro j hj
  obtain ⟨h1, h2⟩ := ringFaces_at hi hj
  exact ⟨by rw [h _ (by omega), h1], by rw [Nat.add_assoc, h _ (by omega), h2]⟩

/-- the surface through rings -/
theorem connectAll_surface {rs : List RingSpec} {c : F32} (hl : 32 * (rs.length - 1) ≤ 65536) :
    Surface (connectAll ⟨[], []⟩ 0 (rs.map fun r => RingSpec.data r c)) c rs := by
  intro i a b ha hb
  obtain ⟨hi, -⟩ := List.getElem?_eq_some_iff.1 hb
  obtain ⟨h1, h2⟩ := connectAll_at (rs.map fun r => RingSpec.data r c) ⟨[], []⟩ 0
    (by intro r hr; obtain ⟨x, _, rfl⟩ := List.mem_map.1 hr; exact RingSpec.data_ring x c) i (RingSpec.data a c)
    (RingSpec.data b c) (by rw [List.getElem?_map, ha]; rfl) (by rw [List.getElem?_map, hb]; rfl)
  refine ⟨isRing_of fun j hj => ?_, isRing_of fun j hj => ?_, isBand_of (by omega) fun j hj => ?_⟩
  · have := (h1 j hj).1
    simpa using this
  · have := (h1 j hj).2
    simpa using this
  · have := h2 j hj
    simpa using this

theorem isStrip_mono {m m' : RawMesh} {c : F32} {i : Nat} {a b : RingSpec} (hv : m.vertices <+: m'.vertices)
    (hf : m.faces <+: m'.faces) (h : IsStrip m c i a b) : IsStrip m' c i a b := by
  have hg : ∀ {β : Type} {l l' : List β} {k : Nat} {x : β}, l <+: l' → l[k]? = some x → l'[k]? = some x := by
    intro β l l' k x hp hx
    obtain ⟨hk, -⟩ := List.getElem?_eq_some_iff.1 hx
    rw [prefix_at hp hk, hx]
  obtain ⟨h1, h2, h3⟩ := h
  refine ⟨fun j hj => ?_, fun j hj => ?_, fun j hj => ⟨hg hf (h3 j hj).1, hg hf (h3 j hj).2⟩⟩
  · obtain ⟨w, hw, h⟩ := h1 j hj
    exact ⟨w, hg hv hw, h⟩
  · obtain ⟨w, hw, h⟩ := h2 j hj
    exact ⟨w, hg hv hw, h⟩

theorem surface_mono {m m' : RawMesh} {c : F32} {rs : List RingSpec} (hv : m.vertices <+: m'.vertices)
    (hf : m.faces <+: m'.faces) (h : Surface m c rs) : Surface m' c rs :=
  fun i a b ha hb => isStrip_mono hv hf (h i a b ha hb)

/-- one more strip -/
theorem connectRings_strip {m : RawMesh} {c : F32} {i : Nat} {base : UInt16} (hv : m.vertices.length = 32 * i)
    (hf : m.faces.length = 32 * i) (hb : base = UInt16.ofNat (32 * i)) (hi : 32 * i + 32 ≤ 65536) (a b : RingSpec)
    {r : RawMesh × UInt16} (hr : r = connectRings m (RingSpec.data a c).1 (RingSpec.data b c).1 (RingSpec.data a c).2.1
      (RingSpec.data b c).2.1 base (RingSpec.data a c).2.2 (RingSpec.data b c).2.2) :
    IsStrip r.1 c i a b ∧ m.vertices <+: r.1.vertices ∧ m.faces <+: r.1.faces ∧
      r.1.vertices.length = 32 * (i + 1) ∧ r.1.faces.length = 32 * (i + 1) ∧ r.2 = UInt16.ofNat (32 * (i + 1)) := by
  subst hr hb
  have ha' := RingSpec.data_ring a c
  have hb' := RingSpec.data_ring b c
  obtain ⟨s1, s2, s3⟩ := connectRings_sizes (m := m) ha' hb' (UInt16.ofNat (32 * i))
  have la := ringVertices_length (ring := (RingSpec.data a c).1) (normals := (RingSpec.data a c).2.1)
    (by rw [ha'.1, ha'.2]) (RingSpec.data a c).2.2
  rw [ha'.1] at la
  refine ⟨⟨isRing_of fun j hj => ?_, isRing_of fun j hj => ?_, isBand_of hi fun j hj => ?_⟩, ?_, ?_, ?_, ?_, ?_⟩
  · simp only [connectRings, List.append_assoc]
    rw [List.getElem?_append_right (by omega), List.getElem?_append_left (by omega), hv]
    congr 1; omega
  · simp only [connectRings, List.append_assoc]
    rw [List.getElem?_append_right (by omega), List.getElem?_append_right (by omega), hv, la]
    congr 1; omega
  · simp only [connectRings, ha'.1]
    rw [List.getElem?_append_right (by omega), hf]
    congr 1; omega
  · simp only [connectRings, List.append_assoc]; exact List.prefix_append _ _
  · simp only [connectRings]; exact List.prefix_append _ _
  · rw [s1, hv]; omega
  · rw [s2, hf]; omega
  · rw [s3, Nat.mul_add, UInt16.ofNat_add]; rfl

/-- a disc -/
theorem addDiscCap_disc {m : RawMesh} {c : F32} (hl : m.vertices.length + 17 ≤ 65536) (r : RingSpec) (flip : Bool)
    (normal : V3 F32) :
    IsDisc (addDiscCap m (latheRing r.y c r.radius) flip normal r.tv) c m.faces.length m.vertices.length r normal flip ∧
    m.vertices <+: (addDiscCap m (latheRing r.y c r.radius) flip normal r.tv).vertices ∧
    m.faces <+: (addDiscCap m (latheRing r.y c r.radius) flip normal r.tv).faces ∧
    (addDiscCap m (latheRing r.y c r.radius) flip normal r.tv).vertices.length = m.vertices.length + 17 ∧
    (addDiscCap m (latheRing r.y c r.radius) flip normal r.tv).faces.length = m.faces.length + 16 := by
  have hr := latheRing_length r.y c r.radius
  have hw : (UInt16.ofNat m.vertices.length).toNat = m.vertices.length := by
    rw [UInt16.toNat_ofNat']; omega
  have hw2 : ∀ k, k < 16 → (UInt16.ofNat m.vertices.length + 1 + UInt16.ofNat k).toNat = m.vertices.length + 1 + k := by
    intro k hk
    rw [UInt16.toNat_add, UInt16.toNat_add, UInt16.toNat_ofNat', UInt16.toNat_ofNat']
    simp only [UInt16.toNat_one]
    omega
  unfold addDiscCap
  dsimp only
  refine ⟨⟨?_, ?_, ?_⟩, List.prefix_append _ _, List.prefix_append _ _, ?_, ?_⟩
  · rw [List.getElem?_append_right (Nat.le_refl _), Nat.sub_self]
    refine ⟨_, rfl, ?_, rfl, rfl, rfl⟩
    rw [hr]
    rfl
  · intro j hj
    rw [List.getElem?_append_right (by omega), show m.vertices.length + 1 + j - m.vertices.length = j + 1 by omega,
      List.getElem?_cons_succ, List.getElem?_map, List.getElem?_zipIdx, latheRing_at hj]
    refine ⟨_, rfl, rfl, rfl, ?_, rfl⟩
    rw [hr, Nat.zero_add]
  · intro j hj
    rw [List.getElem?_append_right (by omega), Nat.add_sub_cancel_left, List.getElem?_map, hr, List.getElem?_range hj]
    simp only [Option.map_some, face16, hw, hw2 j hj, hw2 _ (Nat.mod_lt (j + 1) (by omega : 16 > 0))]
    cases flip <;> simp
  · simp [hr]
  · simp [hr]

/-! ### The spring -/

/-- the points of the wire -/
theorem helixLoop_at (s : SpringPlan) : ∀ (k i : Nat) (y dy : F32) (j : Nat), j < k →
    (y = springHeight s.yStart s.dyEnd s.dyMain s.nEnd (decide (0 < s.nMain)) i) →
    (i ≠ s.nEnd → dy = if s.nEnd ≤ i ∧ 0 < s.nMain then s.dyMain else s.dyEnd) →
    (i = s.nEnd → 0 = s.nMain → dy = s.dyEnd) →
    (helixLoop s y dy i k)[j]? = some (helixPoint s (i + j)
      (springHeight s.yStart s.dyEnd s.dyMain s.nEnd (decide (0 < s.nMain)) (i + j))
      (if s.nEnd ≤ i + j ∧ 0 < s.nMain then s.dyMain else s.dyEnd))
  | 0, i, y, dy, j, hj, _, _, _ => by omega
  | k + 1, i, y, dy, j, hj, hy, hdy, hd0 => by
    have hd : (if i = s.nEnd ∧ 0 < s.nMain then s.dyMain else dy) =
        if s.nEnd ≤ i ∧ 0 < s.nMain then s.dyMain else s.dyEnd := by
      by_cases h1 : i = s.nEnd
      · by_cases h2 : 0 < s.nMain
        · rw [if_pos ⟨h1, h2⟩, if_pos ⟨by omega, h2⟩]
        · rw [if_neg (fun h => h2 h.2), if_neg (fun h => h2 h.2), hd0 h1 (by omega)]
      · rw [if_neg (fun h => h1 h.1), hdy h1]
    simp only [helixLoop]
    rw [hd]
    cases j with
    | zero => simp only [List.getElem?_cons_zero, Nat.add_zero, ← hy]
    | succ j =>
      rw [List.getElem?_cons_succ, show i + (j + 1) = i + 1 + j by omega]
      apply helixLoop_at s k (i + 1) _ _ j (by omega)
      · rw [hy, springHeight]
        simp only [decide_eq_true_eq]
        rfl
      · intro h
        by_cases h1 : s.nEnd ≤ i
        · simp [h1, show s.nEnd ≤ i + 1 by omega]
        · simp [h1, show ¬ s.nEnd ≤ i + 1 by omega]
      · intro h h0
        rw [if_neg (by omega)]

omit [Arith] in
theorem coilFaces_at {base : Nat} (hb : base + 16 ≤ 65536) {j : Nat} (hj : j < 8) :
    (coilFaces (UInt16.ofNat base))[2 * j]? = some ⟨base + j, base + (j + 1) % 8, base + 8 + j⟩ ∧
      (coilFaces (UInt16.ofNat base))[2 * j + 1]? = some ⟨base + (j + 1) % 8, base + 8 + (j + 1) % 8, base + 8 + j⟩ := by
  have hw : ∀ k, k < 8 → (UInt16.ofNat base + UInt16.ofNat k).toNat = base + k := by
    intro k hk
    rw [UInt16.toNat_add, UInt16.toNat_ofNat', UInt16.toNat_ofNat']
    omega
  have hw2 : ∀ k, k < 8 → (UInt16.ofNat base + 8 + UInt16.ofNat k).toNat = base + 8 + k := by
    intro k hk
    rw [UInt16.toNat_add, UInt16.toNat_add, UInt16.toNat_ofNat', UInt16.toNat_ofNat']
    simp only [UInt16.reduceToNat]
    omega
  have h8 : (List.range 8) = [0, 1, 2, 3, 4, 5, 6, 7] := by decide
  unfold coilFaces
  rw [h8]
  obtain rfl | rfl | rfl | rfl | rfl | rfl | rfl | rfl :
    j = 0 ∨ j = 1 ∨ j = 2 ∨ j = 3 ∨ j = 4 ∨ j = 5 ∨ j = 6 ∨ j = 7 := by omega
  all_goals
    simp only [List.flatMap_cons, List.cons_append, List.nil_append, List.getElem?_cons_succ, List.getElem?_cons_zero,
      Nat.reduceMul, Nat.reduceAdd, Nat.reduceMod, face16]
    simp only [hw _ (by omega : (0 : Nat) < 8), hw _ (by omega : (1 : Nat) < 8), hw _ (by omega : (2 : Nat) < 8),
      hw _ (by omega : (3 : Nat) < 8), hw _ (by omega : (4 : Nat) < 8), hw _ (by omega : (5 : Nat) < 8),
      hw _ (by omega : (6 : Nat) < 8), hw _ (by omega : (7 : Nat) < 8), hw2 _ (by omega : (0 : Nat) < 8),
      hw2 _ (by omega : (1 : Nat) < 8), hw2 _ (by omega : (2 : Nat) < 8), hw2 _ (by omega : (3 : Nat) < 8),
      hw2 _ (by omega : (4 : Nat) < 8), hw2 _ (by omega : (5 : Nat) < 8), hw2 _ (by omega : (6 : Nat) < 8),
      hw2 _ (by omega : (7 : Nat) < 8)]
    constructor <;> congr 2 <;> omega

theorem coilRing_length (g : F32) (h : HelixPoint) : (coilRing g h).length = 8 := by simp [coilRing]

omit [Arith] in
theorem coilFaces_length (b : UInt16) : (coilFaces b).length = 16 := by
  unfold coilFaces
  rw [List.length_flatMap]
  simp only [List.length_cons, List.length_nil]
  decide

theorem springFold_at (gauge : F32) (segs : Nat) : ∀ (l : List HelixPoint) (i : Nat) (m m' : RawMesh), i + l.length = segs →
    m.vertices.length = 8 * i → m.faces.length = 16 * i →
    m' = (l.zipIdx i).foldl (fun m (h, i) =>
      let base := UInt16.ofNat m.vertices.length
      ⟨m.vertices ++ coilRing gauge h, if i < segs - 1 then m.faces ++ coilFaces base else m.faces⟩) m →
    m.vertices <+: m'.vertices ∧ m.faces <+: m'.faces ∧ m'.faces.length = 16 * (if l = [] then i else segs - 1) ∧
    (∀ (k : Nat) h, l[k]? = some h → ∀ j, j < 8 → m'.vertices[8 * (i + k) + j]? = (coilRing gauge h)[j]?) ∧
    ∀ k, i + k + 1 < segs → ∀ j, j < 16 →
      m'.faces[16 * (i + k) + j]? = (coilFaces (UInt16.ofNat (8 * (i + k))))[j]?
  | [], i, m, m', hs, hv, hf, hm => by
    subst hm
    refine ⟨List.prefix_refl _, List.prefix_refl _, by simpa using hf, ?_, ?_⟩
    · intro k h hk; cases hk
    · intro k hk; simp only [List.length_nil] at hs; omega
  | h :: l, i, m, m', hs, hv, hf, hm => by
    simp only [List.zipIdx_cons, List.foldl_cons] at hm
    simp only [List.length_cons] at hs
    by_cases hi : i < segs - 1
    · rw [if_pos hi] at hm
      obtain ⟨p1, p2, hlen, q1, q2⟩ := springFold_at gauge segs l (i + 1) _ m' (by omega)
        (by simp only [List.length_append, coilRing_length]; omega)
        (by simp only [List.length_append, coilFaces_length]; omega) hm
      have hne : l ≠ [] := by intro h; rw [h] at hs; simp at hs; omega
      refine ⟨(List.prefix_append _ _).trans p1, (List.prefix_append _ _).trans p2, ?_, ?_, ?_⟩
      · rw [hlen, if_neg hne, if_neg (by simp)]
      · intro k g hk j hj
        cases k with
        | zero =>
          cases hk
          rw [prefix_at p1 (by simp only [List.length_append, coilRing_length]; omega),
            List.getElem?_append_right (by omega)]
          congr 1; omega
        | succ k =>
          rw [← q1 k g hk j hj]
          congr 1; omega
      · intro k hk j hj
        cases k with
        | zero =>
          rw [prefix_at p2 (by simp only [List.length_append, coilFaces_length]; omega),
            List.getElem?_append_right (by omega), hv]
          congr 1; omega
        | succ k =>
          rw [show i + (k + 1) = i + 1 + k by omega]
          exact q2 k (by omega) j hj
    · rw [if_neg hi] at hm
      have hl0 : l = [] := by cases l with | nil => rfl | cons _ _ => simp only [List.length_cons] at hs; omega
      subst hl0
      simp only [List.zipIdx_nil, List.foldl_nil] at hm
      subst hm
      refine ⟨List.prefix_append _ _, List.prefix_refl _, ?_, ?_, ?_⟩
      · rw [if_neg (by simp)]; simp only [List.length_nil] at hs; rw [hf]; omega
      · intro k g hk j hj
        cases k with
        | zero =>
          cases hk
          rw [List.getElem?_append_right (by omega)]
          congr 1; omega
        | succ k => cases hk
      · intro k hk; simp only [List.length_nil] at hs; omega

/-! ### The text of the tip -/

omit [Arith] in
theorem splitAtChar_append {c : Char} : ∀ {a : Str} (_ : ∀ x ∈ a, x ≠ c) (b : Str),
    splitAtChar c (a ++ c :: b) = a :: splitAtChar c b
  | [], _, b => by simp [splitAtChar]
  | x :: a, h, b => by
    simp only [List.cons_append, splitAtChar]
    rw [if_neg (h x List.mem_cons_self), splitAtChar_append (fun y hy => h y (List.mem_cons_of_mem _ hy)) b]

omit [Arith] in
theorem splitAtChar_none {c : Char} : ∀ {a : Str} (_ : ∀ x ∈ a, x ≠ c), splitAtChar c a = [a]
  | [], _ => rfl
  | x :: a, h => by
    simp only [splitAtChar]
    rw [if_neg (h x List.mem_cons_self), splitAtChar_none (fun y hy => h y (List.mem_cons_of_mem _ hy))]

omit [Arith] in
theorem splitWhite_cons {x : Char} (h : isWhite x = false) (rest : Str) :
    splitWhite (x :: rest) = beginWord x rest.head? (splitWhite rest) := by
  rw [splitWhite, h]
  rfl

omit [Arith] in
theorem splitWhite_blank : ∀ {w : Str} (_ : IsBlank w) (rest : Str), splitWhite (w ++ rest) = splitWhite rest
  | [], _, _ => rfl
  | x :: w, h, rest => by
    rw [List.cons_append, splitWhite, h x List.mem_cons_self, if_pos rfl,
      splitWhite_blank (fun y hy => h y (List.mem_cons_of_mem _ hy))]

omit [Arith] in
/-- a word at the end or before white space -/
theorem splitWhite_word : ∀ {a : Str} (_ : a ≠ []) (_ : ∀ x ∈ a, isWhite x = false) {rest : Str}
    (_ : ∀ y, rest.head? = some y → isWhite y = true), splitWhite (a ++ rest) = a :: splitWhite rest
  | [x], _, h, rest, hr => by
    rw [List.cons_append, List.nil_append, splitWhite_cons (h x List.mem_cons_self)]
    cases rest with
    | nil => rfl
    | cons y rest =>
      simp only [List.head?_cons, beginWord, hr y rfl, if_true]
      split
      · next h1 h2 => rw [h2]; cases h1; rw [hr _ rfl, if_pos rfl]
      · rfl
  | x :: y :: a, _, h, rest, hr => by
    have hs := splitWhite_word (a := y :: a) (by simp) (fun z hz => h z (List.mem_cons_of_mem _ hz)) hr
    rw [List.cons_append, splitWhite_cons (h x List.mem_cons_self), hs]
    simp only [List.cons_append, List.head?_cons, beginWord, h y (List.mem_cons_of_mem _ List.mem_cons_self)]
    rfl

omit [Arith] in
theorem blank_head {w rest : Str} (h : IsBlank w) (hr : ∀ y, rest.head? = some y → isWhite y = true) :
    ∀ y, (w ++ rest).head? = some y → isWhite y = true := by
  intro y hy
  cases w with
  | nil => exact hr y hy
  | cons x w => cases hy; exact h _ List.mem_cons_self

omit [Arith] in
/-- an entry has two words -/
theorem splitWhite_entry {e : TipEntry} (h : e.Fine) : splitWhite e.text = [e.first, e.second] := by
  obtain ⟨h1, h2, h3, h4, h5, h6⟩ := h
  have ht : splitWhite e.trail = [] := by
    have := splitWhite_blank h6 []
    rwa [List.append_nil] at this
  have h7 : ∀ y, e.trail.head? = some y → isWhite y = true := by
    have := blank_head h6 (rest := []) (by intro y hy; cases hy)
    rwa [List.append_nil] at this
  unfold TipEntry.text
  rw [splitWhite_blank h1, splitWhite_word h2.1 (fun x hx => (h2.2 x hx).1), splitWhite_blank h3,
    splitWhite_word h5.1 (fun x hx => (h5.2 x hx).1) h7, ht]
  intro y hy
  cases hg : e.gap with
  | nil => exact absurd hg h4
  | cons x w => rw [hg] at hy h3; cases hy; exact h3 _ List.mem_cons_self

omit [Arith] in
theorem entry_plain {e : TipEntry} (h : e.Fine) : ∀ x ∈ e.text, x ≠ ';' := by
  obtain ⟨h1, h2, h3, h4, h5, h6⟩ := h
  have hb : ∀ {w : Str}, IsBlank w → ∀ x ∈ w, x ≠ ';' := by
    intro w hw x hx e
    have := hw x hx
    rw [e] at this
    revert this
    decide
  intro x hx
  simp only [TipEntry.text, List.mem_append] at hx
  rcases hx with hx | hx | hx | hx | hx
  · exact hb h1 x hx
  · exact (h2.2 x hx).2
  · exact hb h3 x hx
  · exact (h5.2 x hx).2
  · exact hb h6 x hx

theorem tipText_segments (A : ItemFns) : ∀ (es : List TipEntry) (vs : List (F32 × F32)), (∀ e ∈ es, e.Fine) →
    (es.map fun e => (A.parse32 e.first, A.parse32 e.second)) = vs.map (fun v => (some v.1, some v.2)) →
    (splitAtChar ';' (tipText es)).filterMap (tipSegment A) = vs.map fun v => ⟨v.1, v.2 *ᶠ fHalf⟩
  | [], [], _, _ => rfl
  | [], _ :: _, _, hv => by cases hv
  | _ :: _, [], _, hv => by cases hv
  | e :: es, v :: vs, hw, hv => by
    have he := hw _ List.mem_cons_self
    simp only [List.map_cons, List.cons.injEq, Prod.mk.injEq] at hv
    obtain ⟨⟨h1, h2⟩, hv⟩ := hv
    have hseg : tipSegment A e.text = some ⟨v.1, v.2 *ᶠ fHalf⟩ := by
      unfold tipSegment
      rw [splitWhite_entry he]
      simp only [h1, h2]
    cases es with
    | nil =>
      cases vs with
      | nil =>
        rw [tipText, splitAtChar_none (entry_plain he)]
        simp [hseg]
      | cons _ _ => cases hv
    | cons w es =>
      rw [tipText, splitAtChar_append (entry_plain he), List.filterMap_cons, hseg,
        tipText_segments A (w :: es) vs (fun x hx => hw x (List.mem_cons_of_mem _ hx)) hv]
      · rfl
      · intro h; cases h

end

/-! ### The order of IEEE numbers -/

/-- where a number is on the line with both infinities: -1, 0 or 1 -/
def ieeeRank (a : F32) : Int := if a.isInf then (if a.isNeg then -1 else 1) else 0

/-- the order of all numbers -/
def ieeeBelow (a b : F32) : Bool :=
  decide (ieeeRank a < ieeeRank b ∨ ieeeRank a = ieeeRank b ∧
    (if a.isInf then 0 else a.val) ≤ (if b.isInf then 0 else b.val))

theorem ieeeBelow_lt {a b : F32} (ha : a.isNaN = false) (hb : b.isNaN = false) : ieeeBelow a b = !ieeeLt b a := by
  rw [Bool.eq_iff_iff]
  unfold ieeeBelow ieeeLt ieeeRank
  cases a.isInf <;> cases b.isInf <;> cases a.isNeg <;> cases b.isNeg <;> simp [ha, hb]

/-! ### Sorting -/

section
variable [Arith]
open Arith

theorem insertPoint_perm (t : TipPoint) : ∀ l, (insertPoint t l).Perm (t :: l)
  | [] => List.Perm.refl _
  | u :: l => by
    rw [insertPoint]
    split
    · exact ((insertPoint_perm t l).cons u).trans (List.Perm.swap _ _ _)
    · exact List.Perm.refl _

theorem sortPoints_perm : ∀ l, (sortPoints l).Perm l
  | [] => List.Perm.refl _
  | t :: l => (insertPoint_perm t _).trans ((sortPoints_perm l).cons t)

theorem sortPoints_sorted : ∀ {l : List TipPoint}, l.Pairwise (fun a b => (b.y <ᶠ a.y) = false) → sortPoints l = l
  | [], _ => rfl
  | t :: l, h => by
    obtain ⟨h1, h2⟩ := List.pairwise_cons.1 h
    show insertPoint t (sortPoints l) = _
    rw [sortPoints_sorted h2]
    cases l with
    | nil => rfl
    | cons u l => rw [insertPoint, h1 u List.mem_cons_self]; rfl

end

section
variable (sin cos : F32 → F32) (pow : F32 → F32 → F32)

theorem insertPoint_order {t : TipPoint} (ht : t.y.isNaN = false) : letI := ieee sin cos pow
    ∀ {l : List TipPoint}, (∀ u ∈ l, u.y.isNaN = false) → l.Pairwise (fun a b => ieeeBelow a.y b.y = true) →
      (insertPoint t l).Pairwise (fun a b => ieeeBelow a.y b.y = true) ∧
      ∀ k : F32, (insertPoint t l).filter (fun u => ieeeBelow u.y k && ieeeBelow k u.y) =
        (t :: l).filter (fun u => ieeeBelow u.y k && ieeeBelow k u.y) := by
  let _ := ieee sin cos pow
  intro l
  induction l with
  | nil => intro _ _; exact ⟨List.pairwise_cons.2 ⟨fun _ h => (by cases h), List.Pairwise.nil⟩, fun _ => rfl⟩
  | cons u l ih =>
    intro hn hp
    obtain ⟨hu, hp'⟩ := List.pairwise_cons.1 hp
    have hlt : Arith.lt u.y t.y = !ieeeBelow t.y u.y := by
      rw [ieeeBelow_lt ht (hn u List.mem_cons_self), Bool.not_not]; rfl
    rw [insertPoint, hlt]
    by_cases h : ieeeBelow t.y u.y = true
    · rw [h]
      refine ⟨List.pairwise_cons.2 ⟨?_, hp⟩, fun _ => rfl⟩
      intro v hv
      rcases List.mem_cons.1 hv with rfl | hv
      · exact h
      · have := hu v hv
        simp only [ieeeBelow, decide_eq_true_eq] at *
        omega
    · have hf : ieeeBelow t.y u.y = false := by simpa using h
      rw [hf, Bool.not_false, if_pos rfl]
      obtain ⟨i1, i2⟩ := ih (fun v hv => hn v (List.mem_cons_of_mem _ hv)) hp'
      refine ⟨List.pairwise_cons.2 ⟨?_, i1⟩, ?_⟩
      · intro v hv
        rcases List.mem_cons.1 ((insertPoint_perm t l).mem_iff.1 hv) with rfl | hv
        · simp only [ieeeBelow, decide_eq_true_eq, decide_eq_false_iff_not] at *
          omega
        · exact hu v hv
      · intro k
        rw [List.filter_cons, i2 k]
        by_cases hk : (ieeeBelow u.y k && ieeeBelow k u.y) = true
        · have hk' : (ieeeBelow t.y k && ieeeBelow k t.y) = false := by
            cases h3 : (ieeeBelow t.y k && ieeeBelow k t.y)
            · rfl
            · exfalso
              rw [Bool.and_eq_true] at hk h3
              simp only [ieeeBelow, decide_eq_true_eq, decide_eq_false_iff_not] at *
              omega
          rw [if_pos hk]
          simp only [List.filter_cons, hk', hk, if_true, Bool.false_eq_true, if_false]
        · rw [if_neg hk]
          simp only [List.filter_cons, hk, Bool.false_eq_true, if_false]

/-- sorting points whose places are numbers -/
theorem sortPoints_order : letI := ieee sin cos pow
    ∀ {l : List TipPoint}, (∀ t ∈ l, t.y.isNaN = false) →
      (sortPoints l).Pairwise (fun a b => ieeeBelow a.y b.y = true) ∧
      ∀ k : F32, (sortPoints l).filter (fun u => ieeeBelow u.y k && ieeeBelow k u.y) =
        l.filter (fun u => ieeeBelow u.y k && ieeeBelow k u.y) := by
  let _ := ieee sin cos pow
  intro l
  induction l with
  | nil => intro _; exact ⟨List.Pairwise.nil, fun _ => rfl⟩
  | cons t l ih =>
    intro h
    obtain ⟨i1, i2⟩ := ih fun u hu => h u (List.mem_cons_of_mem _ hu)
    obtain ⟨j1, j2⟩ := insertPoint_order sin cos pow (h t List.mem_cons_self) (l := sortPoints l)
      (fun u hu => h u (List.mem_cons_of_mem _ ((sortPoints_perm l).mem_iff.1 hu))) i1
    refine ⟨j1, fun k => ?_⟩
    show (insertPoint t (sortPoints l)).filter _ = _
    rw [j2 k, List.filter_cons, List.filter_cons, i2 k]

end
end Vpin
