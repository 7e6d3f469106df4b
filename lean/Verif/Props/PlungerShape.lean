import Verif.Props.ItemShapes
import Verif.Lemmas.PlungerMesh
/-
C84: the meshes of a plunger.
-/
namespace Vpin
open Geometry

/-! ### With the numbers of the program -/

section
variable [Arith]
open Arith Scene

/-- **C84**: a visible plunger of a flat (or unknown) type has one mesh, the flat rod; one of the modern or custom type
has a rod, a spring, a ring and a tip; one that is not visible has none. -/
theorem C84_parts (A : ItemFns) (p : Plunger) :
    let m := buildPlungerMeshes A p
    let round := p.plunger_type = .Modern ∨ p.plunger_type = .Custom
    (m.flat_rod.isSome = true ↔ p.is_visible = true ∧ ¬ round) ∧
      (m.rod.isSome = true ↔ p.is_visible = true ∧ round) ∧ (m.spring.isSome = true ↔ p.is_visible = true ∧ round) ∧
      (m.ring.isSome = true ↔ p.is_visible = true ∧ round) ∧ (m.tip.isSome = true ↔ p.is_visible = true ∧ round) := by
  unfold buildPlungerMeshes
  cases p.is_visible <;> cases p.plunger_type <;> simp

/-- **C84**: the flat rod is the tube around the axis of the plunger, above the table by 1.25 of its width, from its
height to its stroke, closed by two discs, of which the first faces the player and the second the ball. -/
theorem C84_flat_rod (A : ItemFns) (p : Plunger) (m : RawMesh) (h : (buildPlungerMeshes A p).flat_rod = some m) :
    let radius := p.width *ᶠ p.rod_diam *ᶠ fHalf
    let axis := p.width *ᶠ 0x3fa00000 /- 1.25 -/
    let back : RingSpec := { y := p.height, radius, tv := f32One }
    let front : RingSpec := { y := F32.neg p.stroke, radius, tv := 0 }
    m.vertices.length = 66 ∧ m.faces.length = 64 ∧ Surface m axis [back, front] ∧
      IsDisc m axis 32 32 back ⟨0, f32One, 0⟩ false ∧ IsDisc m axis 48 49 front ⟨0, F32.neg f32One, 0⟩ true := by
  have hm : m = flatRodMesh p := by
    unfold buildPlungerMeshes at h
    split at h
    · cases h
    · split at h <;> cases h <;> rfl
  intro radius axis back front
  obtain ⟨s1, -, -, s4, s5, -⟩ := connectRings_strip (m := ⟨[], []⟩) (c := axis) (i := 0) (base := 0) rfl rfl rfl (by omega)
    back front rfl
  generalize hr : connectRings ⟨[], []⟩ (RingSpec.data back axis).1 (RingSpec.data front axis).1
    (RingSpec.data back axis).2.1 (RingSpec.data front axis).2.1 0 (RingSpec.data back axis).2.2
    (RingSpec.data front axis).2.2 = r at s1 s4 s5
  obtain ⟨d1, v1, f1, l1, k1⟩ := addDiscCap_disc (m := r.1) (c := axis) (by omega) back false ⟨0, f32One, 0⟩
  generalize hd : addDiscCap r.1 (latheRing back.y axis back.radius) false ⟨0, f32One, 0⟩ back.tv = d at *
  obtain ⟨d2, v2, f2, l2, k2⟩ := addDiscCap_disc (m := d) (c := axis) (by omega) front true ⟨0, F32.neg f32One, 0⟩
  have he : m = addDiscCap d (latheRing front.y axis front.radius) true ⟨0, F32.neg f32One, 0⟩ front.tv := by
    rw [hm, ← hd, ← hr]
    rfl
  rw [← he] at d2 v2 f2 l2 k2
  have hget : ∀ {β : Type} {l l' : List β} {k : Nat} {x : β}, l <+: l' → l[k]? = some x → l'[k]? = some x := by
    intro β l l' k x hp hx
    obtain ⟨hk, -⟩ := List.getElem?_eq_some_iff.1 hx
    rw [prefix_at hp hk, hx]
  rw [show d.faces.length = 48 by omega, show d.vertices.length = 49 by omega] at d2
  rw [show r.1.faces.length = 32 by omega, show r.1.vertices.length = 32 by omega] at d1
  refine ⟨by omega, by omega, ?_, ?_, d2⟩
  · intro i a b ha hb
    cases i with
    | zero => cases ha; cases hb; exact isStrip_mono (v1.trans v2) (f1.trans f2) s1
    | succ i => cases hb
  · obtain ⟨⟨w, q1, q2⟩, q3, q4⟩ := d1
    refine ⟨⟨w, hget v2 q1, q2⟩, fun j hj => ?_, fun j hj => hget f2 (q4 j hj)⟩
    obtain ⟨w, q5, q6⟩ := q3 j hj
    exact ⟨w, hget v2 q5, q6⟩

/-- the four parts of a round plunger -/
theorem plunger_parts {A : ItemFns} {p : Plunger} :
    (∀ m, (buildPlungerMeshes A p).rod = some m → m = rodMesh A p) ∧
    (∀ m, (buildPlungerMeshes A p).spring = some m → m = springMesh A p) ∧
    (∀ m, (buildPlungerMeshes A p).ring = some m → m = collarMesh A p) ∧
    (∀ m, (buildPlungerMeshes A p).tip = some m → m = tipMesh A p) := by
  unfold buildPlungerMeshes
  refine ⟨?_, ?_, ?_, ?_⟩ <;>
  · intro m h
    split at h
    · cases h
    · split at h <;> cases h <;> rfl

/-- where the collar begins: behind the tip and the gap -/
def collarFront (A : ItemFns) (p : Plunger) : F32 :=
  F32.neg p.stroke +ᶠ ((parseTipShape A p.tip_shape).getLast?.map (·.y)).getD 0 +ᶠ p.ring_gap

/-- **C84**: the rod is the tube from the back of the collar to the height of the plunger, in four parts of the same
length; its texture goes from 0.51 to 0.74. A disc closes its end at the collar (`C84_rod_cap_counterexample`). -/
theorem C84_rod (A : ItemFns) (p : Plunger) (m : RawMesh) (h : (buildPlungerMeshes A p).rod = some m) :
    let radius := p.width *ᶠ p.rod_diam *ᶠ fHalf
    let start := collarFront A p +ᶠ p.ring_width
    let ring (i : Nat) : RingSpec :=
      { y := start +ᶠ (p.height -ᶠ start) *ᶠ (ofNat i /ᶠ ofNat 4), radius
        tv := 0x3f028f5c /- 0.51 -/ +ᶠ ofNat i /ᶠ ofNat 4 *ᶠ 0x3e6b851f /- 0.23 -/ }
    m.vertices.length = 145 ∧ m.faces.length = 144 ∧ Surface m p.width [ring 0, ring 1, ring 2, ring 3, ring 4] ∧
      IsDisc m p.width 128 128 { ring 0 with tv := 0x3f3d70a4 /- 0.74 -/ } ⟨0, f32One, 0⟩ false := by
  have hm := plunger_parts.1 m h
  intro radius start ring
  have hs := connectAll_surface (rs := [ring 0, ring 1, ring 2, ring 3, ring 4]) (c := p.width)
    (by simp only [List.length_cons, List.length_nil]; omega)
  obtain ⟨z1, z2⟩ := connectAll_sizes ([ring 0, ring 1, ring 2, ring 3, ring 4].map fun r => RingSpec.data r p.width)
    ⟨[], []⟩ 0 (by intro r hr; obtain ⟨x, _, rfl⟩ := List.mem_map.1 hr; exact RingSpec.data_ring x _)
  generalize hr : connectAll ⟨[], []⟩ 0 ([ring 0, ring 1, ring 2, ring 3, ring 4].map fun r => RingSpec.data r p.width)
    = r at *
  simp only [List.length_map, List.length_cons, List.length_nil] at z1 z2
  obtain ⟨d, v, f, l, k⟩ := addDiscCap_disc (m := r) (c := p.width) (by omega) { ring 0 with tv := 0x3f3d70a4 } false
    ⟨0, f32One, 0⟩
  have he : m = addDiscCap r (latheRing (ring 0).y p.width (ring 0).radius) false ⟨0, f32One, 0⟩ 0x3f3d70a4 := by
    rw [hm, ← hr]
    rfl
  dsimp only at d v f l k
  rw [← he] at d v f l k
  rw [show r.faces.length = 128 by omega, show r.vertices.length = 128 by omega] at d
  exact ⟨by omega, by omega, surface_mono v f hs, d⟩

/-- **C84**: the collar is a ring with the diameter of the ring and the width of the ring, behind the gap after the tip:
a flat side facing the ball from the rod to the rim, the rim, and a flat side facing the player from the rim to the rod.
-/
theorem C84_collar (A : ItemFns) (p : Plunger) (m : RawMesh) (h : (buildPlungerMeshes A p).ring = some m) :
    let rod := p.width *ᶠ p.rod_diam *ᶠ fHalf
    let rim := p.width *ᶠ p.ring_diam *ᶠ fHalf
    let front := collarFront A p
    let back := front +ᶠ p.ring_width
    let toBall : Option (V3 F32) := some ⟨0, F32.neg f32One, 0⟩
    let toPlayer : Option (V3 F32) := some ⟨0, f32One, 0⟩
    m.vertices.length = 96 ∧ m.faces.length = 96 ∧
      IsStrip m p.width 0 { y := front, radius := rod, tv := 0x3e851eb8 /- 0.26 -/, facing := toBall }
        { y := front, radius := rim, tv := 0x3ea8f5c3 /- 0.33 -/, facing := toBall } ∧
      IsStrip m p.width 1 { y := front, radius := rim, tv := 0x3ea8f5c3 /- 0.33 -/ }
        { y := back, radius := rim, tv := 0x3ed70a3d /- 0.42 -/ } ∧
      IsStrip m p.width 2 { y := back, radius := rim, tv := 0x3ed70a3d /- 0.42 -/, facing := toPlayer }
        { y := back, radius := rod, tv := 0x3efae148 /- 0.49 -/, facing := toPlayer } := by
  have hm := plunger_parts.2.2.1 m h
  intro rod rim front back toBall toPlayer
  let a1 : RingSpec := { y := front, radius := rod, tv := 0x3e851eb8, facing := toBall }
  let b1 : RingSpec := { y := front, radius := rim, tv := 0x3ea8f5c3, facing := toBall }
  let a2 : RingSpec := { y := front, radius := rim, tv := 0x3ea8f5c3 }
  let b2 : RingSpec := { y := back, radius := rim, tv := 0x3ed70a3d }
  let a3 : RingSpec := { y := back, radius := rim, tv := 0x3ed70a3d, facing := toPlayer }
  let b3 : RingSpec := { y := back, radius := rod, tv := 0x3efae148, facing := toPlayer }
  obtain ⟨s1, -, -, p4, p5, p6⟩ := connectRings_strip (m := ⟨[], []⟩) (c := p.width) (i := 0) (base := 0) rfl rfl rfl
    (by omega) a1 b1 rfl
  generalize hr1 : connectRings ⟨[], []⟩ (RingSpec.data a1 p.width).1 (RingSpec.data b1 p.width).1
    (RingSpec.data a1 p.width).2.1 (RingSpec.data b1 p.width).2.1 0 (RingSpec.data a1 p.width).2.2
    (RingSpec.data b1 p.width).2.2 = r1 at s1 p4 p5 p6
  obtain ⟨s2, q2, q3, q4, q5, q6⟩ := connectRings_strip (m := r1.1) (c := p.width) (i := 1) (base := r1.2) p4 p5 p6
    (by omega) a2 b2 rfl
  generalize hr2 : connectRings r1.1 (RingSpec.data a2 p.width).1 (RingSpec.data b2 p.width).1
    (RingSpec.data a2 p.width).2.1 (RingSpec.data b2 p.width).2.1 r1.2 (RingSpec.data a2 p.width).2.2
    (RingSpec.data b2 p.width).2.2 = r2 at s2 q2 q3 q4 q5 q6
  obtain ⟨s3, t2, t3, t4, t5, -⟩ := connectRings_strip (m := r2.1) (c := p.width) (i := 2) (base := r2.2) q4 q5 q6
    (by omega) a3 b3 rfl
  have he : m = (connectRings r2.1 (RingSpec.data a3 p.width).1 (RingSpec.data b3 p.width).1
    (RingSpec.data a3 p.width).2.1 (RingSpec.data b3 p.width).2.1 r2.2 (RingSpec.data a3 p.width).2.2
    (RingSpec.data b3 p.width).2.2).1 := by
    rw [hm, ← hr2, ← hr1]
    rfl
  rw [← he] at s3 t2 t3 t4 t5
  exact ⟨t4, t5, isStrip_mono (q2.trans t2) (q3.trans t3) s1, isStrip_mono t2 t3 s2, s3⟩

/-- **C84**: the tip is the surface through the points of its shape: a ring for each, as far behind the stroke as the
point says, with half its diameter times the width of the plunger as radius; its texture goes from 0 to 0.24. With fewer
than two points it is empty. Each pair of neighbours gives 32 vertices and triangles; the triangles of a shape of more
than 2049 points have indices that begin anew after 65535 and are not described here. -/
theorem C84_tip (A : ItemFns) (p : Plunger) (m : RawMesh) (h : (buildPlungerMeshes A p).tip = some m) :
    let points := parseTipShape A p.tip_shape
    m.vertices.length = 32 * (points.length - 1) ∧ m.faces.length = 32 * (points.length - 1) ∧
      (points.length ≤ 2049 → Surface m p.width (points.map fun t =>
        { y := F32.neg p.stroke +ᶠ t.y, radius := p.width *ᶠ t.r
          tv := 0x3e75c28f /- 0.24 -/ *ᶠ t.y /ᶠ (points.getLast?.map (·.y)).getD 0 })) := by
  have hm := plunger_parts.2.2.2 m h
  intro points
  unfold tipMesh at hm
  dsimp only at hm
  split at hm
  · next hl =>
    subst hm
    have hl' : points.length < 2 := hl
    refine ⟨?_, ?_, ?_⟩
    · simp only [List.length_nil]; omega
    · simp only [List.length_nil]; omega
    · intro _ i a b ha hb
      obtain ⟨hi, -⟩ := List.getElem?_eq_some_iff.1 hb
      rw [List.length_map] at hi
      omega
  · let rs : List RingSpec := points.map fun t =>
        { y := F32.neg p.stroke +ᶠ t.y, radius := p.width *ᶠ t.r
          tv := 0x3e75c28f /- 0.24 -/ *ᶠ t.y /ᶠ (points.getLast?.map (·.y)).getD 0 }
    have he : m = connectAll ⟨[], []⟩ 0 (rs.map fun r => RingSpec.data r p.width) := by
      rw [hm]
      show _ = connectAll ⟨[], []⟩ 0 ((points.map _).map _)
      rw [List.map_map]
      rfl
    obtain ⟨z1, z2⟩ := connectAll_sizes (rs.map fun r => RingSpec.data r p.width)
      ⟨[], []⟩ 0 (by intro r hr; obtain ⟨x, _, rfl⟩ := List.mem_map.1 hr; exact RingSpec.data_ring x _)
    rw [← he] at z1 z2
    simp only [rs, List.length_map, List.length_nil, Nat.zero_add] at z1 z2
    refine ⟨z1, z2, fun hl => ?_⟩
    rw [he]
    apply connectAll_surface
    simp only [rs, List.length_map]
    omega

/-- **C84**: the points of the tip are those of its text, whatever white space is around the numbers: two numbers make a
point with half the second as radius. They are put in order; points that are in order stay as they are. -/
theorem C84_tip_text (A : ItemFns) (es : List TipEntry) (vs : List (F32 × F32)) (hf : ∀ e ∈ es, e.Fine)
    (hv : (es.map fun e => (A.parse32 e.first, A.parse32 e.second)) = vs.map fun v => (some v.1, some v.2)) :
    let points : List TipPoint := vs.map fun v => ⟨v.1, v.2 *ᶠ fHalf⟩
    (parseTipShape A (tipText es)).Perm points ∧
      (points.Pairwise (fun a b => (b.y <ᶠ a.y) = false) → parseTipShape A (tipText es) = points) := by
  intro points
  have hs : (splitAtChar ';' (tipText es)).filterMap (tipSegment A) = points := tipText_segments A es vs hf hv
  unfold parseTipShape
  rw [hs]
  exact ⟨sortPoints_perm _, sortPoints_sorted⟩

/-- the direction of the wire of a spring: along the circle, and up by `dy` -/
def wireDirection (radius angle dy : F32) : V3 F32 :=
  let step := fTwo *ᶠ fPi /ᶠ 0x41c00000 /- 24 -/
  let d : V3 F32 := ⟨F32.neg radius *ᶠ Ops.sin angle *ᶠ step, dy, radius *ᶠ Ops.cos angle *ᶠ step⟩
  let len := sqrt (d.x *ᶠ d.x +ᶠ d.y *ᶠ d.y +ᶠ d.z *ᶠ d.z)
  if (0 : F32) <ᶠ len then d.over len else ⟨0, f32One, 0⟩

/-- a direction across the wire: at a right angle to it and to the y axis (to the x axis if the wire is nearly along the
y axis) -/
def wireSide (t : V3 F32) : V3 F32 :=
  let up : V3 F32 := if F32.abs t.y <ᶠ 0x3f7d70a4 /- 0.99 -/ then ⟨0, f32One, 0⟩ else ⟨f32One, 0, 0⟩
  let b := cross t up
  b.over (sqrt (b.x *ᶠ b.x +ᶠ b.y *ᶠ b.y +ᶠ b.z *ᶠ b.z))

/-- **C84**: the number of points of the spring is the whole part of a number: the numbers of which `n` is the whole part
are those from `n` to below `n + 1`, in units of 2^-149 -/
theorem C84_whole (x : F32) (n : Nat) (hn : n < 2 ^ 64 - 1) (hx : x.isNaN = false) (hi : x.isInf = false) :
    f32AsUsize x = n ↔ (n = 0 ∧ x.isNeg = true) ∨
      (x.isNeg = false ∧ (n : Int) * 2 ^ 149 ≤ x.val ∧ x.val < (n + 1) * 2 ^ 149) := by
  unfold f32AsUsize F32.val
  cases hg : x.isNeg with
  | true => simp [hx]; omega
  | false =>
    simp only [hx, hi, Bool.or_self, Bool.false_eq_true, if_false, and_false, false_or, true_and]
    have e : ((n : Int) * 2 ^ 149 ≤ (x.mag : Int) ∧ (x.mag : Int) < (n + 1) * 2 ^ 149) ↔ x.mag / 2 ^ 149 = n := by
      have hp : 0 < 2 ^ 149 := Nat.two_pow_pos _
      rw [Nat.div_eq_iff hp]
      constructor
      · rintro ⟨a, b⟩
        have a' : n * 2 ^ 149 ≤ x.mag := by exact_mod_cast a
        have b' : x.mag < (n + 1) * 2 ^ 149 := by exact_mod_cast b
        omega
      · rintro ⟨a, b⟩
        have b' : x.mag < (n + 1) * 2 ^ 149 := by omega
        exact ⟨by exact_mod_cast a, by exact_mod_cast b'⟩
    rw [e]
    omega

/-- 47.5 has the whole part 47 -/
example : (0x423e0000 : F32).isNaN = false ∧ (0x423e0000 : F32).isInf = false ∧ f32AsUsize 0x423e0000 = 47 := by decide

/-- **C84**: the spring is a wire around the axis of the plunger, of 24 points for each turn, with as many turns as its
loops and twice its end loops; point `i` is at the angle `i` of all points, as high as `springHeight` says. Around each
point is a circle of 8 vertices with the radius of the spring's gauge, whose normals point away from the wire; each
circle is joined with the next. With fewer than two points it is empty. -/
theorem C84_spring (A : ItemFns) (p : Plunger) (m : RawMesh) (h : (buildPlungerMeshes A p).spring = some m) :
    let turns := p.spring_loops +ᶠ p.spring_end_loops *ᶠ fTwo
    let n := f32AsUsize (turns *ᶠ 0x41c00000 /- 24 -/)
    let nEnd := f32AsUsize (p.spring_end_loops *ᶠ 0x41c00000)
    let radius := p.width *ᶠ fHalf *ᶠ p.spring_diam
    let start := collarFront A p +ᶠ p.ring_width
    let yEnd := p.spring_end_loops *ᶠ p.spring_gauge *ᶠ 0x400ccccd /- 2.2 -/
    let dyEnd := if 1 < nEnd then yEnd /ᶠ ofNat (nEnd - 1) else 0
    let dyMain := if 1 < n - nEnd then (p.height -ᶠ start -ᶠ yEnd) /ᶠ ofNat (n - nEnd - 1) else p.height -ᶠ start
    m.vertices.length = (if n < 2 then 0 else 8 * n) ∧ m.faces.length = 16 * (n - 1) ∧
    (2 ≤ n → ∀ i j, i < n → j < 8 → ∃ w, m.vertices[8 * i + j]? = some w ∧
      let angle := ofNat i /ᶠ ofNat n *ᶠ turns *ᶠ fTwo *ᶠ fPi
      let y := springHeight start dyEnd dyMain nEnd (decide (nEnd < n)) i
      let t := wireDirection radius angle (if nEnd ≤ i ∧ nEnd < n then dyMain else dyEnd)
      let b := wireSide t
      let theta := ofNat j /ᶠ ofNat 8 *ᶠ fTwo *ᶠ fPi
      ⟨w.x, w.y, w.z⟩ = coilPoint (springPoint y p.width radius angle) (cross b t) b p.spring_gauge theta ∧
        w.nx = (cross b t).x *ᶠ Ops.cos theta +ᶠ b.x *ᶠ Ops.sin theta ∧
        w.ny = (cross b t).y *ᶠ Ops.cos theta +ᶠ b.y *ᶠ Ops.sin theta ∧
        w.nz = (cross b t).z *ᶠ Ops.cos theta +ᶠ b.z *ᶠ Ops.sin theta ∧
        w.tu = (Ops.sin angle +ᶠ f32One) *ᶠ fHalf ∧
        w.tv = 0x3f428f5c /- 0.76 -/ +ᶠ ofNat j /ᶠ ofNat 8 *ᶠ 0x3e6147ae /- 0.22 -/) ∧
    (8 * n ≤ 65536 → ∀ i j, i + 1 < n → j < 8 →
      m.faces[16 * i + 2 * j]? = some ⟨8 * i + j, 8 * i + (j + 1) % 8, 8 * i + 8 + j⟩ ∧
      m.faces[16 * i + 2 * j + 1]? = some ⟨8 * i + (j + 1) % 8, 8 * i + 8 + (j + 1) % 8, 8 * i + 8 + j⟩) := by
  have hm := plunger_parts.2.1 m h
  intro turns n nEnd radius start yEnd dyEnd dyMain
  have hl := (springMesh_spec A p).1
  rw [← hm] at hl
  unfold springMesh at hm
  dsimp only at hm
  have hn : (springPlan A p).segments = n := rfl
  rw [hn] at hl hm
  refine ⟨hl, ?_⟩
  split at hm
  · next h2 =>
    subst hm
    refine ⟨by simp only [List.length_nil]; omega, fun h => absurd h (by omega), fun _ i j hi hj => by omega⟩
  · next h2 =>
    obtain ⟨-, -, z, q1, q2⟩ := springFold_at p.spring_gauge n _ 0 ⟨[], []⟩ m
      (by rw [helixLoop_length, Nat.zero_add]) rfl rfl hm
    have hne : helixLoop (springPlan A p) (springPlan A p).yStart (springPlan A p).dyEnd 0 n ≠ [] := by
      intro h0
      have := congrArg List.length h0
      rw [helixLoop_length] at this
      simp only [List.length_nil] at this
      omega
    rw [if_neg hne] at z
    have hmain : (decide (0 < (springPlan A p).nMain)) = decide (nEnd < n) := by
      rw [decide_eq_decide]
      show 0 < n - nEnd ↔ _
      omega
    have hmain' : (0 < (springPlan A p).nMain) ↔ nEnd < n := by
      show 0 < n - nEnd ↔ _
      omega
    refine ⟨z, fun _ i j hi hj => ?_, fun h16 i j hi hj => ?_⟩
    · have ha := helixLoop_at (springPlan A p) n 0 (springPlan A p).yStart (springPlan A p).dyEnd i hi rfl
        (by
          intro h0
          rw [if_neg]
          intro hc
          have := hc.1
          omega)
        (fun _ _ => rfl)
      have hv := q1 i _ ha j hj
      simp only [Nat.zero_add] at hv
      rw [hmain] at hv
      have h8 : ∀ (g : F32) (hp : HelixPoint), (coilRing g hp)[j]? = (List.range 8)[j]?.map fun j =>
          let theta := ofNat j /ᶠ ofNat 8 *ᶠ fTwo *ᶠ fPi
          let b := wireSide hp.tangent
          let n := cross b hp.tangent
          let (c, s) := (Ops.cos theta, Ops.sin theta)
          let p := coilPoint hp.pos n b g theta
          ⟨p.x, p.y, p.z, n.x *ᶠ c +ᶠ b.x *ᶠ s, n.y *ᶠ c +ᶠ b.y *ᶠ s, n.z *ᶠ c +ᶠ b.z *ᶠ s,
            (Ops.sin hp.angle +ᶠ f32One) *ᶠ fHalf, f0p76 +ᶠ ofNat j /ᶠ ofNat 8 *ᶠ f0p22⟩ := by
        intro g hp
        rw [← List.getElem?_map]
        rfl
      rw [h8, List.getElem?_range hj] at hv
      have hdy : (if nEnd ≤ i ∧ 0 < (springPlan A p).nMain then dyMain else dyEnd) =
          if nEnd ≤ i ∧ nEnd < n then dyMain else dyEnd := by
        simp only [hmain']
      refine ⟨_, hv, ?_⟩
      dsimp only
      rw [← hdy]
      exact ⟨rfl, rfl, rfl, rfl, rfl, rfl⟩
    · have hc := coilFaces_at (base := 8 * i) (by omega) hj
      have hq := q2 i (by omega)
      simp only [Nat.zero_add] at hq
      refine ⟨by rw [hq _ (by omega), hc.1]; simp, by rw [Nat.add_assoc, hq _ (by omega), hc.2]; simp⟩

end

section
open Scene

/-- **C84**: in IEEE arithmetic, the points of a tip whose places are numbers (the text may say `NaN`) are in order:
none is before one that comes earlier. Points at the same place keep the order of the text. -/
theorem C84_tip_order (sin cos : F32 → F32) (pow : F32 → F32 → F32) (A : ItemFns) (es : List TipEntry)
    (vs : List (F32 × F32)) (hf : ∀ e ∈ es, e.Fine)
    (hv : (es.map fun e => (A.parse32 e.first, A.parse32 e.second)) = vs.map fun v => (some v.1, some v.2))
    (hn : ∀ v ∈ vs, v.1.isNaN = false) :
    letI := ieee sin cos pow
    let points : List TipPoint := vs.map fun v => ⟨v.1, Arith.mul v.2 fHalf⟩
    (parseTipShape A (tipText es)).Pairwise (fun a b => Arith.lt b.y a.y = false) ∧
      ∀ k : F32, k.isNaN = false →
        (parseTipShape A (tipText es)).filter (fun t => !Arith.lt t.y k && !Arith.lt k t.y) =
          points.filter (fun t => !Arith.lt t.y k && !Arith.lt k t.y) := by
  let _ := ieee sin cos pow
  intro points
  have hs : (splitAtChar ';' (tipText es)).filterMap (tipSegment A) = points := tipText_segments A es vs hf hv
  have hp : ∀ t ∈ points, t.y.isNaN = false := by
    intro t ht
    obtain ⟨v, hv, rfl⟩ := List.mem_map.1 ht
    exact hn v hv
  obtain ⟨h1, h2⟩ := sortPoints_order sin cos pow hp
  have hq : ∀ t ∈ sortPoints points, t.y.isNaN = false := fun t ht => hp t ((sortPoints_perm _).mem_iff.1 ht)
  unfold parseTipShape
  rw [hs]
  refine ⟨?_, ?_⟩
  · refine List.Pairwise.imp_of_mem ?_ h1
    intro a b ha hb hab
    rw [ieeeBelow_lt (hq a ha) (hq b hb)] at hab
    show ieeeLt b.y a.y = false
    simpa using hab
  · intro k hk
    have e : ∀ l : List TipPoint, (∀ t ∈ l, t.y.isNaN = false) →
        l.filter (fun t => !Arith.lt t.y k && !Arith.lt k t.y) =
          l.filter (fun u => ieeeBelow u.y k && ieeeBelow k u.y) := by
      intro l hl
      apply List.filter_congr
      intro t ht
      rw [ieeeBelow_lt (hl t ht) hk, ieeeBelow_lt hk (hl t ht), Bool.and_comm]
      rfl
    rw [e _ hq, e _ hp, h2 k]

end

/-! ### With exact numbers -/

section
open Lean.Grind Scene
attribute [local instance] Semiring.natCast
variable {α : Type} [Field α] {sin cos radians : α → α}

/-- **C84**, with exact numbers: the points of a ring are at its radius from the axis, and the normals away from the axis
have length one and point from the axis to the point. -/
theorem C84_round (y c r a : α) (h : cos (-a) * cos (-a) + sin (-a) * sin (-a) = 1) :
    letI := exactOps sin cos radians
    let p := lathePoint y c r a
    p.y = y ∧ p.x * p.x + (p.z - c) * (p.z - c) = r * r ∧
      ∀ len, len ≠ 0 → len * len = p.x * p.x + (p.z - c) * (p.z - c) →
        let n := radialNormal len c p
        dot n n = 1 ∧ n.x * len = p.x ∧ n.y = 0 ∧ n.z * len = p.z - c := by
  intro p
  have e1 : p = ⟨r * sin (-a), y, c + r * cos (-a)⟩ := by
    simp only [p]
    unfold lathePoint
    simp only [exact_add, exact_mul, exact_neg, exact_sin, exact_cos]
  refine ⟨by rw [e1], by rw [e1]; dsimp only; grind, ?_⟩
  intro len h0 hl n
  have e2 : n = ⟨p.x / len, 0, (p.z - c) / len⟩ := by
    simp only [n]
    unfold radialNormal
    simp only [exact_div, exact_sub, exact_zero]
  refine ⟨?_, ?_, ?_, ?_⟩ <;> rw [e2] <;> dsimp only [dot]
  · grind
  · grind
  · grind

/-- **C84**, with exact numbers: the middle of the wire of a spring is at its radius from the axis. -/
theorem C84_spring_round (y c r a : α) (h : cos a * cos a + sin a * sin a = 1) :
    letI := exactOps sin cos radians
    let p := springPoint y c r a
    p.y = y ∧ p.x * p.x + (p.z - c) * (p.z - c) = r * r := by
  intro p
  have e1 : p = ⟨0 + r * cos a, y, c + r * sin a⟩ := by
    simp only [p]
    unfold springPoint
    simp only [exact_add, exact_mul, exact_zero, exact_sin, exact_cos]
  refine ⟨by rw [e1], by rw [e1]; dsimp only; grind⟩

/-- **C84**, with exact numbers: for a direction `t` of length one and any `up` that is not along it, the two directions
across the wire have length one and are at right angles to each other and to `t`. -/
theorem C84_wire_frame (t up : V3 α) (len : α) (ht : dot t t = 1) :
    letI := exactOps sin cos radians
    let c := cross t up
    len ≠ 0 → len * len = dot c c →
      let b := c.over len
      let n := cross b t
      dot b b = 1 ∧ dot n n = 1 ∧ dot b n = 0 ∧ dot b t = 0 ∧ dot n t = 0 := by
  intro c h0 hl b n
  have ec : c = ⟨t.y * up.z - t.z * up.y, t.z * up.x - t.x * up.z, t.x * up.y - t.y * up.x⟩ := by
    simp only [c]
    unfold cross
    simp only [exact_sub, exact_mul]
  have eb : b = ⟨c.x / len, c.y / len, c.z / len⟩ := by
    simp only [b]
    unfold V3.over
    simp only [exact_div]
  have en : n = ⟨b.y * t.z - b.z * t.y, b.z * t.x - b.x * t.z, b.x * t.y - b.y * t.x⟩ := by
    simp only [n]
    unfold cross
    simp only [exact_sub, exact_mul]
  have hbb : dot b b = 1 := by
    rw [eb]
    dsimp only [dot] at *
    grind
  have hbt : dot b t = 0 := by
    rw [eb]
    dsimp only [dot] at *
    rw [ec]
    dsimp only
    grind
  clear_value b n c
  subst en
  dsimp only [dot] at *
  refine ⟨hbb, ?_, ?_, hbt, ?_⟩ <;> grind

/-- **C84**, with exact numbers: the vertices of a circle of the spring are at the radius of the wire from its middle, in
the plane across it, and their normals point from the middle to them. -/
theorem C84_wire_round (h n b t : V3 α) (r a : α) (hu : cos a * cos a + sin a * sin a = 1) (hn : dot n n = 1)
    (hb : dot b b = 1) (hnb : dot b n = 0) (hnt : dot n t = 0) (hbt : dot b t = 0) :
    letI := exactOps sin cos radians
    let p := coilPoint h n b r a
    let m : V3 α := ⟨n.x * cos a + b.x * sin a, n.y * cos a + b.y * sin a, n.z * cos a + b.z * sin a⟩
    sqDist p h = r * r ∧ dot (Geometry.sub p h) t = 0 ∧ dot m m = 1 ∧
      Geometry.sub p h = ⟨r * m.x, r * m.y, r * m.z⟩ := by
  intro p m
  have e : p = ⟨h.x + r * m.x, h.y + r * m.y, h.z + r * m.z⟩ := by
    simp only [p]
    unfold coilPoint
    simp only [exact_add, exact_mul, exact_sin, exact_cos]
    rfl
  have hs : Geometry.sub p h = ⟨r * m.x, r * m.y, r * m.z⟩ := by
    rw [e]
    simp only [Geometry.sub, V3.mk.injEq]
    refine ⟨?_, ?_, ?_⟩ <;> grind
  have hm : dot m m = 1 := by
    simp only [m]
    dsimp only [dot] at *
    grind
  have hmt : dot m t = 0 := by
    simp only [m]
    dsimp only [dot] at *
    grind
  clear_value m
  refine ⟨?_, ?_, hm, hs⟩
  · rw [sqDist, hs]
    dsimp only [dot] at *
    grind
  · rw [hs]
    dsimp only [dot] at *
    grind

theorem springHeight_end (start dyEnd dyMain : α) (nEnd : Nat) (main : Bool) :
    letI := exactOps sin cos radians
    ∀ k, k ≤ nEnd → springHeight start dyEnd dyMain nEnd main k = start + (k : α) * dyEnd
  | 0, _ => by
    have e : @springHeight α (exactOps sin cos radians) start dyEnd dyMain nEnd main 0 = start := rfl
    rw [e]
    have : ((0 : Nat) : α) = 0 := Semiring.natCast_zero
    grind
  | k + 1, hk => by
    have e : @springHeight α (exactOps sin cos radians) start dyEnd dyMain nEnd main (k + 1) =
      @springHeight α (exactOps sin cos radians) start dyEnd dyMain nEnd main k +
        (if nEnd ≤ k ∧ main = true then dyMain else dyEnd) := rfl
    rw [e, springHeight_end start dyEnd dyMain nEnd main k (by omega), if_neg (by omega), Semiring.natCast_succ]
    grind

theorem springHeight_main (start dyEnd dyMain : α) (nEnd : Nat) :
    letI := exactOps sin cos radians
    ∀ k, springHeight start dyEnd dyMain nEnd true (nEnd + k) = start + (nEnd : α) * dyEnd + (k : α) * dyMain
  | 0 => by
    rw [Nat.add_zero, springHeight_end start dyEnd dyMain nEnd true nEnd (Nat.le_refl _)]
    have : ((0 : Nat) : α) = 0 := Semiring.natCast_zero
    grind
  | k + 1 => by
    have e : @springHeight α (exactOps sin cos radians) start dyEnd dyMain nEnd true (nEnd + (k + 1)) =
      @springHeight α (exactOps sin cos radians) start dyEnd dyMain nEnd true (nEnd + k) +
        (if nEnd ≤ nEnd + k ∧ true = true then dyMain else dyEnd) := rfl
    rw [e, springHeight_main start dyEnd dyMain nEnd k, if_pos ⟨by omega, rfl⟩, Semiring.natCast_succ]
    grind

/-- **C84**, with exact numbers: the wire begins at the collar and, if the end and the rest have two points each, ends
behind the rod by one step of the end: the step from the end to the rest is one more than the code counts. -/
theorem C84_spring_ends (start length yEnd dyEnd dyMain : α) (nEnd nMain : Nat)
    (hEnd : dyEnd * ((nEnd : α) + 1) = yEnd) (hMain : dyMain * ((nMain : α) + 1) = length - yEnd) :
    letI := exactOps sin cos radians
    springHeight start dyEnd dyMain (nEnd + 2) true 0 = start ∧
      springHeight start dyEnd dyMain (nEnd + 2) true (nEnd + 2 + (nMain + 2) - 1) = start + length + dyEnd := by
  refine ⟨rfl, ?_⟩
  rw [show nEnd + 2 + (nMain + 2) - 1 = nEnd + 2 + (nMain + 1) by omega, springHeight_main]
  simp only [Semiring.natCast_add, Semiring.natCast_one]
  have : ((2 : Nat) : α) = 2 := by exact Semiring.natCast_eq_ofNat 2
  grind

end
/-! ### Examples -/

section
attribute [local instance] ieeeExact
open Scene

/-- reads the numbers of the example -/
def plungerFns : ItemFns where
  asin x := x
  atan2 _ _ := 0
  parse32 w :=
    if w = ['0'] then some 0 else if w = ['2'] then some fTwo else if w = ['.', '5'] then some fHalf
    else if w = ['1'] then some f32One else none

/-- a plunger with a tip of two points and a spring of one loop -/
def plungerSample : Plunger :=
  { Plunger.default with
    width := fTwo, spring_loops := f32One, spring_end_loops := fHalf, tip_shape := "0 1; 2  .5 ".toList }

/-- the entries of the text of its tip -/
def plungerEntries : List TipEntry :=
  [{ first := ['0'], second := ['1'] }, { lead := [' '], first := ['2'], gap := [' ', ' '], second := ['.', '5'], trail := [' '] }]

/-- they meet the conditions of `C84_tip_text`, and are in order -/
example : tipText plungerEntries = plungerSample.tip_shape ∧ (∀ e ∈ plungerEntries, e.Fine) ∧
    (plungerEntries.map fun e => (plungerFns.parse32 e.first, plungerFns.parse32 e.second)) =
      [((0 : F32), f32One), (fTwo, fHalf)].map (fun v => (some v.1, some v.2)) ∧
    parseTipShape plungerFns plungerSample.tip_shape = [⟨0, fHalf⟩, ⟨fTwo, 0x3e800000⟩] := by
  refine ⟨by decide +kernel, ?_, by decide +kernel, by decide +kernel⟩
  intro e he
  simp only [plungerEntries, List.mem_cons, List.not_mem_nil, or_false] at he
  rcases he with rfl | rfl <;> simp only [TipEntry.Fine, IsBlank, IsWord] <;> decide

/-- points that are not in order are put in order; what is not two numbers is left out -/
example : parseTipShape plungerFns "2 1;0 .5;x 1; 1".toList = [⟨0, 0x3e800000⟩, ⟨fTwo, fHalf⟩] := by decide +kernel

/-- all parts of the plunger are there, with these numbers of vertices and triangles; a flat one has its rod only -/
example : (buildPlungerMeshes plungerFns plungerSample).rod.map (fun m => (m.vertices.length, m.faces.length)) =
      some (145, 144) ∧
    (buildPlungerMeshes plungerFns plungerSample).spring.map (fun m => (m.vertices.length, m.faces.length)) =
      some (384, 752) ∧
    (buildPlungerMeshes plungerFns plungerSample).ring.map (fun m => (m.vertices.length, m.faces.length)) =
      some (96, 96) ∧
    (buildPlungerMeshes plungerFns plungerSample).tip.map (fun m => (m.vertices.length, m.faces.length)) =
      some (32, 32) ∧
    (buildPlungerMeshes plungerFns { plungerSample with plunger_type := .Flat }).flat_rod.map
      (fun m => (m.vertices.length, m.faces.length)) = some (66, 64) := by
  decide +kernel

/-- **C84**, a finding: the disc that is to close the rod where the player pulls (at the height of the plunger) is at the
other end, against the collar, and faces into the rod: vertices face the player there, and none where the rod ends. -/
theorem C84_rod_cap_counterexample :
    ∃ m, (buildPlungerMeshes plungerFns plungerSample).rod = some m ∧
      (m.vertices.any fun w => w.y == plungerSample.height) = true ∧
      (m.vertices.all fun w => !(w.y == plungerSample.height && w.ny == f32One)) = true ∧
      (m.vertices.any fun w => w.y == ringTop plungerFns plungerSample && w.ny == f32One) = true ∧
      ringTop plungerFns plungerSample ≠ plungerSample.height := by
  refine ⟨rodMesh plungerFns plungerSample, rfl, ?_⟩
  decide +kernel

/-- directions meet the conditions of `C84_wire_frame` and `C84_wire_round`, steps those of `C84_spring_ends` -/
example : let t : V3 Rat := ⟨3 / 5, 4 / 5, 0⟩
    letI := exactOps (α := Rat) (fun _ => 3 / 5) (fun _ => 4 / 5) id
    dot t t = 1 ∧ (3 / 5 : Rat) * (3 / 5) = dot (cross t ⟨0, 1, 0⟩) (cross t ⟨0, 1, 0⟩) ∧
      (cross t ⟨0, 1, 0⟩).over (3 / 5) = ⟨0, 0, 1⟩ := by
  decide +kernel

end
end Vpin
