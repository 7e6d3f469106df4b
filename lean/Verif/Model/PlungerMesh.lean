import Verif.Model.FlipperMesh
/-
The meshes of a plunger, /repo/src/vpx/mesh/plungers/mod.rs.

Indices are made in `u16`. A build with overflow checks panics where one does not fit; here, as in a release build,
they wrap. Memory is not modelled: a spring of very many loops takes as many vertices.
-/
namespace Vpin

section
variable {α : Type} [Ops α]
open Ops

/-- a point of `generate_lathe_ring`, /repo/src/vpx/mesh/plungers/mod.rs:160-162 -/
def lathePoint (y centerZ radius angle : α) : V3 α :=
  ⟨mul radius (sin (neg angle)), y, add centerZ (mul radius (cos (neg angle)))⟩

/-- a normal away from the axis, /repo/src/vpx/mesh/plungers/mod.rs:177-181, given the length of the vector from the axis -/
def radialNormal (len centerZ : α) (p : V3 α) : V3 α := ⟨div p.x len, zero, div (sub p.z centerZ) len⟩

/-- the vector product, /repo/src/vpx/math/vec.rs:139-145 -/
def cross (a b : V3 α) : V3 α :=
  ⟨sub (mul a.y b.z) (mul a.z b.y), sub (mul a.z b.x) (mul a.x b.z), sub (mul a.x b.y) (mul a.y b.x)⟩

/-- a vector divided by a number, /repo/src/vpx/mesh/plungers/mod.rs:521-724 -/
def V3.over (a : V3 α) (d : α) : V3 α := ⟨div a.x d, div a.y d, div a.z d⟩

/-- a point of the middle of the wire, /repo/src/vpx/mesh/plungers/mod.rs:554, 613-615 -/
def springPoint (y zCenter radius angle : α) : V3 α :=
  ⟨add zero (mul radius (cos angle)), y, add zCenter (mul radius (sin angle))⟩

/-- a point on the circle around a point of the spring, /repo/src/vpx/mesh/plungers/mod.rs:668-674: `n` and `b` are
the two directions across the wire -/
def coilPoint (h n b : V3 α) (radius theta : α) : V3 α :=
  ⟨add h.x (mul radius (add (mul n.x (cos theta)) (mul b.x (sin theta)))),
   add h.y (mul radius (add (mul n.y (cos theta)) (mul b.y (sin theta)))),
   add h.z (mul radius (add (mul n.z (cos theta)) (mul b.z (sin theta))))⟩

end

/-! ### The shape of the tip -/

/-- `char::is_whitespace` (std): the characters with the property White_Space (used in
/repo/src/vpx/mesh/plungers/mod.rs:114-136) -/
def isWhite (c : Char) : Bool :=
  let n := c.toNat
  (9 ≤ n && n ≤ 13) || n = 0x20 || n = 0x85 || n = 0xa0 || n = 0x1680 || (0x2000 ≤ n && n ≤ 0x200a) || n = 0x2028 ||
    n = 0x2029 || n = 0x202f || n = 0x205f || n = 0x3000

/-- `str::split` at one character (std) (used in /repo/src/vpx/mesh/plungers/mod.rs:114-136) -/
def splitAtChar (c : Char) : Str → List Str
  | [] => [[]]
  | x :: rest =>
    if x = c then [] :: splitAtChar c rest
    else match splitAtChar c rest with
      | [] => [[x]]
      | w :: ws => (x :: w) :: ws

/-- a character before the words of a text that begins with `next`: it begins a word of its own if `next` is white or
there is none (used in /repo/src/vpx/mesh/plungers/mod.rs:114-136) -/
def beginWord (x : Char) (next : Option Char) (ws : List Str) : List Str :=
  match next, ws with
  | some y, w :: ws => if isWhite y then [x] :: w :: ws else (x :: w) :: ws
  | _, ws => [x] :: ws

/-- `str::split_whitespace` (std): the longest runs of other characters. Surrounding white space, which the code
removes first by `trim`, makes no difference. (used in /repo/src/vpx/mesh/plungers/mod.rs:114-136) -/
def splitWhite : Str → List Str
  | [] => []
  | x :: rest => if isWhite x then splitWhite rest else beginWord x rest.head? (splitWhite rest)

/-- `struct TipShapePoint`, /repo/src/vpx/mesh/plungers/mod.rs:99-105 -/
structure TipPoint where
  y : F32
  r : F32
  deriving DecidableEq, Repr

section
variable [Arith]
open Arith

/-- one segment of the text, /repo/src/vpx/mesh/plungers/mod.rs:118-129 -/
def tipSegment (A : ItemFns) (segment : Str) : Option TipPoint :=
  match splitWhite segment with
  | a :: b :: _ =>
    match A.parse32 a, A.parse32 b with
    | some y, some r => some ⟨y, r *ᶠ fHalf⟩
    | _, _ => none
  | _ => none

/-- a point before those of a list that are not before it (used in /repo/src/vpx/mesh/plungers/mod.rs:114-136) -/
def insertPoint (t : TipPoint) : List TipPoint → List TipPoint
  | [] => [t]
  | u :: l => if u.y <ᶠ t.y then u :: insertPoint t l else t :: u :: l

/-- `slice::sort_by` (std) with the order of the code, `partial_cmp` or else equal: a stable sort. All stable sorts give
the same for numbers. When a y is NaN the code's order is no order, and what std's sort then does (it may panic) is not
specified; here it is an insertion sort. (used in /repo/src/vpx/mesh/plungers/mod.rs:114-136) -/
def sortPoints (l : List TipPoint) : List TipPoint := l.foldr insertPoint []

/-- `parse_tip_shape`, /repo/src/vpx/mesh/plungers/mod.rs:114-136 -/
def parseTipShape (A : ItemFns) (s : Str) : List TipPoint := sortPoints ((splitAtChar ';' s).filterMap (tipSegment A))

/-- the length of the tip, /repo/src/vpx/mesh/plungers/mod.rs:431-435 and again in 534-538, 763-767 -/
def tipLength (pts : List TipPoint) : F32 := (pts.getLast?.map (·.y)).getD 0

/-! ### Surfaces of revolution -/

omit [Arith] in
/-- `N_LATHE_POINTS`, /repo/src/vpx/mesh/plungers/mod.rs:78 -/
def nLathe : Nat := 16

/-- the angle of a point of a ring, /repo/src/vpx/mesh/plungers/mod.rs:154 -/
def latheAngle (i : Nat) : F32 := ofNat i /ᶠ ofNat nLathe *ᶠ fTwo *ᶠ fPi

/-- `generate_lathe_ring`, /repo/src/vpx/mesh/plungers/mod.rs:148-166 -/
def latheRing (y centerZ radius : F32) : List (V3 F32) :=
  (List.range nLathe).map fun i => lathePoint y centerZ radius (latheAngle i)

/-- `generate_ring_normals`, /repo/src/vpx/mesh/plungers/mod.rs:174-187 -/
def ringNormals (centerZ : F32) (ring : List (V3 F32)) : List (V3 F32) :=
  ring.map fun p =>
    let nz := p.z -ᶠ centerZ
    let len := sqrt (p.x *ᶠ p.x +ᶠ nz *ᶠ nz)
    if (0 : F32) <ᶠ len then radialNormal len centerZ p else ⟨f32One, 0, 0⟩

/-- 0.51 (for instance in /repo/src/vpx/mesh/plungers/mod.rs:218) -/
def f0p51 : F32 := 0x3f028f5c

/-- the vertices of a ring, /repo/src/vpx/mesh/plungers/mod.rs:216-235 and 238-257 -/
def ringVertices (ring normals : List (V3 F32)) (tv : F32) : List Vertex :=
  (ring.zip normals).zipIdx.map fun ((p, n), i) =>
    let u := f0p51 +ᶠ ofNat i *ᶠ (f32One /ᶠ ofNat ring.length)
    let u := if f32One <ᶠ u then u -ᶠ f32One else u
    ⟨p.x, p.y, p.z, n.x, n.y, n.z, u, tv⟩

omit [Arith] in
/-- a triangle of three `u16` indices (used in /repo/src/vpx/mesh/plungers/mod.rs:201-271) -/
def face16 (a b c : UInt16) : Face := ⟨a.toNat, b.toNat, c.toNat⟩

omit [Arith] in
/-- the triangles between two rings, /repo/src/vpx/mesh/plungers/mod.rs:260-268 -/
def ringFaces (n : Nat) (base : UInt16) : List Face :=
  (List.range n).flatMap fun i =>
    let i0 := base + UInt16.ofNat i
    let i1 := base + UInt16.ofNat ((i + 1) % n)
    let i2 := base + UInt16.ofNat n + UInt16.ofNat i
    let i3 := base + UInt16.ofNat n + UInt16.ofNat ((i + 1) % n)
    [face16 i0 i2 i1, face16 i1 i2 i3]

/-- `connect_rings`, /repo/src/vpx/mesh/plungers/mod.rs:201-271: the mesh with the strip added, and the next index -/
def connectRings (m : RawMesh) (ring1 ring2 normals1 normals2 : List (V3 F32)) (base : UInt16) (tv1 tv2 : F32) :
    RawMesh × UInt16 :=
  let n := ring1.length
  (⟨m.vertices ++ ringVertices ring1 normals1 tv1 ++ ringVertices ring2 normals2 tv2, m.faces ++ ringFaces n base⟩,
    base + UInt16.ofNat (2 * n))

/-- `add_disc_cap`, /repo/src/vpx/mesh/plungers/mod.rs:346-408 -/
def addDiscCap (m : RawMesh) (ring : List (V3 F32)) (flip : Bool) (normal : V3 F32) (tv : F32) : RawMesh :=
  let base := UInt16.ofNat m.vertices.length
  let n := ring.length
  let sum := ring.foldl (fun acc p => (⟨acc.x +ᶠ p.x, acc.y +ᶠ p.y, acc.z +ᶠ p.z⟩ : V3 F32)) ⟨0, 0, 0⟩
  let center : Vertex :=
    ⟨sum.x /ᶠ ofNat n, sum.y /ᶠ ofNat n, sum.z /ᶠ ofNat n, normal.x, normal.y, normal.z, fHalf, tv⟩
  let rim := ring.zipIdx.map fun (p, i) =>
    (⟨p.x, p.y, p.z, normal.x, normal.y, normal.z,
      fHalf +ᶠ fHalf *ᶠ Ops.cos (fTwo *ᶠ fPi *ᶠ ofNat i /ᶠ ofNat n), tv⟩ : Vertex)
  let fan := (List.range n).map fun i =>
    let i1 := base + 1 + UInt16.ofNat i
    let i2 := base + 1 + UInt16.ofNat ((i + 1) % n)
    if flip then face16 base i2 i1 else face16 base i1 i2
  ⟨m.vertices ++ center :: rim, m.faces ++ fan⟩

/-- strips between each ring and the next, as in /repo/src/vpx/mesh/plungers/mod.rs:474-491 and 918-931; a ring comes
with its normals and its texture coordinate -/
def connectAll (m : RawMesh) (base : UInt16) : List (List (V3 F32) × List (V3 F32) × F32) → RawMesh
  | a :: b :: rest =>
    let r := connectRings m a.1 b.1 a.2.1 b.2.1 base a.2.2 b.2.2
    connectAll r.1 r.2 (b :: rest)
  | _ => m

/-! ### The parts of a plunger -/

/-- 1.25 (for instance in /repo/src/vpx/mesh/plungers/mod.rs:296) -/
def f1p25 : F32 := 0x3fa00000

/-- `generate_flat_rod_mesh`, /repo/src/vpx/mesh/plungers/mod.rs:278-340 -/
def flatRodMesh (p : Plunger) : RawMesh :=
  let radius := p.width *ᶠ p.rod_diam *ᶠ fHalf
  let zc := p.width *ᶠ f1p25
  let ringBase := latheRing p.height zc radius
  let ringTip := latheRing (F32.neg p.stroke) zc radius
  let m := (connectRings ⟨[], []⟩ ringBase ringTip (ringNormals zc ringBase) (ringNormals zc ringTip) 0 f32One 0).1
  let m := addDiscCap m ringBase false ⟨0, f32One, 0⟩ f32One
  addDiscCap m ringTip true ⟨0, F32.neg f32One, 0⟩ 0

/-- where the collar ends, /repo/src/vpx/mesh/plungers/mod.rs:441, 445, 542, 546 -/
def ringTop (A : ItemFns) (p : Plunger) : F32 :=
  F32.neg p.stroke +ᶠ tipLength (parseTipShape A p.tip_shape) +ᶠ p.ring_gap +ᶠ p.ring_width

/-- 0.23 (for instance in /repo/src/vpx/mesh/plungers/mod.rs:478) -/
def f0p23 : F32 := 0x3e6b851f
/-- 0.74 (for instance in /repo/src/vpx/mesh/plungers/mod.rs:500) -/
def f0p74 : F32 := 0x3f3d70a4

/-- a ring of the rod, /repo/src/vpx/mesh/plungers/mod.rs:460-468, 478-479 -/
def rodRing (A : ItemFns) (p : Plunger) (i : Nat) : List (V3 F32) × List (V3 F32) × F32 :=
  let y1 := ringTop A p
  let y := y1 +ᶠ (p.height -ᶠ y1) *ᶠ (ofNat i /ᶠ ofNat 4)
  let ring := latheRing y p.width (p.width *ᶠ p.rod_diam *ᶠ fHalf)
  let tv := f0p51 +ᶠ ofNat i /ᶠ ofNat 4 *ᶠ f0p23
  (ring, ringNormals p.width ring, tv)

/-- `generate_rod_mesh`, /repo/src/vpx/mesh/plungers/mod.rs:420-504 -/
def rodMesh (A : ItemFns) (p : Plunger) : RawMesh :=
  let m := connectAll ⟨[], []⟩ 0 ((List.range 5).map (rodRing A p))
  addDiscCap m (rodRing A p 0).1 false ⟨0, f32One, 0⟩ f0p74

/-- `x as usize` (std): truncation, saturating; 0 for NaN (used in /repo/src/vpx/mesh/plungers/mod.rs:561) -/
def f32AsUsize (x : F32) : Nat :=
  if x.isNaN || x.isNeg then 0
  else if x.isInf then 2 ^ 64 - 1
  else min (2 ^ 64 - 1) (x.mag / 2 ^ 149)

/-- 2.2 (for instance in /repo/src/vpx/mesh/plungers/mod.rs:570) -/
def f2p2 : F32 := 0x400ccccd
/-- 24.0, `segments_per_turn`, /repo/src/vpx/mesh/plungers/mod.rs:560 -/
def f24 : F32 := 0x41c00000
/-- 0.99 (for instance in /repo/src/vpx/mesh/plungers/mod.rs:643) -/
def f0p99 : F32 := 0x3f7d70a4
/-- 0.76 (for instance in /repo/src/vpx/mesh/plungers/mod.rs:685) -/
def f0p76 : F32 := 0x3f428f5c
/-- 0.22 (for instance in /repo/src/vpx/mesh/plungers/mod.rs:685) -/
def f0p22 : F32 := 0x3e6147ae

/-- what a spring is made of, /repo/src/vpx/mesh/plungers/mod.rs:525-583 -/
structure SpringPlan where
  turns : F32
  segments : Nat
  nEnd : Nat
  nMain : Nat
  dyEnd : F32
  dyMain : F32
  yStart : F32
  radius : F32
  zCenter : F32

/-- the same for a plunger, /repo/src/vpx/mesh/plungers/mod.rs:521-724 -/
def springPlan (A : ItemFns) (p : Plunger) : SpringPlan :=
  let turns := p.spring_loops +ᶠ p.spring_end_loops *ᶠ fTwo
  let segments := f32AsUsize (turns *ᶠ f24)
  let nEnd := f32AsUsize (p.spring_end_loops *ᶠ f24)
  let nMain := segments - nEnd
  let yStart := ringTop A p
  let length := p.height -ᶠ yStart
  let yEnd := p.spring_end_loops *ᶠ p.spring_gauge *ᶠ f2p2
  { turns, segments, nEnd, nMain
    dyEnd := if 1 < nEnd then yEnd /ᶠ ofNat (nEnd - 1) else 0
    dyMain := if 1 < nMain then (length -ᶠ yEnd) /ᶠ ofNat (nMain - 1) else length
    yStart, radius := p.width *ᶠ fHalf *ᶠ p.spring_diam, zCenter := p.width }

/-- a point of the spring: place, direction and angle, /repo/src/vpx/mesh/plungers/mod.rs:521-724 -/
structure HelixPoint where
  pos : V3 F32
  tangent : V3 F32
  angle : F32

/-- a point of the spring at y, /repo/src/vpx/mesh/plungers/mod.rs:609-627 -/
def helixPoint (s : SpringPlan) (i : Nat) (y dy : F32) : HelixPoint :=
  let angle := ofNat i /ᶠ ofNat s.segments *ᶠ s.turns *ᶠ fTwo *ᶠ fPi
  let step := fTwo *ᶠ fPi /ᶠ f24
  let dx := F32.neg s.radius *ᶠ Ops.sin angle *ᶠ step
  let dz := s.radius *ᶠ Ops.cos angle *ᶠ step
  let len := sqrt (dx *ᶠ dx +ᶠ dy *ᶠ dy +ᶠ dz *ᶠ dz)
  { pos := springPoint y s.zCenter s.radius angle
    tangent := if (0 : F32) <ᶠ len then V3.over ⟨dx, dy, dz⟩ len else ⟨0, f32One, 0⟩
    angle }

/-- the loop over the points, /repo/src/vpx/mesh/plungers/mod.rs:598-633: `k` points from number `i` on. The last point
of the code, number `total_segments`, is not used. -/
def helixLoop (s : SpringPlan) (y dy : F32) (i : Nat) : Nat → List HelixPoint
  | 0 => []
  | k + 1 =>
    let dy := if i = s.nEnd ∧ 0 < s.nMain then s.dyMain else dy
    helixPoint s i y dy :: helixLoop s (y +ᶠ dy) dy (i + 1) k

/-- the circle of vertices around a point of the spring, /repo/src/vpx/mesh/plungers/mod.rs:637-700 -/
def coilRing (radius : F32) (h : HelixPoint) : List Vertex :=
  let t := h.tangent
  let up : V3 F32 := if F32.abs t.y <ᶠ f0p99 then ⟨0, f32One, 0⟩ else ⟨f32One, 0, 0⟩
  let b := cross t up
  let len := sqrt (b.x *ᶠ b.x +ᶠ b.y *ᶠ b.y +ᶠ b.z *ᶠ b.z)
  let b := b.over len
  let n := cross b t
  (List.range 8).map fun j =>
    let theta := ofNat j /ᶠ ofNat 8 *ᶠ fTwo *ᶠ fPi
    let (c, s) := (Ops.cos theta, Ops.sin theta)
    let p := coilPoint h.pos n b radius theta
    ⟨p.x, p.y, p.z, n.x *ᶠ c +ᶠ b.x *ᶠ s, n.y *ᶠ c +ᶠ b.y *ᶠ s, n.z *ᶠ c +ᶠ b.z *ᶠ s,
      (Ops.sin h.angle +ᶠ f32One) *ᶠ fHalf, f0p76 +ᶠ ofNat j /ᶠ ofNat 8 *ᶠ f0p22⟩

omit [Arith] in
/-- the triangles to the next circle, /repo/src/vpx/mesh/plungers/mod.rs:703-720 -/
def coilFaces (base : UInt16) : List Face :=
  let next := base + 8
  (List.range 8).flatMap fun j =>
    let j0 := UInt16.ofNat j
    let j1 := UInt16.ofNat ((j + 1) % 8)
    [face16 (base + j0) (base + j1) (next + j0), face16 (base + j1) (next + j1) (next + j0)]

/-- `generate_spring_mesh`, /repo/src/vpx/mesh/plungers/mod.rs:521-724 -/
def springMesh (A : ItemFns) (p : Plunger) : RawMesh :=
  let s := springPlan A p
  if s.segments < 2 then ⟨[], []⟩
  else
    (helixLoop s s.yStart s.dyEnd 0 s.segments).zipIdx.foldl (fun m (h, i) =>
      let base := UInt16.ofNat m.vertices.length
      ⟨m.vertices ++ coilRing p.spring_gauge h,
        if i < s.segments - 1 then m.faces ++ coilFaces base else m.faces⟩) ⟨[], []⟩

/-- 0.26 (for instance in /repo/src/vpx/mesh/plungers/mod.rs:815) -/
def f0p26 : F32 := 0x3e851eb8
/-- 0.33 (for instance in /repo/src/vpx/mesh/plungers/mod.rs:816) -/
def f0p33 : F32 := 0x3ea8f5c3
/-- 0.42 (for instance in /repo/src/vpx/mesh/plungers/mod.rs:829) -/
def f0p42 : F32 := 0x3ed70a3d
/-- 0.49 (for instance in /repo/src/vpx/mesh/plungers/mod.rs:842) -/
def f0p49 : F32 := 0x3efae148

/-- `generate_ring_mesh`, /repo/src/vpx/mesh/plungers/mod.rs:751-846 -/
def collarMesh (A : ItemFns) (p : Plunger) : RawMesh :=
  let rRod := p.width *ᶠ p.rod_diam *ᶠ fHalf
  let rRing := p.width *ᶠ p.ring_diam *ᶠ fHalf
  let yBottom := F32.neg p.stroke +ᶠ tipLength (parseTipShape A p.tip_shape) +ᶠ p.ring_gap
  let yTop := yBottom +ᶠ p.ring_width
  let ring y r := latheRing y p.width r
  let down : List (V3 F32) := List.replicate nLathe ⟨0, F32.neg f32One, 0⟩
  let up : List (V3 F32) := List.replicate nLathe ⟨0, f32One, 0⟩
  let out y := ringNormals p.width (ring y rRing)
  let r := connectRings ⟨[], []⟩ (ring yBottom rRod) (ring yBottom rRing) down down 0 f0p26 f0p33
  let r := connectRings r.1 (ring yBottom rRing) (ring yTop rRing) (out yBottom) (out yTop) r.2 f0p33 f0p42
  (connectRings r.1 (ring yTop rRing) (ring yTop rRod) up up r.2 f0p42 f0p49).1

/-- 0.24 (for instance in /repo/src/vpx/mesh/plungers/mod.rs:912) -/
def f0p24 : F32 := 0x3e75c28f

/-- `generate_tip_mesh`, /repo/src/vpx/mesh/plungers/mod.rs:877-937 -/
def tipMesh (A : ItemFns) (p : Plunger) : RawMesh :=
  let pts := parseTipShape A p.tip_shape
  if pts.length < 2 then ⟨[], []⟩
  else connectAll ⟨[], []⟩ 0 (pts.map fun t =>
    let ring := latheRing (F32.neg p.stroke +ᶠ t.y) p.width (p.width *ᶠ t.r)
    let tv := f0p24 *ᶠ t.y /ᶠ tipLength pts
    (ring, ringNormals p.width ring, tv))

/-- `build_plunger_meshes`, /repo/src/vpx/mesh/plungers/mod.rs:949-982 -/
def buildPlungerMeshes (A : ItemFns) (p : Plunger) : PlungerMeshes :=
  if !p.is_visible then ⟨none, none, none, none, none⟩
  else match p.plunger_type with
    | .Unknown | .Flat => ⟨some (flatRodMesh p), none, none, none, none⟩
    | .Modern | .Custom =>
      ⟨none, some (rodMesh A p), some (springMesh A p), some (collarMesh A p), some (tipMesh A p)⟩

end
end Vpin
