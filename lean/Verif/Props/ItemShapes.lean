import Verif.Spec.ItemShapes
import Verif.Props.Placement
/-
C82: the meshes of bumpers, gates, hit targets, kickers, spinners, triggers, balls, bulbs and decals.
-/
namespace Vpin
open Lean.Grind Geometry

/-! ### With exact numbers -/

section
variable {α : Type} [Field α] {sin cos radians : α → α}

theorem exact_sub (x y : α) : @Ops.sub α (exactOps sin cos radians) x y = x - y := rfl
theorem exact_radians (x : α) : @Ops.radians α (exactOps sin cos radians) x = radians x := rfl

theorem mat3_rotateZ (a : α) (p : V3 α) :
    letI := exactOps sin cos radians
    (Mat3.rotateZ a).multiplyVector p = turnZ (cos a) (sin a) p := by
  simp only [Mat3.rotateZ, Mat3.multiplyVector, exact_add, exact_mul, exact_neg, exact_zero, exact_one, exact_sin,
    exact_cos, turnZ, V3.mk.injEq]
  refine ⟨?_, ?_, ?_⟩ <;> grind

theorem times_stretch (p : V3 α) (x y z : α) :
    letI := exactOps sin cos radians
    p.times x y z = stretch ⟨x, y, z⟩ p := by
  simp only [V3.times, exact_mul, stretch, V3.mk.injEq]
  refine ⟨?_, ?_, ?_⟩ <;> grind

theorem raise_move (p : V3 α) (d : α) :
    letI := exactOps sin cos radians
    p.raise d = move ⟨0, 0, d⟩ p := by
  obtain ⟨x, y, z⟩ := p
  simp only [V3.raise, exact_add, move, V3.mk.injEq]
  refine ⟨?_, ?_, ?_⟩ <;> grind

/-- **C82**, with exact numbers: the base and the ring of a bumper are turned by its orientation, then stretched by its
radius to the sides and by its height upwards; the socket is moved up by 5, the cap is twice as wide and moved up by the
height. -/
theorem C82_bumper (five two orientation radius height : α) (p : V3 α) :
    letI := exactOps sin cos radians
    let turned := turnZ (cos (radians orientation)) (sin (radians orientation)) p
    bumperPoint orientation radius height p = stretch ⟨radius, radius, height⟩ turned ∧
      bumperSocketPoint five orientation radius height p =
        move ⟨0, 0, five⟩ (stretch ⟨radius, radius, height⟩ turned) ∧
      bumperCapPoint two orientation radius height p =
        move ⟨0, 0, height⟩ (stretch ⟨radius * two, radius * two, height⟩ turned) := by
  refine ⟨?_, ?_, ?_⟩
  · unfold bumperPoint; rw [mat3_rotateZ, times_stretch]; rfl
  · unfold bumperSocketPoint; rw [mat3_rotateZ, times_stretch, raise_move]; rfl
  · unfold bumperCapPoint; rw [mat3_rotateZ, times_stretch, raise_move]; rfl

/-- **C82**, with exact numbers: a spinner is turned by its rotation and made `length` times as large; so is the bracket
of a gate, and the wire of a gate is only turned. A hit target is stretched by its size and then turned. The body of a
kicker is moved up, turned, and made `radius` times as large; balls, bulbs and the plates of kickers are only made larger.
A trigger is turned and tilted by its matrix, stretched, and moved up. -/
theorem C82_points (angle length up : α) (size p : V3 α) (m : Matrix3D α) :
    letI := exactOps sin cos radians
    let turn := turnZ (cos (radians angle)) (sin (radians angle))
    let larger := stretch ⟨length, length, length⟩
    spinnerPoint angle length p = larger (turn p) ∧
      gateBracketPoint angle length p = larger (turn p) ∧
      gateWirePoint angle p = turn p ∧
      hitTargetPoint angle size p = turn (stretch size p) ∧
      kickerPoint angle up length p = larger (turn (move ⟨0, 0, up⟩ p)) ∧
      scaledPoint length p = larger p ∧
      triggerPoint m size.x size.y size.z up p = move ⟨0, 0, up⟩ (stretch size (m.transformVertex p)) := by
  refine ⟨?_, ?_, ?_, ?_, ?_, ?_, ?_⟩
  · unfold spinnerPoint; rw [mat3_rotateZ, times_stretch]; rfl
  · unfold gateBracketPoint Matrix3D.scaleUniform
    refine (transform_mult (affine_rotateZ _) (affine_scale _ _ _) _).trans ?_
    rw [(transform_scale ⟨length, length, length⟩ _).1, (transform_rotateZ _ _).1]; rfl
  · unfold gateWirePoint; rw [(transform_rotateZ _ _).1]; rfl
  · unfold hitTargetPoint; rw [mat3_rotateZ, times_stretch]; rfl
  · unfold kickerPoint; rw [(transform_rotateZ _ _).1, times_stretch, raise_move]; rfl
  · unfold scaledPoint; rw [times_stretch]
  · unfold triggerPoint; rw [times_stretch, raise_move]

/-- **C82**, with exact numbers: the normals of bumpers, hit targets, spinners, gates and kickers are turned with their
item. -/
theorem C82_normals (angle : α) (n : V3 α) :
    letI := exactOps sin cos radians
    turnedNormal angle n = turnZ (cos (radians angle)) (sin (radians angle)) n ∧
      rowTurnedNormal angle n = turnZ (cos (radians angle)) (sin (radians angle)) n := by
  constructor
  · unfold turnedNormal; rw [mat3_rotateZ]; rfl
  · unfold rowTurnedNormal; rw [(transform_rotateZ _ _).2]; rfl

/-- the matrix of a trigger, with its tilt: WireB and WireC are tilted first -/
theorem C82_trigger_matrix (tilt angle : α) (p : V3 α) :
    letI := exactOps sin cos radians
    let turn := turnZ (cos angle) (sin angle)
    ((Matrix3D.rotateX tilt).mult (.rotateZ angle)).transformVertex p = turn (turnX (cos tilt) (sin tilt) p) ∧
      (Matrix3D.rotateZ angle).transformVertex p = turn p := by
  refine ⟨?_, (transform_rotateZ _ _).1⟩
  refine (transform_mult (affine_rotateX _) (affine_rotateZ _) _).trans ?_
  rw [(transform_rotateZ _ _).1, (transform_rotateX _ _).1]

theorem dot_larger (k : α) (p q : V3 α) : dot (stretch ⟨k, k, k⟩ p) (stretch ⟨k, k, k⟩ q) = k * k * dot p q := by
  simp only [dot, stretch]
  grind

/-- **C82**, with exact numbers: the meshes of spinners, of the brackets of gates, of the bodies of kickers, of balls and
of bulbs are similar to their table: all distances are those of the table times the length or the radius. Distances
along the wire of a gate are those of the table. -/
theorem C82_similar (angle length up : α)
    (h : cos (radians angle) * cos (radians angle) + sin (radians angle) * sin (radians angle) = 1) :
    letI := exactOps sin cos radians
    Similar (spinnerPoint angle length) length ∧ Similar (gateBracketPoint angle length) length ∧
      Similar (gateWirePoint angle) 1 ∧ Similar (kickerPoint angle up length) length ∧
      Similar (scaledPoint length) length := by
  have hp := fun p => C82_points (sin := sin) (cos := cos) (radians := radians) angle length up ⟨0, 0, 0⟩ p
    ⟨⟨0, 0, 0, 0⟩, ⟨0, 0, 0, 0⟩, ⟨0, 0, 0, 0⟩, ⟨0, 0, 0, 0⟩⟩
  refine ⟨?_, ?_, ?_, ?_, ?_⟩ <;> intro p q
  · rw [(hp p).1, (hp q).1, sqDist, stretch_sub, turnZ_sub, dot_larger, turnZ_dot h]; rfl
  · rw [(hp p).2.1, (hp q).2.1, sqDist, stretch_sub, turnZ_sub, dot_larger, turnZ_dot h]; rfl
  · rw [(hp p).2.2.1, (hp q).2.2.1, sqDist, turnZ_sub, turnZ_dot h, sqDist]; grind
  · rw [(hp p).2.2.2.2.1, (hp q).2.2.2.2.1, sqDist, stretch_sub, turnZ_sub, dot_larger, turnZ_dot h, move_sub]
    rfl
  · rw [(hp p).2.2.2.2.2.1, (hp q).2.2.2.2.2.1, sqDist, stretch_sub, dot_larger]; rfl

/-- **C82**, with exact numbers: normals keep their lengths and the angles between them, and stay at right angles to what
they were at right angles to, for the meshes that are similar to their tables. -/
theorem C82_right_angles (angle length up : α)
    (h : cos (radians angle) * cos (radians angle) + sin (radians angle) * sin (radians angle) = 1) :
    letI := exactOps sin cos radians
    Turning (turnedNormal angle) ∧ Turning (rowTurnedNormal angle) ∧
      KeepsRightAngles (spinnerPoint angle length) (turnedNormal angle) ∧
      KeepsRightAngles (gateBracketPoint angle length) (rowTurnedNormal angle) ∧
      KeepsRightAngles (gateWirePoint angle) (rowTurnedNormal angle) ∧
      KeepsRightAngles (kickerPoint angle up length) (rowTurnedNormal angle) ∧
      KeepsRightAngles (scaledPoint length) id := by
  have hp := fun p => C82_points (sin := sin) (cos := cos) (radians := radians) angle length up ⟨0, 0, 0⟩ p
    ⟨⟨0, 0, 0, 0⟩, ⟨0, 0, 0, 0⟩, ⟨0, 0, 0, 0⟩, ⟨0, 0, 0, 0⟩⟩
  have hn := fun n => C82_normals (sin := sin) (cos := cos) (radians := radians) angle n
  have hk : ∀ n d : V3 α, dot n d = 0 → dot n (stretch ⟨length, length, length⟩ d) = 0 := by
    intro n d h0
    have : dot n (stretch ⟨length, length, length⟩ d) = length * dot n d := by simp only [dot, stretch]; grind
    rw [this, h0]; grind
  refine ⟨?_, ?_, ?_, ?_, ?_, ?_, ?_⟩
  · intro n m; rw [(hn n).1, (hn m).1, turnZ_dot h]
  · intro n m; rw [(hn n).2, (hn m).2, turnZ_dot h]
  · intro n p q h0
    rw [(hn n).1, (hp p).1, (hp q).1, stretch_sub, turnZ_sub]
    exact hk _ _ (by rw [turnZ_dot h]; exact h0)
  · intro n p q h0
    rw [(hn n).2, (hp p).2.1, (hp q).2.1, stretch_sub, turnZ_sub]
    exact hk _ _ (by rw [turnZ_dot h]; exact h0)
  · intro n p q h0
    rw [(hn n).2, (hp p).2.2.1, (hp q).2.2.1, turnZ_sub, turnZ_dot h]
    exact h0
  · intro n p q h0
    rw [(hn n).2, (hp p).2.2.2.2.1, (hp q).2.2.2.2.1, stretch_sub, turnZ_sub, move_sub]
    exact hk _ _ (by rw [turnZ_dot h]; exact h0)
  · intro n p q h0
    rw [(hp p).2.2.2.2.2.1, (hp q).2.2.2.2.2.1, stretch_sub]
    exact hk _ _ h0

/-- **C82**, with exact numbers: seen from above a bumper is similar to its table with the radius as the factor (the cap
with twice the radius), and heights are times the height of the bumper. -/
theorem C82_bumper_size (five two orientation radius height : α)
    (h : cos (radians orientation) * cos (radians orientation) + sin (radians orientation) * sin (radians orientation) = 1)
    (p q : V3 α) :
    letI := exactOps sin cos radians
    let base := bumperPoint orientation radius height
    let socket := bumperSocketPoint five orientation radius height
    let cap := bumperCapPoint two orientation radius height
    (sqDistXy (base p) (base q) = radius * radius * sqDistXy p q ∧
      sqDistXy (socket p) (socket q) = radius * radius * sqDistXy p q ∧
      sqDistXy (cap p) (cap q) = (two * radius) * (two * radius) * sqDistXy p q) ∧
    (base p).z = height * p.z ∧ (socket p).z = height * p.z + five ∧ (cap p).z = height * p.z + height := by
  have hp := fun p => C82_bumper (sin := sin) (cos := cos) (radians := radians) five two orientation radius height p
  dsimp only
  rw [(hp p).1, (hp p).2.1, (hp p).2.2, (hp q).1, (hp q).2.1, (hp q).2.2]
  simp only [sqDistXy, stretch, move, turnZ]
  generalize cos (radians orientation) = c at *
  generalize sin (radians orientation) = s at *
  refine ⟨⟨?_, ?_, ?_⟩, ?_, ?_, ?_⟩ <;> grind

/-- **C82**, with exact numbers: a decal is a rectangle of its width and height around the origin, turned by its
rotation: `up` is the height of the half, upwards on the table (to smaller y). -/
theorem C82_decal (angle halfWidth halfHeight : α) (top left : Bool) :
    letI := exactOps sin cos radians
    decalCorner (sin angle) (cos angle) halfWidth halfHeight top left =
      ((turnZ (cos angle) (sin angle)
          ⟨if left then -halfWidth else halfWidth, if top then -halfHeight else halfHeight, 0⟩).x,
        (turnZ (cos angle) (sin angle)
          ⟨if left then -halfWidth else halfWidth, if top then -halfHeight else halfHeight, 0⟩).y) := by
  cases top <;> cases left <;>
    simp only [decalCorner, exact_add, exact_sub, exact_mul, exact_neg, exact_zero, turnZ, Bool.false_eq_true, if_true,
      if_false, Prod.mk.injEq] <;> constructor <;> grind

end

/-! ### With the numbers of the program -/

section
variable [Arith]
open Arith Scene

omit [Arith] in
theorem placed_mesh (t : MeshTable) (point normal : V3 F32 → V3 F32) :
    PlacedTable (t.mesh point normal) t point normal where
  faces := rfl
  count := by simp [MeshTable.mesh]
  vertex := by
    intro k v w hv hw
    rw [MeshTable.mesh, List.getElem?_map, hv] at hw
    cases hw
    exact ⟨rfl, rfl, rfl, rfl⟩

omit [Arith] in
theorem shown_if (c : Bool) (t : MeshTable) (point normal : V3 F32 → V3 F32) :
    Shown (if c then some (t.mesh point normal) else none) (c = true) t point normal := by
  cases c
  · exact ⟨by simp, by intro m h; cases h⟩
  · refine ⟨by simp, ?_⟩
    intro m h
    cases h
    exact placed_mesh _ _ _

/-- **C82**: a bumper has the parts that its four switches show (an older file without the two later ones has both), each
the table of its part placed as `C82_bumper` says. -/
theorem C82_bumpers (T : MeshTables) (b : Bumper) :
    let M := buildBumperMeshes T b
    let turn := turnedNormal b.orientation
    Shown M.base (b.is_base_visible = true) T.bumperBase (bumperPoint b.orientation b.radius b.height_scale) turn ∧
      Shown M.ring (b.is_ring_visible ≠ some false) T.bumperRing
        (bumperPoint b.orientation b.radius b.height_scale) turn ∧
      Shown M.socket (b.is_socket_visible ≠ some false) T.bumperSocket
        (bumperSocketPoint 0x40a00000 b.orientation b.radius b.height_scale) turn ∧
      Shown M.cap (b.is_cap_visible = true) T.bumperCap
        (bumperCapPoint 0x40000000 b.orientation b.radius b.height_scale) turn := by
  have hg : ∀ o : Option Bool, o ≠ some false ↔ o.getD true = true := by
    intro o; cases o with
    | none => simp
    | some x => cases x <;> simp
  refine ⟨shown_if _ _ _ _, ?_, ?_, shown_if _ _ _ _⟩
  · rw [hg]; exact shown_if _ _ _ _
  · rw [hg]; exact shown_if _ _ _ _

/-- **C82**: a visible gate has its wire, by its type (a file without a type has the first), and its bracket if that is
shown; a gate that is not visible has neither. The normals are made to have length one. -/
theorem C82_gates (T : MeshTables) (g : Gate) :
    (buildGateMeshes T g = none ↔ g.is_visible = false) ∧
    ∀ bracket wire, buildGateMeshes T g = some (bracket, wire) →
      let normal := fun n => (rowTurnedNormal g.rotation n).normalized
      Shown bracket (g.show_bracket = true) T.gateBracket (gateBracketPoint g.rotation g.length) normal ∧
        PlacedTable wire
          (match g.gate_type with
            | some .WireRectangle => T.gateWireRectangle
            | some .Plate => T.gatePlate
            | some .LongPlate => T.gateLongPlate
            | _ => T.gateWire) (gateWirePoint g.rotation) normal := by
  unfold buildGateMeshes buildGateMeshesUnchecked
  cases g.is_visible
  · refine ⟨by simp, ?_⟩
    intro b w h
    cases h
  · refine ⟨by simp, ?_⟩
    intro b w h
    cases h
    refine ⟨shown_if _ _ _ _, ?_⟩
    cases g.gate_type with
    | none => exact placed_mesh _ _ _
    | some t => cases t <;> exact placed_mesh _ _ _

/-- **C82**: a visible hit target is the table of its type, placed as `C82_points` says. -/
theorem C82_hit_targets (T : MeshTables) (h : HitTarget) :
    Shown (buildHitTargetMesh T h) (h.is_visible = true)
      (match h.target_type with
        | .DropTargetBeveled => T.dropTargetT2
        | .DropTargetSimple => T.dropTargetT3
        | .DropTargetFlatSimple => T.dropTargetT4
        | .HitTargetRound => T.hitTargetRound
        | .HitTargetRectangle => T.hitTargetRectangle
        | .HitFatTargetRectangle => T.hitTargetFatRectangle
        | .HitFatTargetSquare => T.hitTargetFatSquare
        | .HitTargetSlim => T.hitTargetT1Slim
        | .HitFatTargetSlim => T.hitTargetT2Slim)
      (hitTargetPoint h.rot_z ⟨h.size.x, h.size.y, h.size.z⟩) (turnedNormal h.rot_z) := by
  unfold buildHitTargetMesh buildHitTargetMeshUnchecked
  cases h.is_visible
  · exact ⟨by simp, by intro m h; cases h⟩
  · refine ⟨by simp, ?_⟩
    intro m h
    cases h
    cases h.target_type <;> exact placed_mesh _ _ _

/-- **C82**: a spinner has a plate, and a bracket if that is shown. -/
theorem C82_spinners (T : MeshTables) (s : Spinner) :
    let M := buildSpinnerMeshes T s
    Shown M.1 (s.show_bracket = true) T.spinnerBracket (spinnerPoint s.rotation s.length) (turnedNormal s.rotation) ∧
      PlacedTable M.2 T.spinnerPlate (spinnerPoint s.rotation s.length) (turnedNormal s.rotation) :=
  ⟨shown_if _ _ _ _, placed_mesh _ _ _⟩

/-- **C82**: a kicker that is not of the invisible type has a body, by its type, as wide as its radius, and a plate, which
is flat black (its texture coordinates are zero) and a little smaller. -/
theorem C82_kickers (T : MeshTables) (k : Kicker) :
    let M := buildKickerMeshes T k
    (M.1.isSome = true ↔ k.kicker_type ≠ .Invisible) ∧ (M.2.isSome = true ↔ k.kicker_type ≠ .Invisible) ∧
    (∀ m, M.2 = some m → ∃ t up angle,
      kickerLook T k.orientation (k.orientation +ᶠ 0x42b40000 /- 90 -/) k.kicker_type = some (t, up, angle) ∧
        PlacedTable m t (kickerPoint angle up k.radius) (rowTurnedNormal angle)) ∧
    ∀ m, M.1 = some m → (m.faces = T.kickerPlate.tris.map fun x => ⟨x.1, x.2.1, x.2.2⟩) ∧
      m.vertices.length = T.kickerPlate.vertices.length ∧
      ∀ (i : Nat) v w, T.kickerPlate.vertices[i]? = some v → m.vertices[i]? = some w →
        ⟨w.x, w.y, w.z⟩ = scaledPoint
          (match k.kicker_type with
            | .Cup => k.radius
            | .Cup2 => k.radius *ᶠ 0x3f5eb852 /- 0.87 -/
            | .Williams | .Gottlieb => k.radius *ᶠ 0x3f6147ae /- 0.88 -/
            | _ => k.radius *ᶠ 0x3f51eb85 /- 0.82 -/) ⟨v.x, v.y, v.z⟩ ∧
          (w.nx, w.ny, w.nz) = (v.nx, v.ny, v.nz) ∧ w.tu = 0 ∧ w.tv = 0 := by
  have hbody : k.kicker_type ≠ .Invisible → ∃ t up angle,
      kickerLook T k.orientation (k.orientation +ᶠ 0x42b40000) k.kicker_type = some (t, up, angle) ∧
        kickerBody T k = (t, up, angle) := by
    intro hi
    unfold kickerBody
    cases h : k.kicker_type <;> first | exact absurd h hi | exact ⟨_, _, _, rfl, rfl⟩
  unfold buildKickerMeshes
  by_cases hi : k.kicker_type = .Invisible
  · rw [if_pos hi]
    exact ⟨by simp [hi], by simp [hi], (by intro m h; cases h), (by intro m h; cases h)⟩
  · rw [if_neg hi]
    refine ⟨by simp [hi], by simp [hi], ?_, ?_⟩
    · intro m hm
      cases hm
      obtain ⟨t, up, angle, h1, h2⟩ := hbody hi
      refine ⟨t, up, angle, h1, ?_⟩
      unfold kickerBodyMesh
      rw [h2]
      exact placed_mesh _ _ _
    · intro m hm
      cases hm
      refine ⟨rfl, by simp [kickerPlateMesh, MeshTable.mesh], ?_⟩
      intro i v w hv hw
      unfold kickerPlateMesh MeshTable.mesh at hw
      dsimp only at hw
      rw [List.getElem?_map, List.getElem?_map, hv] at hw
      cases hw
      refine ⟨?_, rfl, rfl, rfl⟩
      unfold kickerPlateRadius
      cases k.kicker_type <;> rfl

/-- **C82**: a ball is the table of the ball as large as its radius, and the bulb and the socket of a light, which are
there if the light shows its bulb and is not on the backglass, are as large as its mesh radius. -/
theorem C82_balls (T : MeshTables) (b : Ball) (l : Light) :
    PlacedTable (buildBallMesh T b) T.ball (scaledPoint b.radius) id ∧
    (buildLightMeshes T l ≠ none ↔ l.is_backglass = false ∧ l.show_bulb_mesh = true) ∧
    ∀ M, buildLightMeshes T l = some M →
      Shown M.1 True T.bulbLight (scaledPoint l.mesh_radius) id ∧
        Shown M.2 True T.bulbSocket (scaledPoint l.mesh_radius) id := by
  refine ⟨placed_mesh _ _ _, ?_, ?_⟩
  · unfold buildLightMeshes
    cases l.is_backglass <;> cases l.show_bulb_mesh <;> simp
  · intro M h
    unfold buildLightMeshes at h
    split at h
    · cases h
    · split at h
      · cases h
      · cases h
        exact ⟨⟨by simp, fun m h => by cases h; exact placed_mesh _ _ _⟩,
          ⟨by simp, fun m h => by cases h; exact placed_mesh _ _ _⟩⟩

/-- **C82**: a trigger has a mesh if it is visible and has a shape: the table of the shape, tilted and turned, as large
as its radius or its two scales say, moved up, and the surface of wires moved outwards by their thickness. -/
theorem C82_triggers (T : MeshTables) (t : Trigger) :
    ((buildTriggerMesh T t).isSome = true ↔ t.is_visible = true ∧ t.shape ≠ .None) ∧
    ∀ m, buildTriggerMesh T t = some m → ∃ look, triggerLook t.shape = some look ∧
      (m.faces = (look.table T).tris.map fun x => ⟨x.1, x.2.1, x.2.2⟩) ∧
      m.vertices.length = (look.table T).vertices.length ∧
      ∀ (k : Nat) v w, (look.table T).vertices[k]? = some v → m.vertices[k]? = some w →
        let turn : Matrix3D F32 := .rotateZ (Ops.radians t.rotation)
        let matrix := look.tilt.elim turn fun a => (Matrix3D.rotateX (Ops.radians a)).mult turn
        let size : V3 F32 := if look.byRadius then ⟨t.radius, t.radius, t.radius⟩ else ⟨t.scale_x, t.scale_y, f32One⟩
        let place := triggerPoint matrix size.x size.y size.z look.lift ⟨v.x, v.y, v.z⟩
        let n := (matrix.transformNormal ⟨v.nx, v.ny, v.nz⟩).normalized
        let thick := t.wire_thickness.getD 0
        (⟨w.nx, w.ny, w.nz⟩ : V3 F32) = n ∧ w.tu = v.tu ∧ w.tv = v.tv ∧
          (⟨w.x, w.y, w.z⟩ : V3 F32) = if look.wire then
            ⟨place.x +ᶠ n.x *ᶠ thick, place.y +ᶠ n.y *ᶠ thick, place.z +ᶠ n.z *ᶠ thick⟩ else place := by
  constructor
  · unfold buildTriggerMesh MeshTables.trigger
    cases t.is_visible <;> cases t.shape <;> simp
  · intro m h
    unfold buildTriggerMesh at h
    split at h
    · cases h
    · cases hs : t.shape <;> rw [hs] at h <;> first
        | (cases h; done)
        | (cases h
           refine ⟨_, rfl, rfl, by simp, ?_⟩
           intro k v w hv hw
           rw [List.getElem?_map, hv] at hw
           cases hw
           simp only [triggerVertex, hs]
           exact ⟨rfl, trivial, trivial, rfl⟩)

/-- **C82**: a decal has a mesh if it is an image, with the name of one, and not on the backglass: two triangles, which
make up the rectangle of its four corners (`C82_decal`), facing up, with the whole image on it. -/
theorem C82_decals (d : Decal) :
    (buildDecalMesh d ≠ none ↔ d.decal_type = .Image ∧ d.backglass = false ∧ d.image ≠ []) ∧
    ∀ m, buildDecalMesh d = some m →
      m.faces = [⟨0, 1, 2⟩, ⟨2, 1, 3⟩] ∧
      m.vertices = [(true, true), (true, false), (false, true), (false, false)].map fun (top, left) =>
        let angle : F32 := Ops.radians d.rotation
        let c := decalCorner (Ops.sin angle) (Ops.cos angle) (d.width *ᶠ fHalf) (d.height *ᶠ fHalf) top left
        ⟨c.1, c.2, 0, 0, 0, f32One, if left then 0 else f32One, if top then 0 else f32One⟩ := by
  constructor
  · unfold buildDecalMesh
    cases d.decal_type <;> cases d.backglass <;> cases d.image <;> simp
  · intro m h
    unfold buildDecalMesh at h
    split at h
    · cases h
    · split at h
      · cases h
      · split at h
        · cases h
        · cases h
          exact ⟨rfl, rfl⟩

/-- **C82**: a normal made to have length one keeps its direction: it is the normal times one number, or the normal
itself if that has no length. -/
theorem C82_normalized (n : V3 F32) :
    n.normalized = n ∨ ∃ k, (⟨n.x *ᶠ k, n.y *ᶠ k, n.z *ᶠ k⟩ : V3 F32) = n.normalized ∧
      k = f32One /ᶠ sqrt (n.x *ᶠ n.x +ᶠ n.y *ᶠ n.y +ᶠ n.z *ᶠ n.z) := by
  unfold V3.normalized
  dsimp only
  split
  · exact Or.inr ⟨_, rfl, rfl⟩
  · exact Or.inl rfl

end

/-! ### Concrete cases -/

/-- the condition of `C82_similar`, `C82_right_angles` and `C82_bumper_size` is met by every angle of `quarterSin` and
`quarterCos`; a point of a spinner of length 2 turned from x to y, of a bumper, of its cap, and a corner of a decal -/
example : (∀ a, quarterCos a * quarterCos a + quarterSin a * quarterSin a = 1) ∧
    letI := exactOps quarterSin quarterCos (fun a => a / 90)
    spinnerPoint 90 2 (⟨3, 0, 1⟩ : V3 Rat) = ⟨0, 6, 2⟩ ∧ bumperPoint 90 45 80 (⟨1, 0, 1⟩ : V3 Rat) = ⟨0, 45, 80⟩ ∧
      bumperCapPoint 2 90 45 80 (⟨1, 0, 1⟩ : V3 Rat) = ⟨0, 90, 160⟩ ∧
      hitTargetPoint 90 ⟨2, 3, 4⟩ (⟨1, 1, 1⟩ : V3 Rat) = ⟨-3, 2, 4⟩ ∧
      kickerPoint 90 1 5 (⟨1, 0, 1⟩ : V3 Rat) = ⟨0, 5, 10⟩ ∧
      decalCorner 1 0 (5 : Rat) 2 true true = (2, -5) :=
  ⟨quarter_unit, by decide +kernel⟩

/-- the normals of a bumper are only turned: where the height is not the radius they are not at right angles to the
surface any more -/
theorem C82_bumper_normal_counterexample :
    letI := exactOps (α := Rat) quarterSin quarterCos id
    let p : V3 Rat := ⟨1, 0, 1⟩
    let q : V3 Rat := ⟨0, 0, 0⟩
    let n : V3 Rat := ⟨1, 0, -1⟩
    dot n (Geometry.sub p q) = 0 ∧
      dot (turnedNormal 0 n) (Geometry.sub (bumperPoint 0 1 2 p) (bumperPoint 0 1 2 q)) ≠ 0 := by
  decide +kernel

/-- nor are those of a hit target that is not as wide as high -/
theorem C82_target_normal_counterexample :
    letI := exactOps (α := Rat) quarterSin quarterCos id
    let p : V3 Rat := ⟨1, 0, 1⟩
    let q : V3 Rat := ⟨0, 0, 0⟩
    let n : V3 Rat := ⟨1, 0, -1⟩
    dot n (Geometry.sub p q) = 0 ∧
      dot (turnedNormal 0 n) (Geometry.sub (hitTargetPoint 0 ⟨1, 1, 2⟩ p) (hitTargetPoint 0 ⟨1, 1, 2⟩ q)) ≠ 0 := by
  decide +kernel

/-- a trigger with two scales is stretched after it was turned, along the table and not along itself: edges at a right
angle do not stay so (here it is turned by the angle with sine 4/5) -/
theorem C82_trigger_sheared_counterexample :
    letI := exactOps (α := Rat) (fun _ => 4 / 5) (fun _ => 3 / 5) id
    let point := triggerPoint (.rotateZ 1) 2 1 1 0
    let o : V3 Rat := ⟨0, 0, 0⟩
    let a : V3 Rat := ⟨1, 0, 0⟩
    let b : V3 Rat := ⟨0, 1, 0⟩
    dot (Geometry.sub a o) (Geometry.sub b o) = 0 ∧
      dot (Geometry.sub (point a) (point o)) (Geometry.sub (point b) (point o)) ≠ 0 := by
  decide +kernel

section
attribute [local instance] ieeeExact

/-- in IEEE arithmetic, with the tables of the program: a bumper without a cap in a file without the switch of the ring,
the number of vertices of its parts -/
example :
    let b := buildBumperMeshes meshTables { Bumper.default with is_cap_visible := false, is_ring_visible := none }
    [b.base, b.socket, b.ring, b.cap].map (·.map (·.vertices.length)) =
      [some 517, some 482, some 481, none] := by decide +kernel

/-- a trigger of tilted wire, with its first vertex -/
example : ((buildTriggerMesh meshTables { Trigger.default with shape := .WireB }).bind fun m => m.vertices[0]?).isSome := by
  decide +kernel

/-- a gate in a file without a type, a hit target, and a kicker -/
example :
    (buildGateMeshes meshTables { Gate.default with gate_type := none, is_visible := true }).map
      (fun m => m.2.vertices.length) = some meshTables.gateWire.vertices.length ∧
    ((buildHitTargetMesh meshTables HitTarget.default).isSome ∧
      (buildKickerMeshes meshTables { Kicker.default with kicker_type := .Williams }).2.isSome) := by
  decide +kernel

end
end Vpin
