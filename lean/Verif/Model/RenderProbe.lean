import Verif.Model.Common
import Verif.Model.Enums
/-
/repo/src/vpx/renderprobe.rs and /repo/src/vpx/gameitem/vertex4d.rs
-/
namespace Vpin

/-- `Vertex4D`, /repo/src/vpx/gameitem/vertex4d.rs:6-11 -/
structure Vertex4D where
  x : F32
  y : F32
  z : F32
  w : F32
  deriving DecidableEq, Repr

/-- `Vertex4D::biff_read`, /repo/src/vpx/gameitem/vertex4d.rs:36-44 -/
def getVertex4D : R Vertex4D := do
  let x ← getF32
  let y ← getF32
  let z ← getF32
  return ⟨x, y, z, ← getF32⟩

/-- `write_tagged(tag, &Vertex4D)`, /repo/src/vpx/gameitem/vertex4d.rs:46-53 -/
def wVertex4D (t : Tag) (v : Vertex4D) : WOp :=
  .sized t (le32 v.x ++ le32 v.y ++ le32 v.z ++ le32 v.w)

/-- `RenderProbe`, /repo/src/vpx/renderprobe.rs:227-241 -/
structure RenderProbe where
  type_ : RenderProbeType
  name : Str
  roughness : UInt32
  roughness_clear : Option UInt32
  reflection_plane : Vertex4D
  reflection_mode : ReflectionMode
  disable_light_reflection : Option Bool
  deriving DecidableEq, Repr

/-- `RenderProbe::default`, /repo/src/vpx/renderprobe.rs:306-318 -/
def RenderProbe.default : RenderProbe where
  type_ := .PlaneReflection
  name := []
  roughness := 0
  roughness_clear := none
  reflection_plane := ⟨0, 0, 0, 0⟩
  reflection_mode := .None
  disable_light_reflection := none

/-- match arms of `RenderProbe::biff_read`, /repo/src/vpx/renderprobe.rs:320-350 -/
def RenderProbe.arms : Handlers RenderProbe :=
  [(tag!"TYPE", fld (getEnum RenderProbeType.ofU32) fun v s => { s with type_ := v }),
   (tag!"NAME", fld getString fun v s => { s with name := v }),
   (tag!"RBAS", fld getU32 fun v s => { s with roughness := v }),
   (tag!"RCLE", fld getU32 fun v s => { s with roughness_clear := some v }),
   (tag!"RPLA", fld getVertex4D fun v s => { s with reflection_plane := v }),
   (tag!"RMOD", fld (getEnum ReflectionMode.ofU32) fun v s => { s with reflection_mode := v }),
   (tag!"RLMP", fld getBool fun v s => { s with disable_light_reflection := some v })]

/-- calls made by `RenderProbe::biff_write` before `close(true)`,
/repo/src/vpx/renderprobe.rs:352-367 -/
def RenderProbe.ops (s : RenderProbe) : List WOp := List.flatten [
  [wEnum RenderProbeType.toU32 tag!"TYPE" s.type_],
  [wString tag!"NAME" s.name],
  [wU32 tag!"RBAS" s.roughness],
  opt (wU32 tag!"RCLE") s.roughness_clear,
  [wVertex4D tag!"RPLA" s.reflection_plane],
  [wEnum ReflectionMode.toU32 tag!"RMOD" s.reflection_mode],
  opt (wBool tag!"RLMP") s.disable_light_reflection]

/-- `RenderProbeWithGarbage`, /repo/src/vpx/renderprobe.rs:248-251 -/
structure RenderProbeWithGarbage where
  render_probe : RenderProbe
  trailing_data : Bytes
  deriving DecidableEq, Repr

/-- `get_remaining`, /repo/src/vpx/biff.rs:410-412, right after `next`: `&data[pos..]` panics if
`pos` is behind the end, that is if the tag just read was cut off -/
def getRemaining : R Bytes := fun r =>
  if r.raw.length < 4 then .error .panic else .ok (r.rest, r)

/-- `RenderProbeWithGarbage::biff_read` on a new reader, /repo/src/vpx/renderprobe.rs:369-380 -/
def RenderProbeWithGarbage.read (data : Bytes) : Res RenderProbeWithGarbage :=
  match readWith RenderProbe.arms RenderProbe.default { Rd.new data with warn := false } with
  | .error e => .error e
  | .ok (probe, r) =>
    match getRemaining r with
    | .error e => .error e
    | .ok (rest, _) => .ok ⟨probe, rest⟩

/-- `RenderProbeWithGarbage::biff_write` on a new writer, /repo/src/vpx/renderprobe.rs:382-387: the
probe is closed, then the trailing data is appended -/
def RenderProbeWithGarbage.write (s : RenderProbeWithGarbage) : Res Bytes :=
  match runOps {} s.render_probe.ops with
  | .error e => .error e
  | .ok w =>
    match w.close true with
    | .error e => .error e
    | .ok w => .ok (w.write s.trailing_data).data

end Vpin
