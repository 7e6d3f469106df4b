import Verif.Model.Common
import Verif.Model.Enums
/-
`Bumper`, /repo/src/vpx/gameitem/bumper.rs
Generated by tools/gen_items.py from the source; each definition cites what it models.
-/
namespace Vpin


/-- `struct Bumper`, /repo/src/vpx/gameitem/bumper.rs:11-63
The five shared fields are grouped in `shared` (see `SharedAttrs`). -/
structure Bumper where
  name : Str
  center : Vertex2D
  radius : F32
  threshold : F32
  force : F32
  scatter : Option F32
  height_scale : F32
  ring_speed : F32
  orientation : F32
  ring_drop_offset : Option F32
  cap_material : Str
  base_material : Str
  socket_material : Str
  ring_material : Option Str
  surface : Str
  is_cap_visible : Bool
  is_base_visible : Bool
  is_ring_visible : Option Bool
  is_socket_visible : Option Bool
  hit_event : Option Bool
  is_collidable : Option Bool
  is_reflection_enabled : Option Bool
  timer : TimerData
  shared : SharedAttrs
  deriving DecidableEq, Repr

/-- `Bumper::default`, /repo/src/vpx/gameitem/bumper.rs:130-163 (floating point values as bit patterns) -/
def Bumper.default : Bumper where
  name := []
  center := Vertex2D.default
  radius := 0x42340000
  threshold := 0x3f800000
  force := 0x41700000
  scatter := none
  height_scale := 0x42b40000
  ring_speed := 0x3f000000
  orientation := 0
  ring_drop_offset := none
  cap_material := []
  base_material := []
  socket_material := []
  ring_material := none
  surface := []
  is_cap_visible := true
  is_base_visible := true
  is_ring_visible := none
  is_socket_visible := none
  hit_event := none
  is_collidable := none
  is_reflection_enabled := none
  timer := TimerData.default
  shared := SharedAttrs.default

/-- the value the reader starts from, /repo/src/vpx/gameitem/bumper.rs:225-319 -/
def Bumper.init : Bumper := Bumper.default

/-- the `timer` field, /repo/src/vpx/gameitem/bumper.rs:53 -/
def Bumper.timerL : Lens Bumper TimerData := ⟨fun s => s.timer, fun t s => { s with timer := t }⟩

/-- the shared fields, /repo/src/vpx/gameitem/bumper.rs:56 -/
def Bumper.sharedL : Lens Bumper SharedAttrs := ⟨fun s => s.shared, fun a s => { s with shared := a }⟩

/-- match arms of `Bumper::biff_read`, /repo/src/vpx/gameitem/bumper.rs:225-319 -/
def Bumper.arms : Handlers Bumper :=
  [(tag!"VCEN", fld getVertex2D fun v s => { s with center := v }),
   (tag!"RADI", fld getF32 fun v s => { s with radius := v }),
   (tag!"THRS", fld getF32 fun v s => { s with threshold := v }),
   (tag!"FORC", fld getF32 fun v s => { s with force := v }),
   (tag!"BSCT", fld getF32 fun v s => { s with scatter := some v }),
   (tag!"HISC", fld getF32 fun v s => { s with height_scale := v }),
   (tag!"RISP", fld getF32 fun v s => { s with ring_speed := v }),
   (tag!"ORIN", fld getF32 fun v s => { s with orientation := v }),
   (tag!"RDLI", fld getF32 fun v s => { s with ring_drop_offset := some v }),
   (tag!"MATR", fld getString fun v s => { s with cap_material := v }),
   (tag!"BAMA", fld getString fun v s => { s with base_material := v }),
   (tag!"SKMA", fld getString fun v s => { s with socket_material := v }),
   (tag!"RIMA", fld getString fun v s => { s with ring_material := some v }),
   (tag!"SURF", fld getString fun v s => { s with surface := v }),
   (tag!"NAME", fld getWide fun v s => { s with name := v }),
   (tag!"CAVI", fld getBool fun v s => { s with is_cap_visible := v }),
   (tag!"BSVS", fld getBool fun v s => { s with is_base_visible := v }),
   (tag!"RIVS", fld getBool fun v s => { s with is_ring_visible := some v }),
   (tag!"SKVS", fld getBool fun v s => { s with is_socket_visible := some v }),
   (tag!"HAHE", fld getBool fun v s => { s with hit_event := some v }),
   (tag!"COLI", fld getBool fun v s => { s with is_collidable := some v }),
   (tag!"REEN", fld getBool fun v s => { s with is_reflection_enabled := some v })] ++
  timerArms Bumper.timerL ++
  sharedArms Bumper.sharedL

/-- `Bumper::biff_read`, /repo/src/vpx/gameitem/bumper.rs:225-319 -/
def Bumper.read (data : Bytes) : Res Bumper := readStruct Bumper.arms Bumper.init data

/-- calls made by `Bumper::biff_write` before `close(true)`, /repo/src/vpx/gameitem/bumper.rs:321-367 -/
def Bumper.ops (s : Bumper) : List WOp := List.flatten [
  [wVertex2D tag!"VCEN" s.center],
  [wF32 tag!"RADI" s.radius],
  s.timer.ops,
  [wF32 tag!"THRS" s.threshold],
  [wF32 tag!"FORC" s.force],
  opt (wF32 tag!"BSCT") s.scatter,
  [wF32 tag!"HISC" s.height_scale],
  [wF32 tag!"RISP" s.ring_speed],
  [wF32 tag!"ORIN" s.orientation],
  opt (wF32 tag!"RDLI") s.ring_drop_offset,
  [wString tag!"MATR" s.cap_material],
  [wString tag!"BAMA" s.base_material],
  [wString tag!"SKMA" s.socket_material],
  opt (wString tag!"RIMA") s.ring_material,
  [wString tag!"SURF" s.surface],
  [wWide tag!"NAME" s.name],
  [wBool tag!"CAVI" s.is_cap_visible],
  [wBool tag!"BSVS" s.is_base_visible],
  opt (wBool tag!"RIVS") s.is_ring_visible,
  opt (wBool tag!"SKVS") s.is_socket_visible,
  opt (wBool tag!"HAHE") s.hit_event,
  opt (wBool tag!"COLI") s.is_collidable,
  opt (wBool tag!"REEN") s.is_reflection_enabled,
  s.shared.ops]

/-- `Bumper::biff_write`, /repo/src/vpx/gameitem/bumper.rs:321-367 -/
def Bumper.write (s : Bumper) : Res Bytes := writeBiff s.ops

end Vpin
