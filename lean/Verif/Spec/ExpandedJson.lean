import Verif.Model.RenderProbe
import Verif.Model.Image
import Verif.Spec.Json
/-
Which render probes and images their JSON form can hold.
-/
namespace Vpin

def Vertex4D.JsonOk (keeps : F32 → Prop) (v : Vertex4D) : Prop :=
  PlainF32 keeps v.x ∧ PlainF32 keeps v.y ∧ PlainF32 keeps v.z ∧ PlainF32 keeps v.w

def RenderProbeWithGarbage.JsonOk (keeps : F32 → Prop) (s : RenderProbeWithGarbage) : Prop :=
  s.render_probe.reflection_plane.JsonOk keeps

/-- the alpha test value is a number the JSON text keeps, and a hash has its 16 bytes -/
structure ImageData.JsonOk (keeps : F32 → Prop) (s : ImageData) : Prop where
  alpha : PlainF32 keeps s.alpha_test_value
  hash : ∀ h, s.md5_hash = some h → h.length = 16

end Vpin
