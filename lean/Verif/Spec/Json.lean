import Verif.Model.Json
import Verif.Model.Float
import Verif.Spec.Common
/-
Which numbers the JSON form keeps. `keeps` says which finite numbers come back from their decimal text
(`JsonText.keeps`).
-/
namespace Vpin

/-- a number stored as a plain JSON number: there is no JSON number for NaN and the infinities -/
def PlainF32 (keeps : F32 → Prop) (x : F32) : Prop := x.isFinite = true ∧ keeps x

/-- a number stored as a JSON number if it is finite and as a text otherwise -/
def AnyF32 (keeps : F32 → Prop) (x : F32) : Prop := x.isFinite = true → keeps x

def Vertex2D.JsonOk (keeps : F32 → Prop) (v : Vertex2D) : Prop := PlainF32 keeps v.x ∧ PlainF32 keeps v.y

def Vertex3D.JsonOk (keeps : F32 → Prop) (v : Vertex3D) : Prop :=
  PlainF32 keeps v.x ∧ PlainF32 keeps v.y ∧ PlainF32 keeps v.z

instance (keeps : F32 → Prop) [DecidablePred keeps] (x : F32) : Decidable (PlainF32 keeps x) :=
  inferInstanceAs (Decidable (_ ∧ _))

instance (keeps : F32 → Prop) [DecidablePred keeps] (x : F32) : Decidable (AnyF32 keeps x) :=
  inferInstanceAs (Decidable (_ → _))

instance (keeps : F32 → Prop) [DecidablePred keeps] (v : Vertex2D) : Decidable (v.JsonOk keeps) :=
  inferInstanceAs (Decidable (_ ∧ _))

instance (keeps : F32 → Prop) [DecidablePred keeps] (v : Vertex3D) : Decidable (v.JsonOk keeps) :=
  inferInstanceAs (Decidable (_ ∧ _))

instance {α : Type} (P : α → Prop) [DecidablePred P] : (o : Option α) → Decidable (OptP P o)
  | none => .isTrue .none
  | some v => if h : P v then .isTrue (.some h) else .isFalse fun g => h (g v rfl)

end Vpin
