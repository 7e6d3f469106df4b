import Verif.Model.ExpandedJson
import Verif.Spec.ExpandedJson
import Verif.Lemmas.TableJson
/-! Helper lemmas: reading collections, table info, render probes, images, sounds and fonts back from JSON. -/
namespace Vpin
variable {keeps : F32 → Prop}

theorem jStrVec_ok : CodecOK keeps (jVec jStr) AnyP :=
  ⟨fun l _ => (jVec_ok (keeps := keeps) jStr_ok).back l fun _ _ => trivial,
   fun l _ => (jVec_ok jStr_ok).valid l fun _ _ => trivial,
   fun l _ => (jVec_ok (keeps := keeps) jStr_ok).notNull l fun _ _ => trivial⟩

theorem jBytes_ok : CodecOK keeps (jVec jU8) AnyP :=
  ⟨fun l _ => (jVec_ok (keeps := keeps) jU8_ok).back l fun _ _ => trivial,
   fun l _ => (jVec_ok jU8_ok).valid l fun _ _ => trivial,
   fun l _ => (jVec_ok (keeps := keeps) jU8_ok).notNull l fun _ _ => trivial⟩

theorem jCollection_ok : CodecOK keeps jCollection AnyP :=
  jStruct_ok (ps := fun s => [_, _, _, _, _]) (by decide +kernel)
    (fun s _ => .cons (req_ok jStr_ok trivial) (.cons (req_ok jStrVec_ok trivial) (.cons (req_ok jBool_ok trivial)
      (.cons (req_ok jBool_ok trivial) (.cons (req_ok jBool_ok trivial) .nil)))))
    fun s => rfl

theorem insertProp_new {k v : Str} {l : List (Str × Str)} (h : k ∉ l.map (·.1)) : insertProp k v l = l ++ [(k, v)] := by
  unfold insertProp
  rw [List.filter_eq_self.2]
  intro e he
  simp only [ne_eq, decide_eq_true_eq]
  rintro rfl
  exact h (List.mem_map.2 ⟨e, he, rfl⟩)

theorem strMap_loop : ∀ (l acc : List (Str × Str)), ((acc ++ l).map (·.1)).Nodup →
    (l.map fun e => (e.1, J.str e.2)).foldlM (fun acc e => (fun v => insertProp e.1 v acc) <$> jStr.ofJ e.2) acc
      = (Except.ok (acc ++ l) : Res _)
  | [], acc, _ => by rw [List.append_nil]; rfl
  | (k, v) :: l, acc, h => by
    have e : acc ++ (k, v) :: l = (acc ++ [(k, v)]) ++ l := by simp
    have hk : k ∉ acc.map (·.1) := by
      rw [List.map_append, List.map_cons] at h
      intro hm
      exact (List.nodup_append.mp h).2.2 _ hm _ List.mem_cons_self rfl
    rw [List.map_cons, List.foldlM_cons]
    show (Except.ok (insertProp k v acc) >>= _) = _
    rw [insertProp_new hk, e]
    rw [e] at h
    exact strMap_loop l (acc ++ [(k, v)]) h

theorem jStrMap_ok : CodecOK keeps jStrMap (fun l => (l.map (·.1)).Nodup) where
  back l h := strMap_loop l [] h
  valid l h := .map _ (by rw [List.map_map]; exact h) (by
    intro m hm
    obtain ⟨e, _, rfl⟩ := List.mem_map.mp hm
    exact .str _)
  notNull l _ e := by cases e

/-- what `jInfo` holds -/
def infoWith (screenshot : Option Bytes) (s : TableInfo × CustomInfoTags) : TableInfo × CustomInfoTags :=
  ({ s.1 with screenshot := screenshot }, s.2)

theorem infoNames : NamesOK infoJsonFields := by decide +kernel

def infoFields {keeps : F32 → Prop} {s : TableInfo × CustomInfoTags} (h : (s.1.properties.map (·.1)).Nodup) :=
  (show FieldsOK keeps s infoJsonFields [_, _, _, _, _, _, _, _, _, _, _, _, _] from
  .cons (opt_ok jStr_ok fun _ _ => trivial) (.cons (opt_ok jStr_ok fun _ _ => trivial)
    (.cons (opt_ok jStr_ok fun _ _ => trivial) (.cons (opt_ok jStr_ok fun _ _ => trivial)
    (.cons (opt_ok jStr_ok fun _ _ => trivial) (.cons (opt_ok jStr_ok fun _ _ => trivial)
    (.cons (opt_ok jStr_ok fun _ _ => trivial) (.cons (opt_ok jStr_ok fun _ _ => trivial)
    (.cons (opt_ok jStr_ok fun _ _ => trivial) (.cons (opt_ok jStr_ok fun _ _ => trivial)
    (.cons (opt_ok jStr_ok fun _ _ => trivial) (.cons (req_ok jStrMap_ok h)
    (.cons (req_ok jStrVec_ok trivial) .nil)))))))))))))

theorem info_back (shot : Option Bytes) (s : TableInfo × CustomInfoTags) (h : (s.1.properties.map (·.1)).Nodup) :
    (jInfo shot).ofJ ((jInfo none).toJ s) = .ok (infoWith shot s) := by
  show readJ infoJsonFields _ (writeJ infoJsonFields s) = _
  rw [readJ_writeJ (infoFields (keeps := fun _ => True) h) infoNames]
  rfl

theorem info_valid (s : TableInfo × CustomInfoTags) (h : (s.1.properties.map (·.1)).Nodup) :
    ((jInfo none).toJ s).Valid keeps := writeJ_valid (infoFields h) infoNames

theorem jVertex4D_ok : CodecOK keeps jVertex4D (Vertex4D.JsonOk keeps) :=
  jStruct_ok (ps := fun s => [_, _, _, _]) (by decide)
    (fun _ h => .cons (req_ok jF32_ok h.1) (.cons (req_ok jF32_ok h.2.1) (.cons (req_ok jF32_ok h.2.2.1)
      (.cons (req_ok jF32_ok h.2.2.2) .nil))))
    fun _ => rfl

theorem jRenderProbe_ok : CodecOK keeps jRenderProbe (RenderProbeWithGarbage.JsonOk keeps) :=
  jStruct_ok (ps := fun s => [_, _, _, _, _, _, _, _]) (by decide +kernel)
    (fun s h => .cons (req_ok RenderProbeType.codec_ok trivial) (.cons (req_ok jStr_ok trivial)
      (.cons (req_ok jU32_ok trivial) (.cons (optSkip_ok jU32_ok fun _ _ => trivial) (.cons (req_ok jVertex4D_ok h)
      (.cons (req_ok ReflectionMode.codec_ok trivial) (.cons (optSkip_ok jBool_ok fun _ _ => trivial)
      (.cons (optSkip_ok jBytes_ok fun _ _ => trivial) .nil))))))))
    fun s => by
      show RenderProbeWithGarbage.mk _ (Option.getD (if s.trailing_data = [] then none else some s.trailing_data) []) = s
      split
      · rename_i h; rw [Option.getD_none, ← h]
      · rfl

theorem jImage_ok : CodecOK keeps jImage (fun s => OptP (PlainF32 keeps) s.alpha_test_value) :=
  jStruct_ok (ps := fun s => [_, _, _, _, _, _, _, _, _, _, _, _, _, _]) (by decide +kernel)
    (fun s h => .cons (req_ok jStr_ok trivial) (.cons (optSkip_ok jStr_ok fun _ _ => trivial)
      (.cons (req_ok jStr_ok trivial) (.cons (optSkip_ok jU32_ok fun _ _ => trivial)
      (.cons (optSkip_ok jU32_ok fun _ _ => trivial) (.cons (optSkip_ok jU32_ok fun _ _ => trivial)
      (.cons (optSkip_ok jF32_ok h) (.cons (optSkip_ok jBool_ok fun _ _ => trivial)
      (.cons (optSkip_ok jBool_ok fun _ _ => trivial) (.cons (optSkip_ok jStr_ok fun _ _ => trivial)
      (.cons (optSkip_ok jStr_ok fun _ _ => trivial) (.cons (optSkip_ok jStr_ok fun _ _ => trivial)
      (.cons (optSkip_ok jStr_ok fun _ _ => trivial) (.cons (optSkip_ok jStr_ok fun _ _ => trivial) .nil))))))))))))))
    fun s => rfl

theorem jOutputTarget_ok : CodecOK keeps jOutputTarget AnyP where
  back t _ := by cases t <;> decide +kernel
  valid t _ := by cases t <;> exact .str _
  notNull t _ := by cases t <;> (intro h; cases h)

theorem jSound_ok : CodecOK keeps jSound AnyP :=
  jStruct_ok (ps := fun s => [_, _, _, _, _, _, _, _]) (by decide +kernel)
    (fun s _ => .cons (req_ok jStr_ok trivial) (.cons (req_ok jStr_ok trivial) (.cons (default_ok jStr_ok trivial)
      (.cons (req_ok jU32_ok trivial) (.cons (req_ok jU32_ok trivial) (.cons (req_ok jU32_ok trivial)
      (.cons (req_ok jOutputTarget_ok trivial) (.cons (optSkip_ok jStr_ok fun _ _ => trivial) .nil))))))))
    fun s => rfl

theorem fontDataNames : NamesOK FontData.jsonFields := by decide +kernel

def fontDataFields {keeps : F32 → Prop} {s : FontData} :=
  (show FieldsOK keeps s FontData.jsonFields [_, _] from
    .cons (req_ok jStr_ok trivial) (.cons (req_ok jStr_ok trivial) .nil))

theorem jFontData_back (s : FontData) : jFontData.ofJ (jFontData.toJ s) = .ok { s with data := [] } := by
  show readJ FontData.jsonFields _ (writeJ FontData.jsonFields s) = _
  rw [readJ_writeJ (fontDataFields (keeps := fun _ => True)) fontDataNames]
  rfl

theorem jFontData_valid (s : FontData) : (jFontData.toJ s).Valid keeps := writeJ_valid fontDataFields fontDataNames

theorem md5_back {h : Bytes} (hl : h.length = 16) : md5OfText (hexEncode h) = some h := by
  unfold md5OfText
  rw [hexDecode_encode]
  simp [hl]

end Vpin
