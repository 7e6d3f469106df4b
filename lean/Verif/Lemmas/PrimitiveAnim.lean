import Verif.Lemmas.ItemData
/-!
The animation frame records of a primitive.
-/
namespace Vpin

theorem OReads.start {σ : Type} {hs : Handlers σ} {ops : List WOp} {s s' s'' : σ} (e : s = s')
    (h : OReads hs ops s' s'') : OReads hs ops s s'' := e ▸ h

theorem anim_list (l : List (UInt32 × Bytes)) (hd : ∀ p ∈ l, RecordData p.2) :
    ∀ (xs : List UInt32) (ys : List Bytes) (s : Primitive),
    OReads Primitive.arms
      (l.flatMap fun p => [wU32 tag!"M3AY" p.1, wData tag!"M3AX" p.2])
      { s with compressed_animation_vertices_len := some xs,
               compressed_animation_vertices_data := some ys }
      { s with compressed_animation_vertices_len := some (xs ++ l.map (·.1)),
               compressed_animation_vertices_data := some (ys ++ l.map (·.2)) } := by
  induction l with
  | nil => intro xs ys s; simpa using OReads.nil _ _
  | cons p l ih =>
    intro xs ys s
    rw [List.flatMap_cons]
    have h1 := (u32_rt.req (hs := Primitive.arms) (t := tag!"M3AY")
      (s := { s with compressed_animation_vertices_len := some xs,
                     compressed_animation_vertices_data := some ys }) (v := p.1) trivial rfl).append
      (data_rt.req (hs := Primitive.arms) (t := tag!"M3AX") (v := p.2) (hd p (by simp)) rfl)
    have h2 := ih (fun q hq => hd q (by simp [hq])) (xs ++ [p.1]) (ys ++ [p.2]) s
    refine (h1.append h2).congr ?_
    simp

theorem Primitive.anim_reads {a : Option (List UInt32)} {b : Option (List Bytes)}
    (h : AnimFrames a b) {s : Primitive} (ha : s.compressed_animation_vertices_len = none)
    (hb : s.compressed_animation_vertices_data = none) :
    OReads Primitive.arms (animOps a b) s
      { s with compressed_animation_vertices_len := a,
               compressed_animation_vertices_data := b } := by
  rcases h with ⟨rfl, rfl⟩ | ⟨ls, ds, rfl, rfl, hl, hne, hd⟩
  · refine (OReads.nil _ s).congr ?_
    show s = { s with compressed_animation_vertices_len := none,
                      compressed_animation_vertices_data := none }
    rw [← ha, ← hb]
  · cases ls with
    | nil => exact absurd rfl hne
    | cons x ls =>
      cases ds with
      | nil => simp at hl
      | cons y ds =>
        have hl' : ls.length = ds.length := by simpa using hl
        show OReads Primitive.arms (((x :: ls).zip (y :: ds)).flatMap _) s _
        rw [List.zip_cons_cons, List.flatMap_cons]
        have h1 := (u32_rt.req (hs := Primitive.arms) (t := tag!"M3AY") (s := s) (v := x)
          trivial rfl).append
          (data_rt.req (hs := Primitive.arms) (t := tag!"M3AX") (v := y) (hd y (by simp)) rfl)
        have h2 := anim_list (ls.zip ds)
          (fun p hp => hd p.2 (by simp [(List.of_mem_zip hp).2])) [x] [y] s
        refine h1.append ?_
        have e1 : (ls.zip ds).map (·.1) = ls := List.map_fst_zip (by omega)
        have e2 : (ls.zip ds).map (·.2) = ds := List.map_snd_zip (by omega)
        rw [e1, e2] at h2
        refine OReads.start ?_ h2
        obtain ⟨⟩ := s
        simp only at ha hb
        subst ha hb
        rfl

end Vpin
