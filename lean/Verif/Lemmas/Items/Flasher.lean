import Verif.Lemmas.Enums
import Verif.Lemmas.Tame
import Verif.Lemmas.ItemData
import Verif.Lemmas.Items.DragPoint
/-
`Flasher`: reading back what was written, and what the reader guarantees for every input.
Generated by tools/gen_items.py.
-/
namespace Vpin


theorem Flasher.reads {s : Flasher} (h : s.WF) : OReads Flasher.arms s.ops Flasher.init s := by
  unfold Flasher.ops
  refine .segTo ⟨s.height, Flasher.init.pos_x, Flasher.init.pos_y, Flasher.init.rot_x, Flasher.init.rot_y, Flasher.init.rot_z, Flasher.init.color, Flasher.init.name, Flasher.init.image_a, Flasher.init.image_b, Flasher.init.alpha, Flasher.init.modulate_vs_add, Flasher.init.is_visible, Flasher.init.add_blend, Flasher.init.is_dmd, Flasher.init.render_mode, Flasher.init.render_style, Flasher.init.glass_roughness, Flasher.init.glass_ambient, Flasher.init.glass_pad_top, Flasher.init.glass_pad_bottom, Flasher.init.glass_pad_left, Flasher.init.glass_pad_right, Flasher.init.image_src_link, Flasher.init.display_texture, Flasher.init.depth_bias, Flasher.init.image_alignment, Flasher.init.filter, Flasher.init.filter_amount, Flasher.init.light_map, Flasher.init.backglass, Flasher.init.drag_points, Flasher.init.timer, Flasher.init.shared⟩
    (f32_rt.req trivial rfl) rfl ?_
  refine .segTo ⟨s.height, s.pos_x, Flasher.init.pos_y, Flasher.init.rot_x, Flasher.init.rot_y, Flasher.init.rot_z, Flasher.init.color, Flasher.init.name, Flasher.init.image_a, Flasher.init.image_b, Flasher.init.alpha, Flasher.init.modulate_vs_add, Flasher.init.is_visible, Flasher.init.add_blend, Flasher.init.is_dmd, Flasher.init.render_mode, Flasher.init.render_style, Flasher.init.glass_roughness, Flasher.init.glass_ambient, Flasher.init.glass_pad_top, Flasher.init.glass_pad_bottom, Flasher.init.glass_pad_left, Flasher.init.glass_pad_right, Flasher.init.image_src_link, Flasher.init.display_texture, Flasher.init.depth_bias, Flasher.init.image_alignment, Flasher.init.filter, Flasher.init.filter_amount, Flasher.init.light_map, Flasher.init.backglass, Flasher.init.drag_points, Flasher.init.timer, Flasher.init.shared⟩
    (f32_rt.req trivial rfl) rfl ?_
  refine .segTo ⟨s.height, s.pos_x, s.pos_y, Flasher.init.rot_x, Flasher.init.rot_y, Flasher.init.rot_z, Flasher.init.color, Flasher.init.name, Flasher.init.image_a, Flasher.init.image_b, Flasher.init.alpha, Flasher.init.modulate_vs_add, Flasher.init.is_visible, Flasher.init.add_blend, Flasher.init.is_dmd, Flasher.init.render_mode, Flasher.init.render_style, Flasher.init.glass_roughness, Flasher.init.glass_ambient, Flasher.init.glass_pad_top, Flasher.init.glass_pad_bottom, Flasher.init.glass_pad_left, Flasher.init.glass_pad_right, Flasher.init.image_src_link, Flasher.init.display_texture, Flasher.init.depth_bias, Flasher.init.image_alignment, Flasher.init.filter, Flasher.init.filter_amount, Flasher.init.light_map, Flasher.init.backglass, Flasher.init.drag_points, Flasher.init.timer, Flasher.init.shared⟩
    (f32_rt.req trivial rfl) rfl ?_
  refine .segTo ⟨s.height, s.pos_x, s.pos_y, s.rot_x, Flasher.init.rot_y, Flasher.init.rot_z, Flasher.init.color, Flasher.init.name, Flasher.init.image_a, Flasher.init.image_b, Flasher.init.alpha, Flasher.init.modulate_vs_add, Flasher.init.is_visible, Flasher.init.add_blend, Flasher.init.is_dmd, Flasher.init.render_mode, Flasher.init.render_style, Flasher.init.glass_roughness, Flasher.init.glass_ambient, Flasher.init.glass_pad_top, Flasher.init.glass_pad_bottom, Flasher.init.glass_pad_left, Flasher.init.glass_pad_right, Flasher.init.image_src_link, Flasher.init.display_texture, Flasher.init.depth_bias, Flasher.init.image_alignment, Flasher.init.filter, Flasher.init.filter_amount, Flasher.init.light_map, Flasher.init.backglass, Flasher.init.drag_points, Flasher.init.timer, Flasher.init.shared⟩
    (f32_rt.req trivial rfl) rfl ?_
  refine .segTo ⟨s.height, s.pos_x, s.pos_y, s.rot_x, s.rot_y, Flasher.init.rot_z, Flasher.init.color, Flasher.init.name, Flasher.init.image_a, Flasher.init.image_b, Flasher.init.alpha, Flasher.init.modulate_vs_add, Flasher.init.is_visible, Flasher.init.add_blend, Flasher.init.is_dmd, Flasher.init.render_mode, Flasher.init.render_style, Flasher.init.glass_roughness, Flasher.init.glass_ambient, Flasher.init.glass_pad_top, Flasher.init.glass_pad_bottom, Flasher.init.glass_pad_left, Flasher.init.glass_pad_right, Flasher.init.image_src_link, Flasher.init.display_texture, Flasher.init.depth_bias, Flasher.init.image_alignment, Flasher.init.filter, Flasher.init.filter_amount, Flasher.init.light_map, Flasher.init.backglass, Flasher.init.drag_points, Flasher.init.timer, Flasher.init.shared⟩
    (f32_rt.req trivial rfl) rfl ?_
  refine .segTo ⟨s.height, s.pos_x, s.pos_y, s.rot_x, s.rot_y, s.rot_z, Flasher.init.color, Flasher.init.name, Flasher.init.image_a, Flasher.init.image_b, Flasher.init.alpha, Flasher.init.modulate_vs_add, Flasher.init.is_visible, Flasher.init.add_blend, Flasher.init.is_dmd, Flasher.init.render_mode, Flasher.init.render_style, Flasher.init.glass_roughness, Flasher.init.glass_ambient, Flasher.init.glass_pad_top, Flasher.init.glass_pad_bottom, Flasher.init.glass_pad_left, Flasher.init.glass_pad_right, Flasher.init.image_src_link, Flasher.init.display_texture, Flasher.init.depth_bias, Flasher.init.image_alignment, Flasher.init.filter, Flasher.init.filter_amount, Flasher.init.light_map, Flasher.init.backglass, Flasher.init.drag_points, Flasher.init.timer, Flasher.init.shared⟩
    (f32_rt.req trivial rfl) rfl ?_
  refine .segTo ⟨s.height, s.pos_x, s.pos_y, s.rot_x, s.rot_y, s.rot_z, s.color, Flasher.init.name, Flasher.init.image_a, Flasher.init.image_b, Flasher.init.alpha, Flasher.init.modulate_vs_add, Flasher.init.is_visible, Flasher.init.add_blend, Flasher.init.is_dmd, Flasher.init.render_mode, Flasher.init.render_style, Flasher.init.glass_roughness, Flasher.init.glass_ambient, Flasher.init.glass_pad_top, Flasher.init.glass_pad_bottom, Flasher.init.glass_pad_left, Flasher.init.glass_pad_right, Flasher.init.image_src_link, Flasher.init.display_texture, Flasher.init.depth_bias, Flasher.init.image_alignment, Flasher.init.filter, Flasher.init.filter_amount, Flasher.init.light_map, Flasher.init.backglass, Flasher.init.drag_points, Flasher.init.timer, Flasher.init.shared⟩
    (color_rt.req trivial rfl) rfl ?_
  refine .segTo ⟨s.height, s.pos_x, s.pos_y, s.rot_x, s.rot_y, s.rot_z, s.color, Flasher.init.name, Flasher.init.image_a, Flasher.init.image_b, Flasher.init.alpha, Flasher.init.modulate_vs_add, Flasher.init.is_visible, Flasher.init.add_blend, Flasher.init.is_dmd, Flasher.init.render_mode, Flasher.init.render_style, Flasher.init.glass_roughness, Flasher.init.glass_ambient, Flasher.init.glass_pad_top, Flasher.init.glass_pad_bottom, Flasher.init.glass_pad_left, Flasher.init.glass_pad_right, Flasher.init.image_src_link, Flasher.init.display_texture, Flasher.init.depth_bias, Flasher.init.image_alignment, Flasher.init.filter, Flasher.init.filter_amount, Flasher.init.light_map, Flasher.init.backglass, Flasher.init.drag_points, s.timer, Flasher.init.shared⟩
    (timer_reads (L := Flasher.timerL) ⟨fun _ _ => rfl, fun _ _ _ => rfl, fun _ => rfl⟩ rfl rfl) rfl ?_
  refine .segTo ⟨s.height, s.pos_x, s.pos_y, s.rot_x, s.rot_y, s.rot_z, s.color, s.name, Flasher.init.image_a, Flasher.init.image_b, Flasher.init.alpha, Flasher.init.modulate_vs_add, Flasher.init.is_visible, Flasher.init.add_blend, Flasher.init.is_dmd, Flasher.init.render_mode, Flasher.init.render_style, Flasher.init.glass_roughness, Flasher.init.glass_ambient, Flasher.init.glass_pad_top, Flasher.init.glass_pad_bottom, Flasher.init.glass_pad_left, Flasher.init.glass_pad_right, Flasher.init.image_src_link, Flasher.init.display_texture, Flasher.init.depth_bias, Flasher.init.image_alignment, Flasher.init.filter, Flasher.init.filter_amount, Flasher.init.light_map, Flasher.init.backglass, Flasher.init.drag_points, s.timer, Flasher.init.shared⟩
    (wide_rt.req h.name rfl) rfl ?_
  refine .segTo ⟨s.height, s.pos_x, s.pos_y, s.rot_x, s.rot_y, s.rot_z, s.color, s.name, s.image_a, Flasher.init.image_b, Flasher.init.alpha, Flasher.init.modulate_vs_add, Flasher.init.is_visible, Flasher.init.add_blend, Flasher.init.is_dmd, Flasher.init.render_mode, Flasher.init.render_style, Flasher.init.glass_roughness, Flasher.init.glass_ambient, Flasher.init.glass_pad_top, Flasher.init.glass_pad_bottom, Flasher.init.glass_pad_left, Flasher.init.glass_pad_right, Flasher.init.image_src_link, Flasher.init.display_texture, Flasher.init.depth_bias, Flasher.init.image_alignment, Flasher.init.filter, Flasher.init.filter_amount, Flasher.init.light_map, Flasher.init.backglass, Flasher.init.drag_points, s.timer, Flasher.init.shared⟩
    (string_rt.req h.image_a rfl) rfl ?_
  refine .segTo ⟨s.height, s.pos_x, s.pos_y, s.rot_x, s.rot_y, s.rot_z, s.color, s.name, s.image_a, s.image_b, Flasher.init.alpha, Flasher.init.modulate_vs_add, Flasher.init.is_visible, Flasher.init.add_blend, Flasher.init.is_dmd, Flasher.init.render_mode, Flasher.init.render_style, Flasher.init.glass_roughness, Flasher.init.glass_ambient, Flasher.init.glass_pad_top, Flasher.init.glass_pad_bottom, Flasher.init.glass_pad_left, Flasher.init.glass_pad_right, Flasher.init.image_src_link, Flasher.init.display_texture, Flasher.init.depth_bias, Flasher.init.image_alignment, Flasher.init.filter, Flasher.init.filter_amount, Flasher.init.light_map, Flasher.init.backglass, Flasher.init.drag_points, s.timer, Flasher.init.shared⟩
    (string_rt.req h.image_b rfl) rfl ?_
  refine .segTo ⟨s.height, s.pos_x, s.pos_y, s.rot_x, s.rot_y, s.rot_z, s.color, s.name, s.image_a, s.image_b, s.alpha, Flasher.init.modulate_vs_add, Flasher.init.is_visible, Flasher.init.add_blend, Flasher.init.is_dmd, Flasher.init.render_mode, Flasher.init.render_style, Flasher.init.glass_roughness, Flasher.init.glass_ambient, Flasher.init.glass_pad_top, Flasher.init.glass_pad_bottom, Flasher.init.glass_pad_left, Flasher.init.glass_pad_right, Flasher.init.image_src_link, Flasher.init.display_texture, Flasher.init.depth_bias, Flasher.init.image_alignment, Flasher.init.filter, Flasher.init.filter_amount, Flasher.init.light_map, Flasher.init.backglass, Flasher.init.drag_points, s.timer, Flasher.init.shared⟩
    (i32_rt.req trivial rfl) rfl ?_
  refine .segTo ⟨s.height, s.pos_x, s.pos_y, s.rot_x, s.rot_y, s.rot_z, s.color, s.name, s.image_a, s.image_b, s.alpha, s.modulate_vs_add, Flasher.init.is_visible, Flasher.init.add_blend, Flasher.init.is_dmd, Flasher.init.render_mode, Flasher.init.render_style, Flasher.init.glass_roughness, Flasher.init.glass_ambient, Flasher.init.glass_pad_top, Flasher.init.glass_pad_bottom, Flasher.init.glass_pad_left, Flasher.init.glass_pad_right, Flasher.init.image_src_link, Flasher.init.display_texture, Flasher.init.depth_bias, Flasher.init.image_alignment, Flasher.init.filter, Flasher.init.filter_amount, Flasher.init.light_map, Flasher.init.backglass, Flasher.init.drag_points, s.timer, Flasher.init.shared⟩
    (f32_rt.req trivial rfl) rfl ?_
  refine .segTo ⟨s.height, s.pos_x, s.pos_y, s.rot_x, s.rot_y, s.rot_z, s.color, s.name, s.image_a, s.image_b, s.alpha, s.modulate_vs_add, s.is_visible, Flasher.init.add_blend, Flasher.init.is_dmd, Flasher.init.render_mode, Flasher.init.render_style, Flasher.init.glass_roughness, Flasher.init.glass_ambient, Flasher.init.glass_pad_top, Flasher.init.glass_pad_bottom, Flasher.init.glass_pad_left, Flasher.init.glass_pad_right, Flasher.init.image_src_link, Flasher.init.display_texture, Flasher.init.depth_bias, Flasher.init.image_alignment, Flasher.init.filter, Flasher.init.filter_amount, Flasher.init.light_map, Flasher.init.backglass, Flasher.init.drag_points, s.timer, Flasher.init.shared⟩
    (bool_rt.req trivial rfl) rfl ?_
  refine .segTo ⟨s.height, s.pos_x, s.pos_y, s.rot_x, s.rot_y, s.rot_z, s.color, s.name, s.image_a, s.image_b, s.alpha, s.modulate_vs_add, s.is_visible, Flasher.init.add_blend, Flasher.init.is_dmd, Flasher.init.render_mode, Flasher.init.render_style, Flasher.init.glass_roughness, Flasher.init.glass_ambient, Flasher.init.glass_pad_top, Flasher.init.glass_pad_bottom, Flasher.init.glass_pad_left, Flasher.init.glass_pad_right, Flasher.init.image_src_link, s.display_texture, Flasher.init.depth_bias, Flasher.init.image_alignment, Flasher.init.filter, Flasher.init.filter_amount, Flasher.init.light_map, Flasher.init.backglass, Flasher.init.drag_points, s.timer, Flasher.init.shared⟩
    (bool_rt.req trivial rfl) rfl ?_
  refine .segTo ⟨s.height, s.pos_x, s.pos_y, s.rot_x, s.rot_y, s.rot_z, s.color, s.name, s.image_a, s.image_b, s.alpha, s.modulate_vs_add, s.is_visible, s.add_blend, Flasher.init.is_dmd, Flasher.init.render_mode, Flasher.init.render_style, Flasher.init.glass_roughness, Flasher.init.glass_ambient, Flasher.init.glass_pad_top, Flasher.init.glass_pad_bottom, Flasher.init.glass_pad_left, Flasher.init.glass_pad_right, Flasher.init.image_src_link, s.display_texture, Flasher.init.depth_bias, Flasher.init.image_alignment, Flasher.init.filter, Flasher.init.filter_amount, Flasher.init.light_map, Flasher.init.backglass, Flasher.init.drag_points, s.timer, Flasher.init.shared⟩
    (bool_rt.req trivial rfl) rfl ?_
  refine .segTo ⟨s.height, s.pos_x, s.pos_y, s.rot_x, s.rot_y, s.rot_z, s.color, s.name, s.image_a, s.image_b, s.alpha, s.modulate_vs_add, s.is_visible, s.add_blend, s.is_dmd, Flasher.init.render_mode, Flasher.init.render_style, Flasher.init.glass_roughness, Flasher.init.glass_ambient, Flasher.init.glass_pad_top, Flasher.init.glass_pad_bottom, Flasher.init.glass_pad_left, Flasher.init.glass_pad_right, Flasher.init.image_src_link, s.display_texture, Flasher.init.depth_bias, Flasher.init.image_alignment, Flasher.init.filter, Flasher.init.filter_amount, Flasher.init.light_map, Flasher.init.backglass, Flasher.init.drag_points, s.timer, Flasher.init.shared⟩
    (bool_rt.opt (fun v (s : Flasher) => { s with is_dmd := v }) (fun _ _ => trivial) rfl rfl) rfl ?_
  refine .segTo ⟨s.height, s.pos_x, s.pos_y, s.rot_x, s.rot_y, s.rot_z, s.color, s.name, s.image_a, s.image_b, s.alpha, s.modulate_vs_add, s.is_visible, s.add_blend, s.is_dmd, s.render_mode, Flasher.init.render_style, Flasher.init.glass_roughness, Flasher.init.glass_ambient, Flasher.init.glass_pad_top, Flasher.init.glass_pad_bottom, Flasher.init.glass_pad_left, Flasher.init.glass_pad_right, Flasher.init.image_src_link, s.display_texture, Flasher.init.depth_bias, Flasher.init.image_alignment, Flasher.init.filter, Flasher.init.filter_amount, Flasher.init.light_map, Flasher.init.backglass, Flasher.init.drag_points, s.timer, Flasher.init.shared⟩
    (RenderMode.rt.opt (fun v (s : Flasher) => { s with render_mode := v }) (fun _ _ => trivial) rfl rfl) rfl ?_
  refine .segTo ⟨s.height, s.pos_x, s.pos_y, s.rot_x, s.rot_y, s.rot_z, s.color, s.name, s.image_a, s.image_b, s.alpha, s.modulate_vs_add, s.is_visible, s.add_blend, s.is_dmd, s.render_mode, s.render_style, Flasher.init.glass_roughness, Flasher.init.glass_ambient, Flasher.init.glass_pad_top, Flasher.init.glass_pad_bottom, Flasher.init.glass_pad_left, Flasher.init.glass_pad_right, Flasher.init.image_src_link, s.display_texture, Flasher.init.depth_bias, Flasher.init.image_alignment, Flasher.init.filter, Flasher.init.filter_amount, Flasher.init.light_map, Flasher.init.backglass, Flasher.init.drag_points, s.timer, Flasher.init.shared⟩
    (u32_rt.opt (fun v (s : Flasher) => { s with render_style := v }) (fun _ _ => trivial) rfl rfl) rfl ?_
  refine .segTo ⟨s.height, s.pos_x, s.pos_y, s.rot_x, s.rot_y, s.rot_z, s.color, s.name, s.image_a, s.image_b, s.alpha, s.modulate_vs_add, s.is_visible, s.add_blend, s.is_dmd, s.render_mode, s.render_style, s.glass_roughness, Flasher.init.glass_ambient, Flasher.init.glass_pad_top, Flasher.init.glass_pad_bottom, Flasher.init.glass_pad_left, Flasher.init.glass_pad_right, Flasher.init.image_src_link, s.display_texture, Flasher.init.depth_bias, Flasher.init.image_alignment, Flasher.init.filter, Flasher.init.filter_amount, Flasher.init.light_map, Flasher.init.backglass, Flasher.init.drag_points, s.timer, Flasher.init.shared⟩
    (f32_rt.opt (fun v (s : Flasher) => { s with glass_roughness := v }) (fun _ _ => trivial) rfl rfl) rfl ?_
  refine .segTo ⟨s.height, s.pos_x, s.pos_y, s.rot_x, s.rot_y, s.rot_z, s.color, s.name, s.image_a, s.image_b, s.alpha, s.modulate_vs_add, s.is_visible, s.add_blend, s.is_dmd, s.render_mode, s.render_style, s.glass_roughness, s.glass_ambient, Flasher.init.glass_pad_top, Flasher.init.glass_pad_bottom, Flasher.init.glass_pad_left, Flasher.init.glass_pad_right, Flasher.init.image_src_link, s.display_texture, Flasher.init.depth_bias, Flasher.init.image_alignment, Flasher.init.filter, Flasher.init.filter_amount, Flasher.init.light_map, Flasher.init.backglass, Flasher.init.drag_points, s.timer, Flasher.init.shared⟩
    (u32_rt.opt (fun v (s : Flasher) => { s with glass_ambient := v }) (fun _ _ => trivial) rfl rfl) rfl ?_
  refine .segTo ⟨s.height, s.pos_x, s.pos_y, s.rot_x, s.rot_y, s.rot_z, s.color, s.name, s.image_a, s.image_b, s.alpha, s.modulate_vs_add, s.is_visible, s.add_blend, s.is_dmd, s.render_mode, s.render_style, s.glass_roughness, s.glass_ambient, s.glass_pad_top, Flasher.init.glass_pad_bottom, Flasher.init.glass_pad_left, Flasher.init.glass_pad_right, Flasher.init.image_src_link, s.display_texture, Flasher.init.depth_bias, Flasher.init.image_alignment, Flasher.init.filter, Flasher.init.filter_amount, Flasher.init.light_map, Flasher.init.backglass, Flasher.init.drag_points, s.timer, Flasher.init.shared⟩
    (f32_rt.opt (fun v (s : Flasher) => { s with glass_pad_top := v }) (fun _ _ => trivial) rfl rfl) rfl ?_
  refine .segTo ⟨s.height, s.pos_x, s.pos_y, s.rot_x, s.rot_y, s.rot_z, s.color, s.name, s.image_a, s.image_b, s.alpha, s.modulate_vs_add, s.is_visible, s.add_blend, s.is_dmd, s.render_mode, s.render_style, s.glass_roughness, s.glass_ambient, s.glass_pad_top, s.glass_pad_bottom, Flasher.init.glass_pad_left, Flasher.init.glass_pad_right, Flasher.init.image_src_link, s.display_texture, Flasher.init.depth_bias, Flasher.init.image_alignment, Flasher.init.filter, Flasher.init.filter_amount, Flasher.init.light_map, Flasher.init.backglass, Flasher.init.drag_points, s.timer, Flasher.init.shared⟩
    (f32_rt.opt (fun v (s : Flasher) => { s with glass_pad_bottom := v }) (fun _ _ => trivial) rfl rfl) rfl ?_
  refine .segTo ⟨s.height, s.pos_x, s.pos_y, s.rot_x, s.rot_y, s.rot_z, s.color, s.name, s.image_a, s.image_b, s.alpha, s.modulate_vs_add, s.is_visible, s.add_blend, s.is_dmd, s.render_mode, s.render_style, s.glass_roughness, s.glass_ambient, s.glass_pad_top, s.glass_pad_bottom, s.glass_pad_left, Flasher.init.glass_pad_right, Flasher.init.image_src_link, s.display_texture, Flasher.init.depth_bias, Flasher.init.image_alignment, Flasher.init.filter, Flasher.init.filter_amount, Flasher.init.light_map, Flasher.init.backglass, Flasher.init.drag_points, s.timer, Flasher.init.shared⟩
    (f32_rt.opt (fun v (s : Flasher) => { s with glass_pad_left := v }) (fun _ _ => trivial) rfl rfl) rfl ?_
  refine .segTo ⟨s.height, s.pos_x, s.pos_y, s.rot_x, s.rot_y, s.rot_z, s.color, s.name, s.image_a, s.image_b, s.alpha, s.modulate_vs_add, s.is_visible, s.add_blend, s.is_dmd, s.render_mode, s.render_style, s.glass_roughness, s.glass_ambient, s.glass_pad_top, s.glass_pad_bottom, s.glass_pad_left, s.glass_pad_right, Flasher.init.image_src_link, s.display_texture, Flasher.init.depth_bias, Flasher.init.image_alignment, Flasher.init.filter, Flasher.init.filter_amount, Flasher.init.light_map, Flasher.init.backglass, Flasher.init.drag_points, s.timer, Flasher.init.shared⟩
    (f32_rt.opt (fun v (s : Flasher) => { s with glass_pad_right := v }) (fun _ _ => trivial) rfl rfl) rfl ?_
  refine .segTo ⟨s.height, s.pos_x, s.pos_y, s.rot_x, s.rot_y, s.rot_z, s.color, s.name, s.image_a, s.image_b, s.alpha, s.modulate_vs_add, s.is_visible, s.add_blend, s.is_dmd, s.render_mode, s.render_style, s.glass_roughness, s.glass_ambient, s.glass_pad_top, s.glass_pad_bottom, s.glass_pad_left, s.glass_pad_right, s.image_src_link, s.display_texture, Flasher.init.depth_bias, Flasher.init.image_alignment, Flasher.init.filter, Flasher.init.filter_amount, Flasher.init.light_map, Flasher.init.backglass, Flasher.init.drag_points, s.timer, Flasher.init.shared⟩
    (string_rt.opt (fun v (s : Flasher) => { s with image_src_link := v }) h.image_src_link rfl rfl) rfl ?_
  refine .segTo ⟨s.height, s.pos_x, s.pos_y, s.rot_x, s.rot_y, s.rot_z, s.color, s.name, s.image_a, s.image_b, s.alpha, s.modulate_vs_add, s.is_visible, s.add_blend, s.is_dmd, s.render_mode, s.render_style, s.glass_roughness, s.glass_ambient, s.glass_pad_top, s.glass_pad_bottom, s.glass_pad_left, s.glass_pad_right, s.image_src_link, s.display_texture, s.depth_bias, Flasher.init.image_alignment, Flasher.init.filter, Flasher.init.filter_amount, Flasher.init.light_map, Flasher.init.backglass, Flasher.init.drag_points, s.timer, Flasher.init.shared⟩
    (f32_rt.req trivial rfl) rfl ?_
  refine .segTo ⟨s.height, s.pos_x, s.pos_y, s.rot_x, s.rot_y, s.rot_z, s.color, s.name, s.image_a, s.image_b, s.alpha, s.modulate_vs_add, s.is_visible, s.add_blend, s.is_dmd, s.render_mode, s.render_style, s.glass_roughness, s.glass_ambient, s.glass_pad_top, s.glass_pad_bottom, s.glass_pad_left, s.glass_pad_right, s.image_src_link, s.display_texture, s.depth_bias, s.image_alignment, Flasher.init.filter, Flasher.init.filter_amount, Flasher.init.light_map, Flasher.init.backglass, Flasher.init.drag_points, s.timer, Flasher.init.shared⟩
    (RampImageAlignment.rt.req trivial rfl) rfl ?_
  refine .segTo ⟨s.height, s.pos_x, s.pos_y, s.rot_x, s.rot_y, s.rot_z, s.color, s.name, s.image_a, s.image_b, s.alpha, s.modulate_vs_add, s.is_visible, s.add_blend, s.is_dmd, s.render_mode, s.render_style, s.glass_roughness, s.glass_ambient, s.glass_pad_top, s.glass_pad_bottom, s.glass_pad_left, s.glass_pad_right, s.image_src_link, s.display_texture, s.depth_bias, s.image_alignment, s.filter, Flasher.init.filter_amount, Flasher.init.light_map, Flasher.init.backglass, Flasher.init.drag_points, s.timer, Flasher.init.shared⟩
    (Filter.rt.req trivial rfl) rfl ?_
  refine .segTo ⟨s.height, s.pos_x, s.pos_y, s.rot_x, s.rot_y, s.rot_z, s.color, s.name, s.image_a, s.image_b, s.alpha, s.modulate_vs_add, s.is_visible, s.add_blend, s.is_dmd, s.render_mode, s.render_style, s.glass_roughness, s.glass_ambient, s.glass_pad_top, s.glass_pad_bottom, s.glass_pad_left, s.glass_pad_right, s.image_src_link, s.display_texture, s.depth_bias, s.image_alignment, s.filter, s.filter_amount, Flasher.init.light_map, Flasher.init.backglass, Flasher.init.drag_points, s.timer, Flasher.init.shared⟩
    (u32_rt.req trivial rfl) rfl ?_
  refine .segTo ⟨s.height, s.pos_x, s.pos_y, s.rot_x, s.rot_y, s.rot_z, s.color, s.name, s.image_a, s.image_b, s.alpha, s.modulate_vs_add, s.is_visible, s.add_blend, s.is_dmd, s.render_mode, s.render_style, s.glass_roughness, s.glass_ambient, s.glass_pad_top, s.glass_pad_bottom, s.glass_pad_left, s.glass_pad_right, s.image_src_link, s.display_texture, s.depth_bias, s.image_alignment, s.filter, s.filter_amount, s.light_map, Flasher.init.backglass, Flasher.init.drag_points, s.timer, Flasher.init.shared⟩
    (string_rt.opt (fun v (s : Flasher) => { s with light_map := v }) h.light_map rfl rfl) rfl ?_
  refine .segTo ⟨s.height, s.pos_x, s.pos_y, s.rot_x, s.rot_y, s.rot_z, s.color, s.name, s.image_a, s.image_b, s.alpha, s.modulate_vs_add, s.is_visible, s.add_blend, s.is_dmd, s.render_mode, s.render_style, s.glass_roughness, s.glass_ambient, s.glass_pad_top, s.glass_pad_bottom, s.glass_pad_left, s.glass_pad_right, s.image_src_link, s.display_texture, s.depth_bias, s.image_alignment, s.filter, s.filter_amount, s.light_map, s.backglass, Flasher.init.drag_points, s.timer, Flasher.init.shared⟩
    (bool_rt.opt (fun v (s : Flasher) => { s with backglass := v }) (fun _ _ => trivial) rfl rfl) rfl ?_
  refine .segTo ⟨s.height, s.pos_x, s.pos_y, s.rot_x, s.rot_y, s.rot_z, s.color, s.name, s.image_a, s.image_b, s.alpha, s.modulate_vs_add, s.is_visible, s.add_blend, s.is_dmd, s.render_mode, s.render_style, s.glass_roughness, s.glass_ambient, s.glass_pad_top, s.glass_pad_bottom, s.glass_pad_left, s.glass_pad_right, s.image_src_link, s.display_texture, s.depth_bias, s.image_alignment, s.filter, s.filter_amount, s.light_map, s.backglass, Flasher.init.drag_points, s.timer, s.shared⟩
    (shared_reads (L := Flasher.sharedL) ⟨fun _ _ => rfl, fun _ _ _ => rfl, fun _ => rfl⟩ h.shared rfl rfl rfl rfl rfl rfl) rfl ?_
  refine .segTo ⟨s.height, s.pos_x, s.pos_y, s.rot_x, s.rot_y, s.rot_z, s.color, s.name, s.image_a, s.image_b, s.alpha, s.modulate_vs_add, s.is_visible, s.add_blend, s.is_dmd, s.render_mode, s.render_style, s.glass_roughness, s.glass_ambient, s.glass_pad_top, s.glass_pad_bottom, s.glass_pad_left, s.glass_pad_right, s.image_src_link, s.display_texture, s.depth_bias, s.image_alignment, s.filter, s.filter_amount, s.light_map, s.backglass, s.drag_points, s.timer, s.shared⟩
    (OReads.nestedList (hs' := DragPoint.arms) (u := DragPoint.init) _
    (fun l (s : Flasher) => { s with drag_points := s.drag_points ++ l }) rfl
    (fun v hv => DragPoint.reads (h.drag_points v hv)) (fun v l s => by simp)
    (fun s => by simp)) rfl ?_
  exact .done rfl

theorem Flasher.arms_inv : ArmsInv Flasher.WF Flasher.arms := by
  unfold Flasher.arms
  exact (.append (.append (.cons (.fld GP.any fun _ _ h _ => ⟨h.name, h.image_a, h.image_b, h.image_src_link, h.light_map, h.shared, h.drag_points⟩) <|
    .cons (.fld GP.any fun _ _ h _ => ⟨h.name, h.image_a, h.image_b, h.image_src_link, h.light_map, h.shared, h.drag_points⟩) <|
    .cons (.fld GP.any fun _ _ h _ => ⟨h.name, h.image_a, h.image_b, h.image_src_link, h.light_map, h.shared, h.drag_points⟩) <|
    .cons (.fld GP.any fun _ _ h _ => ⟨h.name, h.image_a, h.image_b, h.image_src_link, h.light_map, h.shared, h.drag_points⟩) <|
    .cons (.fld GP.any fun _ _ h _ => ⟨h.name, h.image_a, h.image_b, h.image_src_link, h.light_map, h.shared, h.drag_points⟩) <|
    .cons (.fld GP.any fun _ _ h _ => ⟨h.name, h.image_a, h.image_b, h.image_src_link, h.light_map, h.shared, h.drag_points⟩) <|
    .cons (.fld GP.any fun _ _ h _ => ⟨h.name, h.image_a, h.image_b, h.image_src_link, h.light_map, h.shared, h.drag_points⟩) <|
    .cons (.fld wide_gp fun _ _ h hv => ⟨hv, h.image_a, h.image_b, h.image_src_link, h.light_map, h.shared, h.drag_points⟩) <|
    .cons (.fld string_gp fun _ _ h hv => ⟨h.name, hv, h.image_b, h.image_src_link, h.light_map, h.shared, h.drag_points⟩) <|
    .cons (.fld string_gp fun _ _ h hv => ⟨h.name, h.image_a, hv, h.image_src_link, h.light_map, h.shared, h.drag_points⟩) <|
    .cons (.fld GP.any fun _ _ h _ => ⟨h.name, h.image_a, h.image_b, h.image_src_link, h.light_map, h.shared, h.drag_points⟩) <|
    .cons (.fld GP.any fun _ _ h _ => ⟨h.name, h.image_a, h.image_b, h.image_src_link, h.light_map, h.shared, h.drag_points⟩) <|
    .cons (.fld GP.any fun _ _ h _ => ⟨h.name, h.image_a, h.image_b, h.image_src_link, h.light_map, h.shared, h.drag_points⟩) <|
    .cons (.fld GP.any fun _ _ h _ => ⟨h.name, h.image_a, h.image_b, h.image_src_link, h.light_map, h.shared, h.drag_points⟩) <|
    .cons (.fld GP.any fun _ _ h _ => ⟨h.name, h.image_a, h.image_b, h.image_src_link, h.light_map, h.shared, h.drag_points⟩) <|
    .cons (.fld GP.any fun _ _ h _ => ⟨h.name, h.image_a, h.image_b, h.image_src_link, h.light_map, h.shared, h.drag_points⟩) <|
    .cons (.fld GP.any fun _ _ h _ => ⟨h.name, h.image_a, h.image_b, h.image_src_link, h.light_map, h.shared, h.drag_points⟩) <|
    .cons (.fld GP.any fun _ _ h _ => ⟨h.name, h.image_a, h.image_b, h.image_src_link, h.light_map, h.shared, h.drag_points⟩) <|
    .cons (.fld GP.any fun _ _ h _ => ⟨h.name, h.image_a, h.image_b, h.image_src_link, h.light_map, h.shared, h.drag_points⟩) <|
    .cons (.fld GP.any fun _ _ h _ => ⟨h.name, h.image_a, h.image_b, h.image_src_link, h.light_map, h.shared, h.drag_points⟩) <|
    .cons (.fld GP.any fun _ _ h _ => ⟨h.name, h.image_a, h.image_b, h.image_src_link, h.light_map, h.shared, h.drag_points⟩) <|
    .cons (.fld GP.any fun _ _ h _ => ⟨h.name, h.image_a, h.image_b, h.image_src_link, h.light_map, h.shared, h.drag_points⟩) <|
    .cons (.fld GP.any fun _ _ h _ => ⟨h.name, h.image_a, h.image_b, h.image_src_link, h.light_map, h.shared, h.drag_points⟩) <|
    .cons (.fld GP.any fun _ _ h _ => ⟨h.name, h.image_a, h.image_b, h.image_src_link, h.light_map, h.shared, h.drag_points⟩) <|
    .cons (.fld string_gp fun _ _ h hv => ⟨h.name, h.image_a, h.image_b, .some hv, h.light_map, h.shared, h.drag_points⟩) <|
    .cons (.fld GP.any fun _ _ h _ => ⟨h.name, h.image_a, h.image_b, h.image_src_link, h.light_map, h.shared, h.drag_points⟩) <|
    .cons (.fld GP.any fun _ _ h _ => ⟨h.name, h.image_a, h.image_b, h.image_src_link, h.light_map, h.shared, h.drag_points⟩) <|
    .cons (.fld GP.any fun _ _ h _ => ⟨h.name, h.image_a, h.image_b, h.image_src_link, h.light_map, h.shared, h.drag_points⟩) <|
    .cons (.fld GP.any fun _ _ h _ => ⟨h.name, h.image_a, h.image_b, h.image_src_link, h.light_map, h.shared, h.drag_points⟩) <|
    .cons (.fld string_gp fun _ _ h hv => ⟨h.name, h.image_a, h.image_b, h.image_src_link, .some hv, h.shared, h.drag_points⟩) <|
    .cons (.fld GP.any fun _ _ h _ => ⟨h.name, h.image_a, h.image_b, h.image_src_link, h.light_map, h.shared, h.drag_points⟩) <|
    .cons (.fld (getChild_gp (readWith_gp DragPoint.arms_inv DragPoint.init_wf)) fun _ _ h hv => ⟨h.name, h.image_a, h.image_b, h.image_src_link, h.light_map, h.shared, (forall_append h.drag_points hv)⟩) .nil)
    (timerArms_inv fun _ _ h => ⟨h.name, h.image_a, h.image_b, h.image_src_link, h.light_map, h.shared, h.drag_points⟩))
    (sharedArms_inv (fun _ h => h.shared) fun _ _ h ha => ⟨h.name, h.image_a, h.image_b, h.image_src_link, h.light_map, ha, h.drag_points⟩))

theorem Flasher.init_wf : Flasher.WF Flasher.init where
  name := by decide
  image_a := by decide
  image_b := by decide
  image_src_link := .none
  light_map := .none
  shared := ⟨.none, .none⟩
  drag_points := by intro p hp; cases hp

theorem Flasher.arms_tame : ArmsTame Flasher.arms := by
  unfold Flasher.arms
  exact (.append (.append (.cons (fun _ => f32_tame.fld) <|
    .cons (fun _ => f32_tame.fld) <|
    .cons (fun _ => f32_tame.fld) <|
    .cons (fun _ => f32_tame.fld) <|
    .cons (fun _ => f32_tame.fld) <|
    .cons (fun _ => f32_tame.fld) <|
    .cons (fun _ => color_tame.fld) <|
    .cons (fun _ => wide_tame.fld) <|
    .cons (fun _ => string_tame.fld) <|
    .cons (fun _ => string_tame.fld) <|
    .cons (fun _ => i32_tame.fld) <|
    .cons (fun _ => f32_tame.fld) <|
    .cons (fun _ => bool_tame.fld) <|
    .cons (fun _ => bool_tame.fld) <|
    .cons (fun _ => bool_tame.fld) <|
    .cons (fun _ => bool_tame.fld) <|
    .cons (fun _ => enum_tame.fld) <|
    .cons (fun _ => u32_tame.fld) <|
    .cons (fun _ => f32_tame.fld) <|
    .cons (fun _ => u32_tame.fld) <|
    .cons (fun _ => f32_tame.fld) <|
    .cons (fun _ => f32_tame.fld) <|
    .cons (fun _ => f32_tame.fld) <|
    .cons (fun _ => f32_tame.fld) <|
    .cons (fun _ => string_tame.fld) <|
    .cons (fun _ => f32_tame.fld) <|
    .cons (fun _ => enum_tame.fld) <|
    .cons (fun _ => enum_tame.fld) <|
    .cons (fun _ => u32_tame.fld) <|
    .cons (fun _ => string_tame.fld) <|
    .cons (fun _ => bool_tame.fld) <|
    .cons (fun _ => (getChild_tame (readWith_tame DragPoint.arms_tame _)).fld) .nil) (timerArms_tame _)) (sharedArms_tame _))

end Vpin
