import Verif.Lemmas.Enums
import Verif.Lemmas.Tame
import Verif.Lemmas.ItemData
import Verif.Lemmas.Items.DragPoint
/-
`Light`: reading back what was written, and what the reader guarantees for every input.
Generated by tools/gen_items.py.
-/
namespace Vpin


theorem Light.reads {s : Light} (h : s.WF) : OReads Light.arms s.ops Light.init s := by
  unfold Light.ops
  refine .segTo ⟨Light.init.name, s.center, Light.init.height, Light.init.falloff_radius, Light.init.falloff_power, Light.init.state_u32, Light.init.state, Light.init.color, Light.init.color2, Light.init.blink_pattern, Light.init.image, Light.init.blink_interval, Light.init.intensity, Light.init.transmission_scale, Light.init.surface, Light.init.is_backglass, Light.init.depth_bias, Light.init.fade_speed_up, Light.init.fade_speed_down, Light.init.is_bulb_light, Light.init.is_image_mode, Light.init.show_bulb_mesh, Light.init.has_static_bulb_mesh, Light.init.show_reflection_on_ball, Light.init.mesh_radius, Light.init.bulb_modulate_vs_add, Light.init.bulb_halo_height, Light.init.shadows, Light.init.fader, Light.init.visible, Light.init.timer, Light.init.shared, Light.init.drag_points⟩
    (vertex2d_rt.req trivial rfl) rfl ?_
  refine .segTo ⟨Light.init.name, s.center, s.height, Light.init.falloff_radius, Light.init.falloff_power, Light.init.state_u32, Light.init.state, Light.init.color, Light.init.color2, Light.init.blink_pattern, Light.init.image, Light.init.blink_interval, Light.init.intensity, Light.init.transmission_scale, Light.init.surface, Light.init.is_backglass, Light.init.depth_bias, Light.init.fade_speed_up, Light.init.fade_speed_down, Light.init.is_bulb_light, Light.init.is_image_mode, Light.init.show_bulb_mesh, Light.init.has_static_bulb_mesh, Light.init.show_reflection_on_ball, Light.init.mesh_radius, Light.init.bulb_modulate_vs_add, Light.init.bulb_halo_height, Light.init.shadows, Light.init.fader, Light.init.visible, Light.init.timer, Light.init.shared, Light.init.drag_points⟩
    (f32_rt.opt (fun v (s : Light) => { s with height := v }) (fun _ _ => trivial) rfl rfl) rfl ?_
  refine .segTo ⟨Light.init.name, s.center, s.height, s.falloff_radius, Light.init.falloff_power, Light.init.state_u32, Light.init.state, Light.init.color, Light.init.color2, Light.init.blink_pattern, Light.init.image, Light.init.blink_interval, Light.init.intensity, Light.init.transmission_scale, Light.init.surface, Light.init.is_backglass, Light.init.depth_bias, Light.init.fade_speed_up, Light.init.fade_speed_down, Light.init.is_bulb_light, Light.init.is_image_mode, Light.init.show_bulb_mesh, Light.init.has_static_bulb_mesh, Light.init.show_reflection_on_ball, Light.init.mesh_radius, Light.init.bulb_modulate_vs_add, Light.init.bulb_halo_height, Light.init.shadows, Light.init.fader, Light.init.visible, Light.init.timer, Light.init.shared, Light.init.drag_points⟩
    (f32_rt.req trivial rfl) rfl ?_
  refine .segTo ⟨Light.init.name, s.center, s.height, s.falloff_radius, s.falloff_power, Light.init.state_u32, Light.init.state, Light.init.color, Light.init.color2, Light.init.blink_pattern, Light.init.image, Light.init.blink_interval, Light.init.intensity, Light.init.transmission_scale, Light.init.surface, Light.init.is_backglass, Light.init.depth_bias, Light.init.fade_speed_up, Light.init.fade_speed_down, Light.init.is_bulb_light, Light.init.is_image_mode, Light.init.show_bulb_mesh, Light.init.has_static_bulb_mesh, Light.init.show_reflection_on_ball, Light.init.mesh_radius, Light.init.bulb_modulate_vs_add, Light.init.bulb_halo_height, Light.init.shadows, Light.init.fader, Light.init.visible, Light.init.timer, Light.init.shared, Light.init.drag_points⟩
    (f32_rt.req trivial rfl) rfl ?_
  refine .segTo ⟨Light.init.name, s.center, s.height, s.falloff_radius, s.falloff_power, s.state_u32, Light.init.state, Light.init.color, Light.init.color2, Light.init.blink_pattern, Light.init.image, Light.init.blink_interval, Light.init.intensity, Light.init.transmission_scale, Light.init.surface, Light.init.is_backglass, Light.init.depth_bias, Light.init.fade_speed_up, Light.init.fade_speed_down, Light.init.is_bulb_light, Light.init.is_image_mode, Light.init.show_bulb_mesh, Light.init.has_static_bulb_mesh, Light.init.show_reflection_on_ball, Light.init.mesh_radius, Light.init.bulb_modulate_vs_add, Light.init.bulb_halo_height, Light.init.shadows, Light.init.fader, Light.init.visible, Light.init.timer, Light.init.shared, Light.init.drag_points⟩
    (u32_rt.req trivial rfl) rfl ?_
  refine .segTo ⟨Light.init.name, s.center, s.height, s.falloff_radius, s.falloff_power, s.state_u32, s.state, Light.init.color, Light.init.color2, Light.init.blink_pattern, Light.init.image, Light.init.blink_interval, Light.init.intensity, Light.init.transmission_scale, Light.init.surface, Light.init.is_backglass, Light.init.depth_bias, Light.init.fade_speed_up, Light.init.fade_speed_down, Light.init.is_bulb_light, Light.init.is_image_mode, Light.init.show_bulb_mesh, Light.init.has_static_bulb_mesh, Light.init.show_reflection_on_ball, Light.init.mesh_radius, Light.init.bulb_modulate_vs_add, Light.init.bulb_halo_height, Light.init.shadows, Light.init.fader, Light.init.visible, Light.init.timer, Light.init.shared, Light.init.drag_points⟩
    (f32_rt.opt (fun v (s : Light) => { s with state := v }) (fun _ _ => trivial) rfl rfl) rfl ?_
  refine .segTo ⟨Light.init.name, s.center, s.height, s.falloff_radius, s.falloff_power, s.state_u32, s.state, s.color, Light.init.color2, Light.init.blink_pattern, Light.init.image, Light.init.blink_interval, Light.init.intensity, Light.init.transmission_scale, Light.init.surface, Light.init.is_backglass, Light.init.depth_bias, Light.init.fade_speed_up, Light.init.fade_speed_down, Light.init.is_bulb_light, Light.init.is_image_mode, Light.init.show_bulb_mesh, Light.init.has_static_bulb_mesh, Light.init.show_reflection_on_ball, Light.init.mesh_radius, Light.init.bulb_modulate_vs_add, Light.init.bulb_halo_height, Light.init.shadows, Light.init.fader, Light.init.visible, Light.init.timer, Light.init.shared, Light.init.drag_points⟩
    (color_rt.req trivial rfl) rfl ?_
  refine .segTo ⟨Light.init.name, s.center, s.height, s.falloff_radius, s.falloff_power, s.state_u32, s.state, s.color, s.color2, Light.init.blink_pattern, Light.init.image, Light.init.blink_interval, Light.init.intensity, Light.init.transmission_scale, Light.init.surface, Light.init.is_backglass, Light.init.depth_bias, Light.init.fade_speed_up, Light.init.fade_speed_down, Light.init.is_bulb_light, Light.init.is_image_mode, Light.init.show_bulb_mesh, Light.init.has_static_bulb_mesh, Light.init.show_reflection_on_ball, Light.init.mesh_radius, Light.init.bulb_modulate_vs_add, Light.init.bulb_halo_height, Light.init.shadows, Light.init.fader, Light.init.visible, Light.init.timer, Light.init.shared, Light.init.drag_points⟩
    (color_rt.req trivial rfl) rfl ?_
  refine .segTo ⟨Light.init.name, s.center, s.height, s.falloff_radius, s.falloff_power, s.state_u32, s.state, s.color, s.color2, Light.init.blink_pattern, Light.init.image, Light.init.blink_interval, Light.init.intensity, Light.init.transmission_scale, Light.init.surface, Light.init.is_backglass, Light.init.depth_bias, Light.init.fade_speed_up, Light.init.fade_speed_down, Light.init.is_bulb_light, Light.init.is_image_mode, Light.init.show_bulb_mesh, Light.init.has_static_bulb_mesh, Light.init.show_reflection_on_ball, Light.init.mesh_radius, Light.init.bulb_modulate_vs_add, Light.init.bulb_halo_height, Light.init.shadows, Light.init.fader, Light.init.visible, s.timer, Light.init.shared, Light.init.drag_points⟩
    (timer_reads (L := Light.timerL) ⟨fun _ _ => rfl, fun _ _ _ => rfl, fun _ => rfl⟩ rfl rfl) rfl ?_
  refine .segTo ⟨Light.init.name, s.center, s.height, s.falloff_radius, s.falloff_power, s.state_u32, s.state, s.color, s.color2, s.blink_pattern, Light.init.image, Light.init.blink_interval, Light.init.intensity, Light.init.transmission_scale, Light.init.surface, Light.init.is_backglass, Light.init.depth_bias, Light.init.fade_speed_up, Light.init.fade_speed_down, Light.init.is_bulb_light, Light.init.is_image_mode, Light.init.show_bulb_mesh, Light.init.has_static_bulb_mesh, Light.init.show_reflection_on_ball, Light.init.mesh_radius, Light.init.bulb_modulate_vs_add, Light.init.bulb_halo_height, Light.init.shadows, Light.init.fader, Light.init.visible, s.timer, Light.init.shared, Light.init.drag_points⟩
    (string_rt.req h.blink_pattern rfl) rfl ?_
  refine .segTo ⟨Light.init.name, s.center, s.height, s.falloff_radius, s.falloff_power, s.state_u32, s.state, s.color, s.color2, s.blink_pattern, s.image, Light.init.blink_interval, Light.init.intensity, Light.init.transmission_scale, Light.init.surface, Light.init.is_backglass, Light.init.depth_bias, Light.init.fade_speed_up, Light.init.fade_speed_down, Light.init.is_bulb_light, Light.init.is_image_mode, Light.init.show_bulb_mesh, Light.init.has_static_bulb_mesh, Light.init.show_reflection_on_ball, Light.init.mesh_radius, Light.init.bulb_modulate_vs_add, Light.init.bulb_halo_height, Light.init.shadows, Light.init.fader, Light.init.visible, s.timer, Light.init.shared, Light.init.drag_points⟩
    (string_rt.req h.image rfl) rfl ?_
  refine .segTo ⟨Light.init.name, s.center, s.height, s.falloff_radius, s.falloff_power, s.state_u32, s.state, s.color, s.color2, s.blink_pattern, s.image, s.blink_interval, Light.init.intensity, Light.init.transmission_scale, Light.init.surface, Light.init.is_backglass, Light.init.depth_bias, Light.init.fade_speed_up, Light.init.fade_speed_down, Light.init.is_bulb_light, Light.init.is_image_mode, Light.init.show_bulb_mesh, Light.init.has_static_bulb_mesh, Light.init.show_reflection_on_ball, Light.init.mesh_radius, Light.init.bulb_modulate_vs_add, Light.init.bulb_halo_height, Light.init.shadows, Light.init.fader, Light.init.visible, s.timer, Light.init.shared, Light.init.drag_points⟩
    (u32_rt.req trivial rfl) rfl ?_
  refine .segTo ⟨Light.init.name, s.center, s.height, s.falloff_radius, s.falloff_power, s.state_u32, s.state, s.color, s.color2, s.blink_pattern, s.image, s.blink_interval, s.intensity, Light.init.transmission_scale, Light.init.surface, Light.init.is_backglass, Light.init.depth_bias, Light.init.fade_speed_up, Light.init.fade_speed_down, Light.init.is_bulb_light, Light.init.is_image_mode, Light.init.show_bulb_mesh, Light.init.has_static_bulb_mesh, Light.init.show_reflection_on_ball, Light.init.mesh_radius, Light.init.bulb_modulate_vs_add, Light.init.bulb_halo_height, Light.init.shadows, Light.init.fader, Light.init.visible, s.timer, Light.init.shared, Light.init.drag_points⟩
    (f32_rt.req trivial rfl) rfl ?_
  refine .segTo ⟨Light.init.name, s.center, s.height, s.falloff_radius, s.falloff_power, s.state_u32, s.state, s.color, s.color2, s.blink_pattern, s.image, s.blink_interval, s.intensity, s.transmission_scale, Light.init.surface, Light.init.is_backglass, Light.init.depth_bias, Light.init.fade_speed_up, Light.init.fade_speed_down, Light.init.is_bulb_light, Light.init.is_image_mode, Light.init.show_bulb_mesh, Light.init.has_static_bulb_mesh, Light.init.show_reflection_on_ball, Light.init.mesh_radius, Light.init.bulb_modulate_vs_add, Light.init.bulb_halo_height, Light.init.shadows, Light.init.fader, Light.init.visible, s.timer, Light.init.shared, Light.init.drag_points⟩
    (f32_rt.req trivial rfl) rfl ?_
  refine .segTo ⟨Light.init.name, s.center, s.height, s.falloff_radius, s.falloff_power, s.state_u32, s.state, s.color, s.color2, s.blink_pattern, s.image, s.blink_interval, s.intensity, s.transmission_scale, s.surface, Light.init.is_backglass, Light.init.depth_bias, Light.init.fade_speed_up, Light.init.fade_speed_down, Light.init.is_bulb_light, Light.init.is_image_mode, Light.init.show_bulb_mesh, Light.init.has_static_bulb_mesh, Light.init.show_reflection_on_ball, Light.init.mesh_radius, Light.init.bulb_modulate_vs_add, Light.init.bulb_halo_height, Light.init.shadows, Light.init.fader, Light.init.visible, s.timer, Light.init.shared, Light.init.drag_points⟩
    (string_rt.req h.surface rfl) rfl ?_
  refine .segTo ⟨s.name, s.center, s.height, s.falloff_radius, s.falloff_power, s.state_u32, s.state, s.color, s.color2, s.blink_pattern, s.image, s.blink_interval, s.intensity, s.transmission_scale, s.surface, Light.init.is_backglass, Light.init.depth_bias, Light.init.fade_speed_up, Light.init.fade_speed_down, Light.init.is_bulb_light, Light.init.is_image_mode, Light.init.show_bulb_mesh, Light.init.has_static_bulb_mesh, Light.init.show_reflection_on_ball, Light.init.mesh_radius, Light.init.bulb_modulate_vs_add, Light.init.bulb_halo_height, Light.init.shadows, Light.init.fader, Light.init.visible, s.timer, Light.init.shared, Light.init.drag_points⟩
    (wide_rt.req h.name rfl) rfl ?_
  refine .segTo ⟨s.name, s.center, s.height, s.falloff_radius, s.falloff_power, s.state_u32, s.state, s.color, s.color2, s.blink_pattern, s.image, s.blink_interval, s.intensity, s.transmission_scale, s.surface, s.is_backglass, Light.init.depth_bias, Light.init.fade_speed_up, Light.init.fade_speed_down, Light.init.is_bulb_light, Light.init.is_image_mode, Light.init.show_bulb_mesh, Light.init.has_static_bulb_mesh, Light.init.show_reflection_on_ball, Light.init.mesh_radius, Light.init.bulb_modulate_vs_add, Light.init.bulb_halo_height, Light.init.shadows, Light.init.fader, Light.init.visible, s.timer, Light.init.shared, Light.init.drag_points⟩
    (bool_rt.req trivial rfl) rfl ?_
  refine .segTo ⟨s.name, s.center, s.height, s.falloff_radius, s.falloff_power, s.state_u32, s.state, s.color, s.color2, s.blink_pattern, s.image, s.blink_interval, s.intensity, s.transmission_scale, s.surface, s.is_backglass, s.depth_bias, Light.init.fade_speed_up, Light.init.fade_speed_down, Light.init.is_bulb_light, Light.init.is_image_mode, Light.init.show_bulb_mesh, Light.init.has_static_bulb_mesh, Light.init.show_reflection_on_ball, Light.init.mesh_radius, Light.init.bulb_modulate_vs_add, Light.init.bulb_halo_height, Light.init.shadows, Light.init.fader, Light.init.visible, s.timer, Light.init.shared, Light.init.drag_points⟩
    (f32_rt.req trivial rfl) rfl ?_
  refine .segTo ⟨s.name, s.center, s.height, s.falloff_radius, s.falloff_power, s.state_u32, s.state, s.color, s.color2, s.blink_pattern, s.image, s.blink_interval, s.intensity, s.transmission_scale, s.surface, s.is_backglass, s.depth_bias, s.fade_speed_up, Light.init.fade_speed_down, Light.init.is_bulb_light, Light.init.is_image_mode, Light.init.show_bulb_mesh, Light.init.has_static_bulb_mesh, Light.init.show_reflection_on_ball, Light.init.mesh_radius, Light.init.bulb_modulate_vs_add, Light.init.bulb_halo_height, Light.init.shadows, Light.init.fader, Light.init.visible, s.timer, Light.init.shared, Light.init.drag_points⟩
    (f32_rt.req trivial rfl) rfl ?_
  refine .segTo ⟨s.name, s.center, s.height, s.falloff_radius, s.falloff_power, s.state_u32, s.state, s.color, s.color2, s.blink_pattern, s.image, s.blink_interval, s.intensity, s.transmission_scale, s.surface, s.is_backglass, s.depth_bias, s.fade_speed_up, s.fade_speed_down, Light.init.is_bulb_light, Light.init.is_image_mode, Light.init.show_bulb_mesh, Light.init.has_static_bulb_mesh, Light.init.show_reflection_on_ball, Light.init.mesh_radius, Light.init.bulb_modulate_vs_add, Light.init.bulb_halo_height, Light.init.shadows, Light.init.fader, Light.init.visible, s.timer, Light.init.shared, Light.init.drag_points⟩
    (f32_rt.req trivial rfl) rfl ?_
  refine .segTo ⟨s.name, s.center, s.height, s.falloff_radius, s.falloff_power, s.state_u32, s.state, s.color, s.color2, s.blink_pattern, s.image, s.blink_interval, s.intensity, s.transmission_scale, s.surface, s.is_backglass, s.depth_bias, s.fade_speed_up, s.fade_speed_down, s.is_bulb_light, Light.init.is_image_mode, Light.init.show_bulb_mesh, Light.init.has_static_bulb_mesh, Light.init.show_reflection_on_ball, Light.init.mesh_radius, Light.init.bulb_modulate_vs_add, Light.init.bulb_halo_height, Light.init.shadows, Light.init.fader, Light.init.visible, s.timer, Light.init.shared, Light.init.drag_points⟩
    (bool_rt.req trivial rfl) rfl ?_
  refine .segTo ⟨s.name, s.center, s.height, s.falloff_radius, s.falloff_power, s.state_u32, s.state, s.color, s.color2, s.blink_pattern, s.image, s.blink_interval, s.intensity, s.transmission_scale, s.surface, s.is_backglass, s.depth_bias, s.fade_speed_up, s.fade_speed_down, s.is_bulb_light, s.is_image_mode, Light.init.show_bulb_mesh, Light.init.has_static_bulb_mesh, Light.init.show_reflection_on_ball, Light.init.mesh_radius, Light.init.bulb_modulate_vs_add, Light.init.bulb_halo_height, Light.init.shadows, Light.init.fader, Light.init.visible, s.timer, Light.init.shared, Light.init.drag_points⟩
    (bool_rt.req trivial rfl) rfl ?_
  refine .segTo ⟨s.name, s.center, s.height, s.falloff_radius, s.falloff_power, s.state_u32, s.state, s.color, s.color2, s.blink_pattern, s.image, s.blink_interval, s.intensity, s.transmission_scale, s.surface, s.is_backglass, s.depth_bias, s.fade_speed_up, s.fade_speed_down, s.is_bulb_light, s.is_image_mode, s.show_bulb_mesh, Light.init.has_static_bulb_mesh, Light.init.show_reflection_on_ball, Light.init.mesh_radius, Light.init.bulb_modulate_vs_add, Light.init.bulb_halo_height, Light.init.shadows, Light.init.fader, Light.init.visible, s.timer, Light.init.shared, Light.init.drag_points⟩
    (bool_rt.req trivial rfl) rfl ?_
  refine .segTo ⟨s.name, s.center, s.height, s.falloff_radius, s.falloff_power, s.state_u32, s.state, s.color, s.color2, s.blink_pattern, s.image, s.blink_interval, s.intensity, s.transmission_scale, s.surface, s.is_backglass, s.depth_bias, s.fade_speed_up, s.fade_speed_down, s.is_bulb_light, s.is_image_mode, s.show_bulb_mesh, s.has_static_bulb_mesh, Light.init.show_reflection_on_ball, Light.init.mesh_radius, Light.init.bulb_modulate_vs_add, Light.init.bulb_halo_height, Light.init.shadows, Light.init.fader, Light.init.visible, s.timer, Light.init.shared, Light.init.drag_points⟩
    (bool_rt.opt (fun v (s : Light) => { s with has_static_bulb_mesh := v }) (fun _ _ => trivial) rfl rfl) rfl ?_
  refine .segTo ⟨s.name, s.center, s.height, s.falloff_radius, s.falloff_power, s.state_u32, s.state, s.color, s.color2, s.blink_pattern, s.image, s.blink_interval, s.intensity, s.transmission_scale, s.surface, s.is_backglass, s.depth_bias, s.fade_speed_up, s.fade_speed_down, s.is_bulb_light, s.is_image_mode, s.show_bulb_mesh, s.has_static_bulb_mesh, s.show_reflection_on_ball, Light.init.mesh_radius, Light.init.bulb_modulate_vs_add, Light.init.bulb_halo_height, Light.init.shadows, Light.init.fader, Light.init.visible, s.timer, Light.init.shared, Light.init.drag_points⟩
    (bool_rt.req trivial rfl) rfl ?_
  refine .segTo ⟨s.name, s.center, s.height, s.falloff_radius, s.falloff_power, s.state_u32, s.state, s.color, s.color2, s.blink_pattern, s.image, s.blink_interval, s.intensity, s.transmission_scale, s.surface, s.is_backglass, s.depth_bias, s.fade_speed_up, s.fade_speed_down, s.is_bulb_light, s.is_image_mode, s.show_bulb_mesh, s.has_static_bulb_mesh, s.show_reflection_on_ball, s.mesh_radius, Light.init.bulb_modulate_vs_add, Light.init.bulb_halo_height, Light.init.shadows, Light.init.fader, Light.init.visible, s.timer, Light.init.shared, Light.init.drag_points⟩
    (f32_rt.req trivial rfl) rfl ?_
  refine .segTo ⟨s.name, s.center, s.height, s.falloff_radius, s.falloff_power, s.state_u32, s.state, s.color, s.color2, s.blink_pattern, s.image, s.blink_interval, s.intensity, s.transmission_scale, s.surface, s.is_backglass, s.depth_bias, s.fade_speed_up, s.fade_speed_down, s.is_bulb_light, s.is_image_mode, s.show_bulb_mesh, s.has_static_bulb_mesh, s.show_reflection_on_ball, s.mesh_radius, s.bulb_modulate_vs_add, Light.init.bulb_halo_height, Light.init.shadows, Light.init.fader, Light.init.visible, s.timer, Light.init.shared, Light.init.drag_points⟩
    (f32_rt.req trivial rfl) rfl ?_
  refine .segTo ⟨s.name, s.center, s.height, s.falloff_radius, s.falloff_power, s.state_u32, s.state, s.color, s.color2, s.blink_pattern, s.image, s.blink_interval, s.intensity, s.transmission_scale, s.surface, s.is_backglass, s.depth_bias, s.fade_speed_up, s.fade_speed_down, s.is_bulb_light, s.is_image_mode, s.show_bulb_mesh, s.has_static_bulb_mesh, s.show_reflection_on_ball, s.mesh_radius, s.bulb_modulate_vs_add, s.bulb_halo_height, Light.init.shadows, Light.init.fader, Light.init.visible, s.timer, Light.init.shared, Light.init.drag_points⟩
    (f32_rt.req trivial rfl) rfl ?_
  refine .segTo ⟨s.name, s.center, s.height, s.falloff_radius, s.falloff_power, s.state_u32, s.state, s.color, s.color2, s.blink_pattern, s.image, s.blink_interval, s.intensity, s.transmission_scale, s.surface, s.is_backglass, s.depth_bias, s.fade_speed_up, s.fade_speed_down, s.is_bulb_light, s.is_image_mode, s.show_bulb_mesh, s.has_static_bulb_mesh, s.show_reflection_on_ball, s.mesh_radius, s.bulb_modulate_vs_add, s.bulb_halo_height, s.shadows, Light.init.fader, Light.init.visible, s.timer, Light.init.shared, Light.init.drag_points⟩
    (ShadowMode.rt.opt (fun v (s : Light) => { s with shadows := v }) (fun _ _ => trivial) rfl rfl) rfl ?_
  refine .segTo ⟨s.name, s.center, s.height, s.falloff_radius, s.falloff_power, s.state_u32, s.state, s.color, s.color2, s.blink_pattern, s.image, s.blink_interval, s.intensity, s.transmission_scale, s.surface, s.is_backglass, s.depth_bias, s.fade_speed_up, s.fade_speed_down, s.is_bulb_light, s.is_image_mode, s.show_bulb_mesh, s.has_static_bulb_mesh, s.show_reflection_on_ball, s.mesh_radius, s.bulb_modulate_vs_add, s.bulb_halo_height, s.shadows, s.fader, Light.init.visible, s.timer, Light.init.shared, Light.init.drag_points⟩
    (Fader.rt.opt (fun v (s : Light) => { s with fader := v }) (fun _ _ => trivial) rfl rfl) rfl ?_
  refine .segTo ⟨s.name, s.center, s.height, s.falloff_radius, s.falloff_power, s.state_u32, s.state, s.color, s.color2, s.blink_pattern, s.image, s.blink_interval, s.intensity, s.transmission_scale, s.surface, s.is_backglass, s.depth_bias, s.fade_speed_up, s.fade_speed_down, s.is_bulb_light, s.is_image_mode, s.show_bulb_mesh, s.has_static_bulb_mesh, s.show_reflection_on_ball, s.mesh_radius, s.bulb_modulate_vs_add, s.bulb_halo_height, s.shadows, s.fader, s.visible, s.timer, Light.init.shared, Light.init.drag_points⟩
    (bool_rt.opt (fun v (s : Light) => { s with visible := v }) (fun _ _ => trivial) rfl rfl) rfl ?_
  refine .segTo ⟨s.name, s.center, s.height, s.falloff_radius, s.falloff_power, s.state_u32, s.state, s.color, s.color2, s.blink_pattern, s.image, s.blink_interval, s.intensity, s.transmission_scale, s.surface, s.is_backglass, s.depth_bias, s.fade_speed_up, s.fade_speed_down, s.is_bulb_light, s.is_image_mode, s.show_bulb_mesh, s.has_static_bulb_mesh, s.show_reflection_on_ball, s.mesh_radius, s.bulb_modulate_vs_add, s.bulb_halo_height, s.shadows, s.fader, s.visible, s.timer, s.shared, Light.init.drag_points⟩
    (shared_reads (L := Light.sharedL) ⟨fun _ _ => rfl, fun _ _ _ => rfl, fun _ => rfl⟩ h.shared rfl rfl rfl rfl rfl rfl) rfl ?_
  refine .segTo ⟨s.name, s.center, s.height, s.falloff_radius, s.falloff_power, s.state_u32, s.state, s.color, s.color2, s.blink_pattern, s.image, s.blink_interval, s.intensity, s.transmission_scale, s.surface, s.is_backglass, s.depth_bias, s.fade_speed_up, s.fade_speed_down, s.is_bulb_light, s.is_image_mode, s.show_bulb_mesh, s.has_static_bulb_mesh, s.show_reflection_on_ball, s.mesh_radius, s.bulb_modulate_vs_add, s.bulb_halo_height, s.shadows, s.fader, s.visible, s.timer, s.shared, s.drag_points⟩
    (OReads.nestedList (hs' := DragPoint.arms) (u := DragPoint.init) _
    (fun l (s : Light) => { s with drag_points := s.drag_points ++ l }) rfl
    (fun v hv => DragPoint.reads (h.drag_points v hv)) (fun v l s => by simp)
    (fun s => by simp)) rfl ?_
  exact .done rfl

theorem Light.arms_inv : ArmsInv Light.WF Light.arms := by
  unfold Light.arms
  exact (.append (.append (.cons (.fld GP.any fun _ _ h _ => ⟨h.blink_pattern, h.image, h.surface, h.name, h.shared, h.drag_points⟩) <|
    .cons (.fld GP.any fun _ _ h _ => ⟨h.blink_pattern, h.image, h.surface, h.name, h.shared, h.drag_points⟩) <|
    .cons (.fld GP.any fun _ _ h _ => ⟨h.blink_pattern, h.image, h.surface, h.name, h.shared, h.drag_points⟩) <|
    .cons (.fld GP.any fun _ _ h _ => ⟨h.blink_pattern, h.image, h.surface, h.name, h.shared, h.drag_points⟩) <|
    .cons (.fld GP.any fun _ _ h _ => ⟨h.blink_pattern, h.image, h.surface, h.name, h.shared, h.drag_points⟩) <|
    .cons (.fld GP.any fun _ _ h _ => ⟨h.blink_pattern, h.image, h.surface, h.name, h.shared, h.drag_points⟩) <|
    .cons (.fld GP.any fun _ _ h _ => ⟨h.blink_pattern, h.image, h.surface, h.name, h.shared, h.drag_points⟩) <|
    .cons (.fld GP.any fun _ _ h _ => ⟨h.blink_pattern, h.image, h.surface, h.name, h.shared, h.drag_points⟩) <|
    .cons (.fld string_gp fun _ _ h hv => ⟨hv, h.image, h.surface, h.name, h.shared, h.drag_points⟩) <|
    .cons (.fld string_gp fun _ _ h hv => ⟨h.blink_pattern, hv, h.surface, h.name, h.shared, h.drag_points⟩) <|
    .cons (.fld GP.any fun _ _ h _ => ⟨h.blink_pattern, h.image, h.surface, h.name, h.shared, h.drag_points⟩) <|
    .cons (.fld GP.any fun _ _ h _ => ⟨h.blink_pattern, h.image, h.surface, h.name, h.shared, h.drag_points⟩) <|
    .cons (.fld GP.any fun _ _ h _ => ⟨h.blink_pattern, h.image, h.surface, h.name, h.shared, h.drag_points⟩) <|
    .cons (.fld string_gp fun _ _ h hv => ⟨h.blink_pattern, h.image, hv, h.name, h.shared, h.drag_points⟩) <|
    .cons (.fld wide_gp fun _ _ h hv => ⟨h.blink_pattern, h.image, h.surface, hv, h.shared, h.drag_points⟩) <|
    .cons (.fld GP.any fun _ _ h _ => ⟨h.blink_pattern, h.image, h.surface, h.name, h.shared, h.drag_points⟩) <|
    .cons (.fld GP.any fun _ _ h _ => ⟨h.blink_pattern, h.image, h.surface, h.name, h.shared, h.drag_points⟩) <|
    .cons (.fld GP.any fun _ _ h _ => ⟨h.blink_pattern, h.image, h.surface, h.name, h.shared, h.drag_points⟩) <|
    .cons (.fld GP.any fun _ _ h _ => ⟨h.blink_pattern, h.image, h.surface, h.name, h.shared, h.drag_points⟩) <|
    .cons (.fld GP.any fun _ _ h _ => ⟨h.blink_pattern, h.image, h.surface, h.name, h.shared, h.drag_points⟩) <|
    .cons (.fld GP.any fun _ _ h _ => ⟨h.blink_pattern, h.image, h.surface, h.name, h.shared, h.drag_points⟩) <|
    .cons (.fld GP.any fun _ _ h _ => ⟨h.blink_pattern, h.image, h.surface, h.name, h.shared, h.drag_points⟩) <|
    .cons (.fld GP.any fun _ _ h _ => ⟨h.blink_pattern, h.image, h.surface, h.name, h.shared, h.drag_points⟩) <|
    .cons (.fld GP.any fun _ _ h _ => ⟨h.blink_pattern, h.image, h.surface, h.name, h.shared, h.drag_points⟩) <|
    .cons (.fld GP.any fun _ _ h _ => ⟨h.blink_pattern, h.image, h.surface, h.name, h.shared, h.drag_points⟩) <|
    .cons (.fld GP.any fun _ _ h _ => ⟨h.blink_pattern, h.image, h.surface, h.name, h.shared, h.drag_points⟩) <|
    .cons (.fld GP.any fun _ _ h _ => ⟨h.blink_pattern, h.image, h.surface, h.name, h.shared, h.drag_points⟩) <|
    .cons (.fld GP.any fun _ _ h _ => ⟨h.blink_pattern, h.image, h.surface, h.name, h.shared, h.drag_points⟩) <|
    .cons (.fld GP.any fun _ _ h _ => ⟨h.blink_pattern, h.image, h.surface, h.name, h.shared, h.drag_points⟩) <|
    .cons (.fld GP.any fun _ _ h _ => ⟨h.blink_pattern, h.image, h.surface, h.name, h.shared, h.drag_points⟩) <|
    .cons (.fld (getChild_gp (readWith_gp DragPoint.arms_inv DragPoint.init_wf)) fun _ _ h hv => ⟨h.blink_pattern, h.image, h.surface, h.name, h.shared, (forall_append h.drag_points hv)⟩) .nil)
    (timerArms_inv fun _ _ h => ⟨h.blink_pattern, h.image, h.surface, h.name, h.shared, h.drag_points⟩))
    (sharedArms_inv (fun _ h => h.shared) fun _ _ h ha => ⟨h.blink_pattern, h.image, h.surface, h.name, ha, h.drag_points⟩))

theorem Light.init_wf : Light.WF Light.init where
  blink_pattern := by decide
  image := by decide
  surface := by decide
  name := by decide
  shared := ⟨.none, .none⟩
  drag_points := by intro p hp; cases hp

theorem Light.arms_tame : ArmsTame Light.arms := by
  unfold Light.arms
  exact (.append (.append (.cons (fun _ => vertex2d_tame.fld) <|
    .cons (fun _ => f32_tame.fld) <|
    .cons (fun _ => f32_tame.fld) <|
    .cons (fun _ => f32_tame.fld) <|
    .cons (fun _ => u32_tame.fld) <|
    .cons (fun _ => f32_tame.fld) <|
    .cons (fun _ => color_tame.fld) <|
    .cons (fun _ => color_tame.fld) <|
    .cons (fun _ => string_tame.fld) <|
    .cons (fun _ => string_tame.fld) <|
    .cons (fun _ => u32_tame.fld) <|
    .cons (fun _ => f32_tame.fld) <|
    .cons (fun _ => f32_tame.fld) <|
    .cons (fun _ => string_tame.fld) <|
    .cons (fun _ => wide_tame.fld) <|
    .cons (fun _ => bool_tame.fld) <|
    .cons (fun _ => f32_tame.fld) <|
    .cons (fun _ => f32_tame.fld) <|
    .cons (fun _ => f32_tame.fld) <|
    .cons (fun _ => bool_tame.fld) <|
    .cons (fun _ => bool_tame.fld) <|
    .cons (fun _ => bool_tame.fld) <|
    .cons (fun _ => bool_tame.fld) <|
    .cons (fun _ => bool_tame.fld) <|
    .cons (fun _ => f32_tame.fld) <|
    .cons (fun _ => f32_tame.fld) <|
    .cons (fun _ => f32_tame.fld) <|
    .cons (fun _ => enum_tame.fld) <|
    .cons (fun _ => enum_tame.fld) <|
    .cons (fun _ => bool_tame.fld) <|
    .cons (fun _ => (getChild_tame (readWith_tame DragPoint.arms_tame _)).fld) .nil) (timerArms_tame _)) (sharedArms_tame _))

end Vpin
