import Verif.Lemmas.GameDataBase
/-
Game data: reading back what was written, and what the reader guarantees for every input.
Generated by tools/gen_gamedata.py.
-/
namespace Vpin


theorem GameData.readsA2 {v : UInt32} {s : GameData} {e : Option Bool} {b : Bool} (h : s.Fields) :
    GReads v s.opsA2
    ⟨⟨s.left, s.top, s.right, s.bottom, s.camera_layout_mode, e, b, GameData.default.bg_view_mode_desktop, GameData.default.bg_rotation_desktop, GameData.default.bg_inclination_desktop, GameData.default.bg_layback_desktop, GameData.default.bg_fov_desktop, GameData.default.bg_offset_x_desktop, GameData.default.bg_offset_y_desktop, GameData.default.bg_offset_z_desktop, GameData.default.bg_scale_x_desktop, GameData.default.bg_scale_y_desktop, GameData.default.bg_scale_z_desktop, GameData.default.bg_view_horizontal_offset_desktop, GameData.default.bg_view_vertical_offset_desktop, GameData.default.bg_window_top_x_offset_desktop, GameData.default.bg_window_top_y_offset_desktop, GameData.default.bg_window_top_z_offset_desktop, GameData.default.bg_window_bottom_x_offset_desktop, GameData.default.bg_window_bottom_y_offset_desktop, GameData.default.bg_window_bottom_z_offset_desktop, GameData.default.bg_view_mode_fullscreen⟩, GameData.default.toGDScreens, GameData.default.toGDPhysics, GameData.default.toGDLook, GameData.default.toGDRender, GameData.default.toGDContent⟩
    ⟨⟨s.left, s.top, s.right, s.bottom, s.camera_layout_mode, e, b, s.bg_view_mode_desktop, s.bg_rotation_desktop, s.bg_inclination_desktop, s.bg_layback_desktop, s.bg_fov_desktop, s.bg_offset_x_desktop, s.bg_offset_y_desktop, s.bg_offset_z_desktop, s.bg_scale_x_desktop, s.bg_scale_y_desktop, s.bg_scale_z_desktop, s.bg_view_horizontal_offset_desktop, s.bg_view_vertical_offset_desktop, s.bg_window_top_x_offset_desktop, s.bg_window_top_y_offset_desktop, s.bg_window_top_z_offset_desktop, s.bg_window_bottom_x_offset_desktop, s.bg_window_bottom_y_offset_desktop, s.bg_window_bottom_z_offset_desktop, s.bg_view_mode_fullscreen⟩, GameData.default.toGDScreens, GameData.default.toGDPhysics, GameData.default.toGDLook, GameData.default.toGDRender, GameData.default.toGDContent⟩ := by
  unfold GameData.opsA2
  refine .segTo ⟨⟨s.left, s.top, s.right, s.bottom, s.camera_layout_mode, e, b, s.bg_view_mode_desktop, GameData.default.bg_rotation_desktop, GameData.default.bg_inclination_desktop, GameData.default.bg_layback_desktop, GameData.default.bg_fov_desktop, GameData.default.bg_offset_x_desktop, GameData.default.bg_offset_y_desktop, GameData.default.bg_offset_z_desktop, GameData.default.bg_scale_x_desktop, GameData.default.bg_scale_y_desktop, GameData.default.bg_scale_z_desktop, GameData.default.bg_view_horizontal_offset_desktop, GameData.default.bg_view_vertical_offset_desktop, GameData.default.bg_window_top_x_offset_desktop, GameData.default.bg_window_top_y_offset_desktop, GameData.default.bg_window_top_z_offset_desktop, GameData.default.bg_window_bottom_x_offset_desktop, GameData.default.bg_window_bottom_y_offset_desktop, GameData.default.bg_window_bottom_z_offset_desktop, GameData.default.bg_view_mode_fullscreen⟩, GameData.default.toGDScreens, GameData.default.toGDPhysics, GameData.default.toGDLook, GameData.default.toGDRender, GameData.default.toGDContent⟩
    (ViewLayoutMode.rt.gopt (fun v (s : GameData) => { s with bg_view_mode_desktop := v }) (fun _ _ => trivial) rfl rfl) rfl ?_
  refine .segTo ⟨⟨s.left, s.top, s.right, s.bottom, s.camera_layout_mode, e, b, s.bg_view_mode_desktop, s.bg_rotation_desktop, GameData.default.bg_inclination_desktop, GameData.default.bg_layback_desktop, GameData.default.bg_fov_desktop, GameData.default.bg_offset_x_desktop, GameData.default.bg_offset_y_desktop, GameData.default.bg_offset_z_desktop, GameData.default.bg_scale_x_desktop, GameData.default.bg_scale_y_desktop, GameData.default.bg_scale_z_desktop, GameData.default.bg_view_horizontal_offset_desktop, GameData.default.bg_view_vertical_offset_desktop, GameData.default.bg_window_top_x_offset_desktop, GameData.default.bg_window_top_y_offset_desktop, GameData.default.bg_window_top_z_offset_desktop, GameData.default.bg_window_bottom_x_offset_desktop, GameData.default.bg_window_bottom_y_offset_desktop, GameData.default.bg_window_bottom_z_offset_desktop, GameData.default.bg_view_mode_fullscreen⟩, GameData.default.toGDScreens, GameData.default.toGDPhysics, GameData.default.toGDLook, GameData.default.toGDRender, GameData.default.toGDContent⟩
    (f32_rt.greq (fun v (s : GameData) => { s with bg_rotation_desktop := v }) trivial rfl) rfl ?_
  refine .segTo ⟨⟨s.left, s.top, s.right, s.bottom, s.camera_layout_mode, e, b, s.bg_view_mode_desktop, s.bg_rotation_desktop, s.bg_inclination_desktop, GameData.default.bg_layback_desktop, GameData.default.bg_fov_desktop, GameData.default.bg_offset_x_desktop, GameData.default.bg_offset_y_desktop, GameData.default.bg_offset_z_desktop, GameData.default.bg_scale_x_desktop, GameData.default.bg_scale_y_desktop, GameData.default.bg_scale_z_desktop, GameData.default.bg_view_horizontal_offset_desktop, GameData.default.bg_view_vertical_offset_desktop, GameData.default.bg_window_top_x_offset_desktop, GameData.default.bg_window_top_y_offset_desktop, GameData.default.bg_window_top_z_offset_desktop, GameData.default.bg_window_bottom_x_offset_desktop, GameData.default.bg_window_bottom_y_offset_desktop, GameData.default.bg_window_bottom_z_offset_desktop, GameData.default.bg_view_mode_fullscreen⟩, GameData.default.toGDScreens, GameData.default.toGDPhysics, GameData.default.toGDLook, GameData.default.toGDRender, GameData.default.toGDContent⟩
    (f32_rt.greq (fun v (s : GameData) => { s with bg_inclination_desktop := v }) trivial rfl) rfl ?_
  refine .segTo ⟨⟨s.left, s.top, s.right, s.bottom, s.camera_layout_mode, e, b, s.bg_view_mode_desktop, s.bg_rotation_desktop, s.bg_inclination_desktop, s.bg_layback_desktop, GameData.default.bg_fov_desktop, GameData.default.bg_offset_x_desktop, GameData.default.bg_offset_y_desktop, GameData.default.bg_offset_z_desktop, GameData.default.bg_scale_x_desktop, GameData.default.bg_scale_y_desktop, GameData.default.bg_scale_z_desktop, GameData.default.bg_view_horizontal_offset_desktop, GameData.default.bg_view_vertical_offset_desktop, GameData.default.bg_window_top_x_offset_desktop, GameData.default.bg_window_top_y_offset_desktop, GameData.default.bg_window_top_z_offset_desktop, GameData.default.bg_window_bottom_x_offset_desktop, GameData.default.bg_window_bottom_y_offset_desktop, GameData.default.bg_window_bottom_z_offset_desktop, GameData.default.bg_view_mode_fullscreen⟩, GameData.default.toGDScreens, GameData.default.toGDPhysics, GameData.default.toGDLook, GameData.default.toGDRender, GameData.default.toGDContent⟩
    (f32_rt.greq (fun v (s : GameData) => { s with bg_layback_desktop := v }) trivial rfl) rfl ?_
  refine .segTo ⟨⟨s.left, s.top, s.right, s.bottom, s.camera_layout_mode, e, b, s.bg_view_mode_desktop, s.bg_rotation_desktop, s.bg_inclination_desktop, s.bg_layback_desktop, s.bg_fov_desktop, GameData.default.bg_offset_x_desktop, GameData.default.bg_offset_y_desktop, GameData.default.bg_offset_z_desktop, GameData.default.bg_scale_x_desktop, GameData.default.bg_scale_y_desktop, GameData.default.bg_scale_z_desktop, GameData.default.bg_view_horizontal_offset_desktop, GameData.default.bg_view_vertical_offset_desktop, GameData.default.bg_window_top_x_offset_desktop, GameData.default.bg_window_top_y_offset_desktop, GameData.default.bg_window_top_z_offset_desktop, GameData.default.bg_window_bottom_x_offset_desktop, GameData.default.bg_window_bottom_y_offset_desktop, GameData.default.bg_window_bottom_z_offset_desktop, GameData.default.bg_view_mode_fullscreen⟩, GameData.default.toGDScreens, GameData.default.toGDPhysics, GameData.default.toGDLook, GameData.default.toGDRender, GameData.default.toGDContent⟩
    (f32_rt.greq (fun v (s : GameData) => { s with bg_fov_desktop := v }) trivial rfl) rfl ?_
  refine .segTo ⟨⟨s.left, s.top, s.right, s.bottom, s.camera_layout_mode, e, b, s.bg_view_mode_desktop, s.bg_rotation_desktop, s.bg_inclination_desktop, s.bg_layback_desktop, s.bg_fov_desktop, s.bg_offset_x_desktop, GameData.default.bg_offset_y_desktop, GameData.default.bg_offset_z_desktop, GameData.default.bg_scale_x_desktop, GameData.default.bg_scale_y_desktop, GameData.default.bg_scale_z_desktop, GameData.default.bg_view_horizontal_offset_desktop, GameData.default.bg_view_vertical_offset_desktop, GameData.default.bg_window_top_x_offset_desktop, GameData.default.bg_window_top_y_offset_desktop, GameData.default.bg_window_top_z_offset_desktop, GameData.default.bg_window_bottom_x_offset_desktop, GameData.default.bg_window_bottom_y_offset_desktop, GameData.default.bg_window_bottom_z_offset_desktop, GameData.default.bg_view_mode_fullscreen⟩, GameData.default.toGDScreens, GameData.default.toGDPhysics, GameData.default.toGDLook, GameData.default.toGDRender, GameData.default.toGDContent⟩
    (f32_rt.greq (fun v (s : GameData) => { s with bg_offset_x_desktop := v }) trivial rfl) rfl ?_
  refine .segTo ⟨⟨s.left, s.top, s.right, s.bottom, s.camera_layout_mode, e, b, s.bg_view_mode_desktop, s.bg_rotation_desktop, s.bg_inclination_desktop, s.bg_layback_desktop, s.bg_fov_desktop, s.bg_offset_x_desktop, s.bg_offset_y_desktop, GameData.default.bg_offset_z_desktop, GameData.default.bg_scale_x_desktop, GameData.default.bg_scale_y_desktop, GameData.default.bg_scale_z_desktop, GameData.default.bg_view_horizontal_offset_desktop, GameData.default.bg_view_vertical_offset_desktop, GameData.default.bg_window_top_x_offset_desktop, GameData.default.bg_window_top_y_offset_desktop, GameData.default.bg_window_top_z_offset_desktop, GameData.default.bg_window_bottom_x_offset_desktop, GameData.default.bg_window_bottom_y_offset_desktop, GameData.default.bg_window_bottom_z_offset_desktop, GameData.default.bg_view_mode_fullscreen⟩, GameData.default.toGDScreens, GameData.default.toGDPhysics, GameData.default.toGDLook, GameData.default.toGDRender, GameData.default.toGDContent⟩
    (f32_rt.greq (fun v (s : GameData) => { s with bg_offset_y_desktop := v }) trivial rfl) rfl ?_
  refine .segTo ⟨⟨s.left, s.top, s.right, s.bottom, s.camera_layout_mode, e, b, s.bg_view_mode_desktop, s.bg_rotation_desktop, s.bg_inclination_desktop, s.bg_layback_desktop, s.bg_fov_desktop, s.bg_offset_x_desktop, s.bg_offset_y_desktop, s.bg_offset_z_desktop, GameData.default.bg_scale_x_desktop, GameData.default.bg_scale_y_desktop, GameData.default.bg_scale_z_desktop, GameData.default.bg_view_horizontal_offset_desktop, GameData.default.bg_view_vertical_offset_desktop, GameData.default.bg_window_top_x_offset_desktop, GameData.default.bg_window_top_y_offset_desktop, GameData.default.bg_window_top_z_offset_desktop, GameData.default.bg_window_bottom_x_offset_desktop, GameData.default.bg_window_bottom_y_offset_desktop, GameData.default.bg_window_bottom_z_offset_desktop, GameData.default.bg_view_mode_fullscreen⟩, GameData.default.toGDScreens, GameData.default.toGDPhysics, GameData.default.toGDLook, GameData.default.toGDRender, GameData.default.toGDContent⟩
    (f32_rt.greq (fun v (s : GameData) => { s with bg_offset_z_desktop := v }) trivial rfl) rfl ?_
  refine .segTo ⟨⟨s.left, s.top, s.right, s.bottom, s.camera_layout_mode, e, b, s.bg_view_mode_desktop, s.bg_rotation_desktop, s.bg_inclination_desktop, s.bg_layback_desktop, s.bg_fov_desktop, s.bg_offset_x_desktop, s.bg_offset_y_desktop, s.bg_offset_z_desktop, s.bg_scale_x_desktop, GameData.default.bg_scale_y_desktop, GameData.default.bg_scale_z_desktop, GameData.default.bg_view_horizontal_offset_desktop, GameData.default.bg_view_vertical_offset_desktop, GameData.default.bg_window_top_x_offset_desktop, GameData.default.bg_window_top_y_offset_desktop, GameData.default.bg_window_top_z_offset_desktop, GameData.default.bg_window_bottom_x_offset_desktop, GameData.default.bg_window_bottom_y_offset_desktop, GameData.default.bg_window_bottom_z_offset_desktop, GameData.default.bg_view_mode_fullscreen⟩, GameData.default.toGDScreens, GameData.default.toGDPhysics, GameData.default.toGDLook, GameData.default.toGDRender, GameData.default.toGDContent⟩
    (f32_rt.greq (fun v (s : GameData) => { s with bg_scale_x_desktop := v }) trivial rfl) rfl ?_
  refine .segTo ⟨⟨s.left, s.top, s.right, s.bottom, s.camera_layout_mode, e, b, s.bg_view_mode_desktop, s.bg_rotation_desktop, s.bg_inclination_desktop, s.bg_layback_desktop, s.bg_fov_desktop, s.bg_offset_x_desktop, s.bg_offset_y_desktop, s.bg_offset_z_desktop, s.bg_scale_x_desktop, s.bg_scale_y_desktop, GameData.default.bg_scale_z_desktop, GameData.default.bg_view_horizontal_offset_desktop, GameData.default.bg_view_vertical_offset_desktop, GameData.default.bg_window_top_x_offset_desktop, GameData.default.bg_window_top_y_offset_desktop, GameData.default.bg_window_top_z_offset_desktop, GameData.default.bg_window_bottom_x_offset_desktop, GameData.default.bg_window_bottom_y_offset_desktop, GameData.default.bg_window_bottom_z_offset_desktop, GameData.default.bg_view_mode_fullscreen⟩, GameData.default.toGDScreens, GameData.default.toGDPhysics, GameData.default.toGDLook, GameData.default.toGDRender, GameData.default.toGDContent⟩
    (f32_rt.greq (fun v (s : GameData) => { s with bg_scale_y_desktop := v }) trivial rfl) rfl ?_
  refine .segTo ⟨⟨s.left, s.top, s.right, s.bottom, s.camera_layout_mode, e, b, s.bg_view_mode_desktop, s.bg_rotation_desktop, s.bg_inclination_desktop, s.bg_layback_desktop, s.bg_fov_desktop, s.bg_offset_x_desktop, s.bg_offset_y_desktop, s.bg_offset_z_desktop, s.bg_scale_x_desktop, s.bg_scale_y_desktop, s.bg_scale_z_desktop, GameData.default.bg_view_horizontal_offset_desktop, GameData.default.bg_view_vertical_offset_desktop, GameData.default.bg_window_top_x_offset_desktop, GameData.default.bg_window_top_y_offset_desktop, GameData.default.bg_window_top_z_offset_desktop, GameData.default.bg_window_bottom_x_offset_desktop, GameData.default.bg_window_bottom_y_offset_desktop, GameData.default.bg_window_bottom_z_offset_desktop, GameData.default.bg_view_mode_fullscreen⟩, GameData.default.toGDScreens, GameData.default.toGDPhysics, GameData.default.toGDLook, GameData.default.toGDRender, GameData.default.toGDContent⟩
    (f32_rt.greq (fun v (s : GameData) => { s with bg_scale_z_desktop := v }) trivial rfl) rfl ?_
  refine .segTo ⟨⟨s.left, s.top, s.right, s.bottom, s.camera_layout_mode, e, b, s.bg_view_mode_desktop, s.bg_rotation_desktop, s.bg_inclination_desktop, s.bg_layback_desktop, s.bg_fov_desktop, s.bg_offset_x_desktop, s.bg_offset_y_desktop, s.bg_offset_z_desktop, s.bg_scale_x_desktop, s.bg_scale_y_desktop, s.bg_scale_z_desktop, s.bg_view_horizontal_offset_desktop, GameData.default.bg_view_vertical_offset_desktop, GameData.default.bg_window_top_x_offset_desktop, GameData.default.bg_window_top_y_offset_desktop, GameData.default.bg_window_top_z_offset_desktop, GameData.default.bg_window_bottom_x_offset_desktop, GameData.default.bg_window_bottom_y_offset_desktop, GameData.default.bg_window_bottom_z_offset_desktop, GameData.default.bg_view_mode_fullscreen⟩, GameData.default.toGDScreens, GameData.default.toGDPhysics, GameData.default.toGDLook, GameData.default.toGDRender, GameData.default.toGDContent⟩
    (f32_rt.gopt (fun v (s : GameData) => { s with bg_view_horizontal_offset_desktop := v }) (fun _ _ => trivial) rfl rfl) rfl ?_
  refine .segTo ⟨⟨s.left, s.top, s.right, s.bottom, s.camera_layout_mode, e, b, s.bg_view_mode_desktop, s.bg_rotation_desktop, s.bg_inclination_desktop, s.bg_layback_desktop, s.bg_fov_desktop, s.bg_offset_x_desktop, s.bg_offset_y_desktop, s.bg_offset_z_desktop, s.bg_scale_x_desktop, s.bg_scale_y_desktop, s.bg_scale_z_desktop, s.bg_view_horizontal_offset_desktop, s.bg_view_vertical_offset_desktop, GameData.default.bg_window_top_x_offset_desktop, GameData.default.bg_window_top_y_offset_desktop, GameData.default.bg_window_top_z_offset_desktop, GameData.default.bg_window_bottom_x_offset_desktop, GameData.default.bg_window_bottom_y_offset_desktop, GameData.default.bg_window_bottom_z_offset_desktop, GameData.default.bg_view_mode_fullscreen⟩, GameData.default.toGDScreens, GameData.default.toGDPhysics, GameData.default.toGDLook, GameData.default.toGDRender, GameData.default.toGDContent⟩
    (f32_rt.gopt (fun v (s : GameData) => { s with bg_view_vertical_offset_desktop := v }) (fun _ _ => trivial) rfl rfl) rfl ?_
  refine .segTo ⟨⟨s.left, s.top, s.right, s.bottom, s.camera_layout_mode, e, b, s.bg_view_mode_desktop, s.bg_rotation_desktop, s.bg_inclination_desktop, s.bg_layback_desktop, s.bg_fov_desktop, s.bg_offset_x_desktop, s.bg_offset_y_desktop, s.bg_offset_z_desktop, s.bg_scale_x_desktop, s.bg_scale_y_desktop, s.bg_scale_z_desktop, s.bg_view_horizontal_offset_desktop, s.bg_view_vertical_offset_desktop, s.bg_window_top_x_offset_desktop, GameData.default.bg_window_top_y_offset_desktop, GameData.default.bg_window_top_z_offset_desktop, GameData.default.bg_window_bottom_x_offset_desktop, GameData.default.bg_window_bottom_y_offset_desktop, GameData.default.bg_window_bottom_z_offset_desktop, GameData.default.bg_view_mode_fullscreen⟩, GameData.default.toGDScreens, GameData.default.toGDPhysics, GameData.default.toGDLook, GameData.default.toGDRender, GameData.default.toGDContent⟩
    (f32_rt.gopt (fun v (s : GameData) => { s with bg_window_top_x_offset_desktop := v }) (fun _ _ => trivial) rfl rfl) rfl ?_
  refine .segTo ⟨⟨s.left, s.top, s.right, s.bottom, s.camera_layout_mode, e, b, s.bg_view_mode_desktop, s.bg_rotation_desktop, s.bg_inclination_desktop, s.bg_layback_desktop, s.bg_fov_desktop, s.bg_offset_x_desktop, s.bg_offset_y_desktop, s.bg_offset_z_desktop, s.bg_scale_x_desktop, s.bg_scale_y_desktop, s.bg_scale_z_desktop, s.bg_view_horizontal_offset_desktop, s.bg_view_vertical_offset_desktop, s.bg_window_top_x_offset_desktop, s.bg_window_top_y_offset_desktop, GameData.default.bg_window_top_z_offset_desktop, GameData.default.bg_window_bottom_x_offset_desktop, GameData.default.bg_window_bottom_y_offset_desktop, GameData.default.bg_window_bottom_z_offset_desktop, GameData.default.bg_view_mode_fullscreen⟩, GameData.default.toGDScreens, GameData.default.toGDPhysics, GameData.default.toGDLook, GameData.default.toGDRender, GameData.default.toGDContent⟩
    (f32_rt.gopt (fun v (s : GameData) => { s with bg_window_top_y_offset_desktop := v }) (fun _ _ => trivial) rfl rfl) rfl ?_
  refine .segTo ⟨⟨s.left, s.top, s.right, s.bottom, s.camera_layout_mode, e, b, s.bg_view_mode_desktop, s.bg_rotation_desktop, s.bg_inclination_desktop, s.bg_layback_desktop, s.bg_fov_desktop, s.bg_offset_x_desktop, s.bg_offset_y_desktop, s.bg_offset_z_desktop, s.bg_scale_x_desktop, s.bg_scale_y_desktop, s.bg_scale_z_desktop, s.bg_view_horizontal_offset_desktop, s.bg_view_vertical_offset_desktop, s.bg_window_top_x_offset_desktop, s.bg_window_top_y_offset_desktop, s.bg_window_top_z_offset_desktop, GameData.default.bg_window_bottom_x_offset_desktop, GameData.default.bg_window_bottom_y_offset_desktop, GameData.default.bg_window_bottom_z_offset_desktop, GameData.default.bg_view_mode_fullscreen⟩, GameData.default.toGDScreens, GameData.default.toGDPhysics, GameData.default.toGDLook, GameData.default.toGDRender, GameData.default.toGDContent⟩
    (f32_rt.gopt (fun v (s : GameData) => { s with bg_window_top_z_offset_desktop := v }) (fun _ _ => trivial) rfl rfl) rfl ?_
  refine .segTo ⟨⟨s.left, s.top, s.right, s.bottom, s.camera_layout_mode, e, b, s.bg_view_mode_desktop, s.bg_rotation_desktop, s.bg_inclination_desktop, s.bg_layback_desktop, s.bg_fov_desktop, s.bg_offset_x_desktop, s.bg_offset_y_desktop, s.bg_offset_z_desktop, s.bg_scale_x_desktop, s.bg_scale_y_desktop, s.bg_scale_z_desktop, s.bg_view_horizontal_offset_desktop, s.bg_view_vertical_offset_desktop, s.bg_window_top_x_offset_desktop, s.bg_window_top_y_offset_desktop, s.bg_window_top_z_offset_desktop, s.bg_window_bottom_x_offset_desktop, GameData.default.bg_window_bottom_y_offset_desktop, GameData.default.bg_window_bottom_z_offset_desktop, GameData.default.bg_view_mode_fullscreen⟩, GameData.default.toGDScreens, GameData.default.toGDPhysics, GameData.default.toGDLook, GameData.default.toGDRender, GameData.default.toGDContent⟩
    (f32_rt.gopt (fun v (s : GameData) => { s with bg_window_bottom_x_offset_desktop := v }) (fun _ _ => trivial) rfl rfl) rfl ?_
  refine .segTo ⟨⟨s.left, s.top, s.right, s.bottom, s.camera_layout_mode, e, b, s.bg_view_mode_desktop, s.bg_rotation_desktop, s.bg_inclination_desktop, s.bg_layback_desktop, s.bg_fov_desktop, s.bg_offset_x_desktop, s.bg_offset_y_desktop, s.bg_offset_z_desktop, s.bg_scale_x_desktop, s.bg_scale_y_desktop, s.bg_scale_z_desktop, s.bg_view_horizontal_offset_desktop, s.bg_view_vertical_offset_desktop, s.bg_window_top_x_offset_desktop, s.bg_window_top_y_offset_desktop, s.bg_window_top_z_offset_desktop, s.bg_window_bottom_x_offset_desktop, s.bg_window_bottom_y_offset_desktop, GameData.default.bg_window_bottom_z_offset_desktop, GameData.default.bg_view_mode_fullscreen⟩, GameData.default.toGDScreens, GameData.default.toGDPhysics, GameData.default.toGDLook, GameData.default.toGDRender, GameData.default.toGDContent⟩
    (f32_rt.gopt (fun v (s : GameData) => { s with bg_window_bottom_y_offset_desktop := v }) (fun _ _ => trivial) rfl rfl) rfl ?_
  refine .segTo ⟨⟨s.left, s.top, s.right, s.bottom, s.camera_layout_mode, e, b, s.bg_view_mode_desktop, s.bg_rotation_desktop, s.bg_inclination_desktop, s.bg_layback_desktop, s.bg_fov_desktop, s.bg_offset_x_desktop, s.bg_offset_y_desktop, s.bg_offset_z_desktop, s.bg_scale_x_desktop, s.bg_scale_y_desktop, s.bg_scale_z_desktop, s.bg_view_horizontal_offset_desktop, s.bg_view_vertical_offset_desktop, s.bg_window_top_x_offset_desktop, s.bg_window_top_y_offset_desktop, s.bg_window_top_z_offset_desktop, s.bg_window_bottom_x_offset_desktop, s.bg_window_bottom_y_offset_desktop, s.bg_window_bottom_z_offset_desktop, GameData.default.bg_view_mode_fullscreen⟩, GameData.default.toGDScreens, GameData.default.toGDPhysics, GameData.default.toGDLook, GameData.default.toGDRender, GameData.default.toGDContent⟩
    (f32_rt.gopt (fun v (s : GameData) => { s with bg_window_bottom_z_offset_desktop := v }) (fun _ _ => trivial) rfl rfl) rfl ?_
  refine .segTo ⟨⟨s.left, s.top, s.right, s.bottom, s.camera_layout_mode, e, b, s.bg_view_mode_desktop, s.bg_rotation_desktop, s.bg_inclination_desktop, s.bg_layback_desktop, s.bg_fov_desktop, s.bg_offset_x_desktop, s.bg_offset_y_desktop, s.bg_offset_z_desktop, s.bg_scale_x_desktop, s.bg_scale_y_desktop, s.bg_scale_z_desktop, s.bg_view_horizontal_offset_desktop, s.bg_view_vertical_offset_desktop, s.bg_window_top_x_offset_desktop, s.bg_window_top_y_offset_desktop, s.bg_window_top_z_offset_desktop, s.bg_window_bottom_x_offset_desktop, s.bg_window_bottom_y_offset_desktop, s.bg_window_bottom_z_offset_desktop, s.bg_view_mode_fullscreen⟩, GameData.default.toGDScreens, GameData.default.toGDPhysics, GameData.default.toGDLook, GameData.default.toGDRender, GameData.default.toGDContent⟩
    (ViewLayoutMode.rt.gopt (fun v (s : GameData) => { s with bg_view_mode_fullscreen := v }) (fun _ _ => trivial) rfl rfl) rfl ?_
  exact .done rfl

theorem GameData.readsB {v : UInt32} {s : GameData} (h : s.Fields) :
    GReads v s.opsB
    ⟨s.toGDView, ⟨GameData.default.bg_rotation_fullscreen, GameData.default.bg_inclination_fullscreen, GameData.default.bg_layback_fullscreen, GameData.default.bg_fov_fullscreen, GameData.default.bg_offset_x_fullscreen, GameData.default.bg_offset_y_fullscreen, GameData.default.bg_offset_z_fullscreen, GameData.default.bg_scale_x_fullscreen, GameData.default.bg_scale_y_fullscreen, GameData.default.bg_scale_z_fullscreen, GameData.default.bg_view_horizontal_offset_fullscreen, GameData.default.bg_view_vertical_offset_fullscreen, GameData.default.bg_window_top_x_offset_fullscreen, GameData.default.bg_window_top_y_offset_fullscreen, GameData.default.bg_window_top_z_offset_fullscreen, GameData.default.bg_window_bottom_x_offset_fullscreen, GameData.default.bg_window_bottom_y_offset_fullscreen, GameData.default.bg_window_bottom_z_offset_fullscreen, GameData.default.bg_view_mode_full_single_screen, GameData.default.bg_rotation_full_single_screen, GameData.default.bg_inclination_full_single_screen, GameData.default.bg_layback_full_single_screen, GameData.default.bg_fov_full_single_screen, GameData.default.bg_offset_x_full_single_screen, GameData.default.bg_offset_y_full_single_screen, GameData.default.bg_offset_z_full_single_screen, GameData.default.bg_scale_x_full_single_screen, GameData.default.bg_scale_y_full_single_screen, GameData.default.bg_scale_z_full_single_screen, GameData.default.bg_view_horizontal_offset_full_single_screen, GameData.default.bg_view_vertical_offset_full_single_screen, GameData.default.bg_window_top_x_offset_full_single_screen, GameData.default.bg_window_top_y_offset_full_single_screen, GameData.default.bg_window_top_z_offset_full_single_screen, GameData.default.bg_window_bottom_x_offset_full_single_screen, GameData.default.bg_window_bottom_y_offset_full_single_screen, GameData.default.bg_window_bottom_z_offset_full_single_screen⟩, GameData.default.toGDPhysics, GameData.default.toGDLook, GameData.default.toGDRender, GameData.default.toGDContent⟩
    ⟨s.toGDView, ⟨s.bg_rotation_fullscreen, s.bg_inclination_fullscreen, s.bg_layback_fullscreen, s.bg_fov_fullscreen, s.bg_offset_x_fullscreen, s.bg_offset_y_fullscreen, s.bg_offset_z_fullscreen, s.bg_scale_x_fullscreen, s.bg_scale_y_fullscreen, s.bg_scale_z_fullscreen, s.bg_view_horizontal_offset_fullscreen, s.bg_view_vertical_offset_fullscreen, s.bg_window_top_x_offset_fullscreen, s.bg_window_top_y_offset_fullscreen, s.bg_window_top_z_offset_fullscreen, s.bg_window_bottom_x_offset_fullscreen, s.bg_window_bottom_y_offset_fullscreen, s.bg_window_bottom_z_offset_fullscreen, s.bg_view_mode_full_single_screen, s.bg_rotation_full_single_screen, s.bg_inclination_full_single_screen, s.bg_layback_full_single_screen, s.bg_fov_full_single_screen, s.bg_offset_x_full_single_screen, s.bg_offset_y_full_single_screen, s.bg_offset_z_full_single_screen, s.bg_scale_x_full_single_screen, s.bg_scale_y_full_single_screen, s.bg_scale_z_full_single_screen, s.bg_view_horizontal_offset_full_single_screen, s.bg_view_vertical_offset_full_single_screen, s.bg_window_top_x_offset_full_single_screen, s.bg_window_top_y_offset_full_single_screen, s.bg_window_top_z_offset_full_single_screen, s.bg_window_bottom_x_offset_full_single_screen, s.bg_window_bottom_y_offset_full_single_screen, s.bg_window_bottom_z_offset_full_single_screen⟩, GameData.default.toGDPhysics, GameData.default.toGDLook, GameData.default.toGDRender, GameData.default.toGDContent⟩ := by
  unfold GameData.opsB
  refine .segTo ⟨s.toGDView, ⟨s.bg_rotation_fullscreen, GameData.default.bg_inclination_fullscreen, GameData.default.bg_layback_fullscreen, GameData.default.bg_fov_fullscreen, GameData.default.bg_offset_x_fullscreen, GameData.default.bg_offset_y_fullscreen, GameData.default.bg_offset_z_fullscreen, GameData.default.bg_scale_x_fullscreen, GameData.default.bg_scale_y_fullscreen, GameData.default.bg_scale_z_fullscreen, GameData.default.bg_view_horizontal_offset_fullscreen, GameData.default.bg_view_vertical_offset_fullscreen, GameData.default.bg_window_top_x_offset_fullscreen, GameData.default.bg_window_top_y_offset_fullscreen, GameData.default.bg_window_top_z_offset_fullscreen, GameData.default.bg_window_bottom_x_offset_fullscreen, GameData.default.bg_window_bottom_y_offset_fullscreen, GameData.default.bg_window_bottom_z_offset_fullscreen, GameData.default.bg_view_mode_full_single_screen, GameData.default.bg_rotation_full_single_screen, GameData.default.bg_inclination_full_single_screen, GameData.default.bg_layback_full_single_screen, GameData.default.bg_fov_full_single_screen, GameData.default.bg_offset_x_full_single_screen, GameData.default.bg_offset_y_full_single_screen, GameData.default.bg_offset_z_full_single_screen, GameData.default.bg_scale_x_full_single_screen, GameData.default.bg_scale_y_full_single_screen, GameData.default.bg_scale_z_full_single_screen, GameData.default.bg_view_horizontal_offset_full_single_screen, GameData.default.bg_view_vertical_offset_full_single_screen, GameData.default.bg_window_top_x_offset_full_single_screen, GameData.default.bg_window_top_y_offset_full_single_screen, GameData.default.bg_window_top_z_offset_full_single_screen, GameData.default.bg_window_bottom_x_offset_full_single_screen, GameData.default.bg_window_bottom_y_offset_full_single_screen, GameData.default.bg_window_bottom_z_offset_full_single_screen⟩, GameData.default.toGDPhysics, GameData.default.toGDLook, GameData.default.toGDRender, GameData.default.toGDContent⟩
    (f32_rt.greq (fun v (s : GameData) => { s with bg_rotation_fullscreen := v }) trivial rfl) rfl ?_
  refine .segTo ⟨s.toGDView, ⟨s.bg_rotation_fullscreen, s.bg_inclination_fullscreen, GameData.default.bg_layback_fullscreen, GameData.default.bg_fov_fullscreen, GameData.default.bg_offset_x_fullscreen, GameData.default.bg_offset_y_fullscreen, GameData.default.bg_offset_z_fullscreen, GameData.default.bg_scale_x_fullscreen, GameData.default.bg_scale_y_fullscreen, GameData.default.bg_scale_z_fullscreen, GameData.default.bg_view_horizontal_offset_fullscreen, GameData.default.bg_view_vertical_offset_fullscreen, GameData.default.bg_window_top_x_offset_fullscreen, GameData.default.bg_window_top_y_offset_fullscreen, GameData.default.bg_window_top_z_offset_fullscreen, GameData.default.bg_window_bottom_x_offset_fullscreen, GameData.default.bg_window_bottom_y_offset_fullscreen, GameData.default.bg_window_bottom_z_offset_fullscreen, GameData.default.bg_view_mode_full_single_screen, GameData.default.bg_rotation_full_single_screen, GameData.default.bg_inclination_full_single_screen, GameData.default.bg_layback_full_single_screen, GameData.default.bg_fov_full_single_screen, GameData.default.bg_offset_x_full_single_screen, GameData.default.bg_offset_y_full_single_screen, GameData.default.bg_offset_z_full_single_screen, GameData.default.bg_scale_x_full_single_screen, GameData.default.bg_scale_y_full_single_screen, GameData.default.bg_scale_z_full_single_screen, GameData.default.bg_view_horizontal_offset_full_single_screen, GameData.default.bg_view_vertical_offset_full_single_screen, GameData.default.bg_window_top_x_offset_full_single_screen, GameData.default.bg_window_top_y_offset_full_single_screen, GameData.default.bg_window_top_z_offset_full_single_screen, GameData.default.bg_window_bottom_x_offset_full_single_screen, GameData.default.bg_window_bottom_y_offset_full_single_screen, GameData.default.bg_window_bottom_z_offset_full_single_screen⟩, GameData.default.toGDPhysics, GameData.default.toGDLook, GameData.default.toGDRender, GameData.default.toGDContent⟩
    (f32_rt.greq (fun v (s : GameData) => { s with bg_inclination_fullscreen := v }) trivial rfl) rfl ?_
  refine .segTo ⟨s.toGDView, ⟨s.bg_rotation_fullscreen, s.bg_inclination_fullscreen, s.bg_layback_fullscreen, GameData.default.bg_fov_fullscreen, GameData.default.bg_offset_x_fullscreen, GameData.default.bg_offset_y_fullscreen, GameData.default.bg_offset_z_fullscreen, GameData.default.bg_scale_x_fullscreen, GameData.default.bg_scale_y_fullscreen, GameData.default.bg_scale_z_fullscreen, GameData.default.bg_view_horizontal_offset_fullscreen, GameData.default.bg_view_vertical_offset_fullscreen, GameData.default.bg_window_top_x_offset_fullscreen, GameData.default.bg_window_top_y_offset_fullscreen, GameData.default.bg_window_top_z_offset_fullscreen, GameData.default.bg_window_bottom_x_offset_fullscreen, GameData.default.bg_window_bottom_y_offset_fullscreen, GameData.default.bg_window_bottom_z_offset_fullscreen, GameData.default.bg_view_mode_full_single_screen, GameData.default.bg_rotation_full_single_screen, GameData.default.bg_inclination_full_single_screen, GameData.default.bg_layback_full_single_screen, GameData.default.bg_fov_full_single_screen, GameData.default.bg_offset_x_full_single_screen, GameData.default.bg_offset_y_full_single_screen, GameData.default.bg_offset_z_full_single_screen, GameData.default.bg_scale_x_full_single_screen, GameData.default.bg_scale_y_full_single_screen, GameData.default.bg_scale_z_full_single_screen, GameData.default.bg_view_horizontal_offset_full_single_screen, GameData.default.bg_view_vertical_offset_full_single_screen, GameData.default.bg_window_top_x_offset_full_single_screen, GameData.default.bg_window_top_y_offset_full_single_screen, GameData.default.bg_window_top_z_offset_full_single_screen, GameData.default.bg_window_bottom_x_offset_full_single_screen, GameData.default.bg_window_bottom_y_offset_full_single_screen, GameData.default.bg_window_bottom_z_offset_full_single_screen⟩, GameData.default.toGDPhysics, GameData.default.toGDLook, GameData.default.toGDRender, GameData.default.toGDContent⟩
    (f32_rt.greq (fun v (s : GameData) => { s with bg_layback_fullscreen := v }) trivial rfl) rfl ?_
  refine .segTo ⟨s.toGDView, ⟨s.bg_rotation_fullscreen, s.bg_inclination_fullscreen, s.bg_layback_fullscreen, s.bg_fov_fullscreen, GameData.default.bg_offset_x_fullscreen, GameData.default.bg_offset_y_fullscreen, GameData.default.bg_offset_z_fullscreen, GameData.default.bg_scale_x_fullscreen, GameData.default.bg_scale_y_fullscreen, GameData.default.bg_scale_z_fullscreen, GameData.default.bg_view_horizontal_offset_fullscreen, GameData.default.bg_view_vertical_offset_fullscreen, GameData.default.bg_window_top_x_offset_fullscreen, GameData.default.bg_window_top_y_offset_fullscreen, GameData.default.bg_window_top_z_offset_fullscreen, GameData.default.bg_window_bottom_x_offset_fullscreen, GameData.default.bg_window_bottom_y_offset_fullscreen, GameData.default.bg_window_bottom_z_offset_fullscreen, GameData.default.bg_view_mode_full_single_screen, GameData.default.bg_rotation_full_single_screen, GameData.default.bg_inclination_full_single_screen, GameData.default.bg_layback_full_single_screen, GameData.default.bg_fov_full_single_screen, GameData.default.bg_offset_x_full_single_screen, GameData.default.bg_offset_y_full_single_screen, GameData.default.bg_offset_z_full_single_screen, GameData.default.bg_scale_x_full_single_screen, GameData.default.bg_scale_y_full_single_screen, GameData.default.bg_scale_z_full_single_screen, GameData.default.bg_view_horizontal_offset_full_single_screen, GameData.default.bg_view_vertical_offset_full_single_screen, GameData.default.bg_window_top_x_offset_full_single_screen, GameData.default.bg_window_top_y_offset_full_single_screen, GameData.default.bg_window_top_z_offset_full_single_screen, GameData.default.bg_window_bottom_x_offset_full_single_screen, GameData.default.bg_window_bottom_y_offset_full_single_screen, GameData.default.bg_window_bottom_z_offset_full_single_screen⟩, GameData.default.toGDPhysics, GameData.default.toGDLook, GameData.default.toGDRender, GameData.default.toGDContent⟩
    (f32_rt.greq (fun v (s : GameData) => { s with bg_fov_fullscreen := v }) trivial rfl) rfl ?_
  refine .segTo ⟨s.toGDView, ⟨s.bg_rotation_fullscreen, s.bg_inclination_fullscreen, s.bg_layback_fullscreen, s.bg_fov_fullscreen, s.bg_offset_x_fullscreen, GameData.default.bg_offset_y_fullscreen, GameData.default.bg_offset_z_fullscreen, GameData.default.bg_scale_x_fullscreen, GameData.default.bg_scale_y_fullscreen, GameData.default.bg_scale_z_fullscreen, GameData.default.bg_view_horizontal_offset_fullscreen, GameData.default.bg_view_vertical_offset_fullscreen, GameData.default.bg_window_top_x_offset_fullscreen, GameData.default.bg_window_top_y_offset_fullscreen, GameData.default.bg_window_top_z_offset_fullscreen, GameData.default.bg_window_bottom_x_offset_fullscreen, GameData.default.bg_window_bottom_y_offset_fullscreen, GameData.default.bg_window_bottom_z_offset_fullscreen, GameData.default.bg_view_mode_full_single_screen, GameData.default.bg_rotation_full_single_screen, GameData.default.bg_inclination_full_single_screen, GameData.default.bg_layback_full_single_screen, GameData.default.bg_fov_full_single_screen, GameData.default.bg_offset_x_full_single_screen, GameData.default.bg_offset_y_full_single_screen, GameData.default.bg_offset_z_full_single_screen, GameData.default.bg_scale_x_full_single_screen, GameData.default.bg_scale_y_full_single_screen, GameData.default.bg_scale_z_full_single_screen, GameData.default.bg_view_horizontal_offset_full_single_screen, GameData.default.bg_view_vertical_offset_full_single_screen, GameData.default.bg_window_top_x_offset_full_single_screen, GameData.default.bg_window_top_y_offset_full_single_screen, GameData.default.bg_window_top_z_offset_full_single_screen, GameData.default.bg_window_bottom_x_offset_full_single_screen, GameData.default.bg_window_bottom_y_offset_full_single_screen, GameData.default.bg_window_bottom_z_offset_full_single_screen⟩, GameData.default.toGDPhysics, GameData.default.toGDLook, GameData.default.toGDRender, GameData.default.toGDContent⟩
    (f32_rt.greq (fun v (s : GameData) => { s with bg_offset_x_fullscreen := v }) trivial rfl) rfl ?_
  refine .segTo ⟨s.toGDView, ⟨s.bg_rotation_fullscreen, s.bg_inclination_fullscreen, s.bg_layback_fullscreen, s.bg_fov_fullscreen, s.bg_offset_x_fullscreen, s.bg_offset_y_fullscreen, GameData.default.bg_offset_z_fullscreen, GameData.default.bg_scale_x_fullscreen, GameData.default.bg_scale_y_fullscreen, GameData.default.bg_scale_z_fullscreen, GameData.default.bg_view_horizontal_offset_fullscreen, GameData.default.bg_view_vertical_offset_fullscreen, GameData.default.bg_window_top_x_offset_fullscreen, GameData.default.bg_window_top_y_offset_fullscreen, GameData.default.bg_window_top_z_offset_fullscreen, GameData.default.bg_window_bottom_x_offset_fullscreen, GameData.default.bg_window_bottom_y_offset_fullscreen, GameData.default.bg_window_bottom_z_offset_fullscreen, GameData.default.bg_view_mode_full_single_screen, GameData.default.bg_rotation_full_single_screen, GameData.default.bg_inclination_full_single_screen, GameData.default.bg_layback_full_single_screen, GameData.default.bg_fov_full_single_screen, GameData.default.bg_offset_x_full_single_screen, GameData.default.bg_offset_y_full_single_screen, GameData.default.bg_offset_z_full_single_screen, GameData.default.bg_scale_x_full_single_screen, GameData.default.bg_scale_y_full_single_screen, GameData.default.bg_scale_z_full_single_screen, GameData.default.bg_view_horizontal_offset_full_single_screen, GameData.default.bg_view_vertical_offset_full_single_screen, GameData.default.bg_window_top_x_offset_full_single_screen, GameData.default.bg_window_top_y_offset_full_single_screen, GameData.default.bg_window_top_z_offset_full_single_screen, GameData.default.bg_window_bottom_x_offset_full_single_screen, GameData.default.bg_window_bottom_y_offset_full_single_screen, GameData.default.bg_window_bottom_z_offset_full_single_screen⟩, GameData.default.toGDPhysics, GameData.default.toGDLook, GameData.default.toGDRender, GameData.default.toGDContent⟩
    (f32_rt.greq (fun v (s : GameData) => { s with bg_offset_y_fullscreen := v }) trivial rfl) rfl ?_
  refine .segTo ⟨s.toGDView, ⟨s.bg_rotation_fullscreen, s.bg_inclination_fullscreen, s.bg_layback_fullscreen, s.bg_fov_fullscreen, s.bg_offset_x_fullscreen, s.bg_offset_y_fullscreen, s.bg_offset_z_fullscreen, GameData.default.bg_scale_x_fullscreen, GameData.default.bg_scale_y_fullscreen, GameData.default.bg_scale_z_fullscreen, GameData.default.bg_view_horizontal_offset_fullscreen, GameData.default.bg_view_vertical_offset_fullscreen, GameData.default.bg_window_top_x_offset_fullscreen, GameData.default.bg_window_top_y_offset_fullscreen, GameData.default.bg_window_top_z_offset_fullscreen, GameData.default.bg_window_bottom_x_offset_fullscreen, GameData.default.bg_window_bottom_y_offset_fullscreen, GameData.default.bg_window_bottom_z_offset_fullscreen, GameData.default.bg_view_mode_full_single_screen, GameData.default.bg_rotation_full_single_screen, GameData.default.bg_inclination_full_single_screen, GameData.default.bg_layback_full_single_screen, GameData.default.bg_fov_full_single_screen, GameData.default.bg_offset_x_full_single_screen, GameData.default.bg_offset_y_full_single_screen, GameData.default.bg_offset_z_full_single_screen, GameData.default.bg_scale_x_full_single_screen, GameData.default.bg_scale_y_full_single_screen, GameData.default.bg_scale_z_full_single_screen, GameData.default.bg_view_horizontal_offset_full_single_screen, GameData.default.bg_view_vertical_offset_full_single_screen, GameData.default.bg_window_top_x_offset_full_single_screen, GameData.default.bg_window_top_y_offset_full_single_screen, GameData.default.bg_window_top_z_offset_full_single_screen, GameData.default.bg_window_bottom_x_offset_full_single_screen, GameData.default.bg_window_bottom_y_offset_full_single_screen, GameData.default.bg_window_bottom_z_offset_full_single_screen⟩, GameData.default.toGDPhysics, GameData.default.toGDLook, GameData.default.toGDRender, GameData.default.toGDContent⟩
    (f32_rt.greq (fun v (s : GameData) => { s with bg_offset_z_fullscreen := v }) trivial rfl) rfl ?_
  refine .segTo ⟨s.toGDView, ⟨s.bg_rotation_fullscreen, s.bg_inclination_fullscreen, s.bg_layback_fullscreen, s.bg_fov_fullscreen, s.bg_offset_x_fullscreen, s.bg_offset_y_fullscreen, s.bg_offset_z_fullscreen, s.bg_scale_x_fullscreen, GameData.default.bg_scale_y_fullscreen, GameData.default.bg_scale_z_fullscreen, GameData.default.bg_view_horizontal_offset_fullscreen, GameData.default.bg_view_vertical_offset_fullscreen, GameData.default.bg_window_top_x_offset_fullscreen, GameData.default.bg_window_top_y_offset_fullscreen, GameData.default.bg_window_top_z_offset_fullscreen, GameData.default.bg_window_bottom_x_offset_fullscreen, GameData.default.bg_window_bottom_y_offset_fullscreen, GameData.default.bg_window_bottom_z_offset_fullscreen, GameData.default.bg_view_mode_full_single_screen, GameData.default.bg_rotation_full_single_screen, GameData.default.bg_inclination_full_single_screen, GameData.default.bg_layback_full_single_screen, GameData.default.bg_fov_full_single_screen, GameData.default.bg_offset_x_full_single_screen, GameData.default.bg_offset_y_full_single_screen, GameData.default.bg_offset_z_full_single_screen, GameData.default.bg_scale_x_full_single_screen, GameData.default.bg_scale_y_full_single_screen, GameData.default.bg_scale_z_full_single_screen, GameData.default.bg_view_horizontal_offset_full_single_screen, GameData.default.bg_view_vertical_offset_full_single_screen, GameData.default.bg_window_top_x_offset_full_single_screen, GameData.default.bg_window_top_y_offset_full_single_screen, GameData.default.bg_window_top_z_offset_full_single_screen, GameData.default.bg_window_bottom_x_offset_full_single_screen, GameData.default.bg_window_bottom_y_offset_full_single_screen, GameData.default.bg_window_bottom_z_offset_full_single_screen⟩, GameData.default.toGDPhysics, GameData.default.toGDLook, GameData.default.toGDRender, GameData.default.toGDContent⟩
    (f32_rt.greq (fun v (s : GameData) => { s with bg_scale_x_fullscreen := v }) trivial rfl) rfl ?_
  refine .segTo ⟨s.toGDView, ⟨s.bg_rotation_fullscreen, s.bg_inclination_fullscreen, s.bg_layback_fullscreen, s.bg_fov_fullscreen, s.bg_offset_x_fullscreen, s.bg_offset_y_fullscreen, s.bg_offset_z_fullscreen, s.bg_scale_x_fullscreen, s.bg_scale_y_fullscreen, GameData.default.bg_scale_z_fullscreen, GameData.default.bg_view_horizontal_offset_fullscreen, GameData.default.bg_view_vertical_offset_fullscreen, GameData.default.bg_window_top_x_offset_fullscreen, GameData.default.bg_window_top_y_offset_fullscreen, GameData.default.bg_window_top_z_offset_fullscreen, GameData.default.bg_window_bottom_x_offset_fullscreen, GameData.default.bg_window_bottom_y_offset_fullscreen, GameData.default.bg_window_bottom_z_offset_fullscreen, GameData.default.bg_view_mode_full_single_screen, GameData.default.bg_rotation_full_single_screen, GameData.default.bg_inclination_full_single_screen, GameData.default.bg_layback_full_single_screen, GameData.default.bg_fov_full_single_screen, GameData.default.bg_offset_x_full_single_screen, GameData.default.bg_offset_y_full_single_screen, GameData.default.bg_offset_z_full_single_screen, GameData.default.bg_scale_x_full_single_screen, GameData.default.bg_scale_y_full_single_screen, GameData.default.bg_scale_z_full_single_screen, GameData.default.bg_view_horizontal_offset_full_single_screen, GameData.default.bg_view_vertical_offset_full_single_screen, GameData.default.bg_window_top_x_offset_full_single_screen, GameData.default.bg_window_top_y_offset_full_single_screen, GameData.default.bg_window_top_z_offset_full_single_screen, GameData.default.bg_window_bottom_x_offset_full_single_screen, GameData.default.bg_window_bottom_y_offset_full_single_screen, GameData.default.bg_window_bottom_z_offset_full_single_screen⟩, GameData.default.toGDPhysics, GameData.default.toGDLook, GameData.default.toGDRender, GameData.default.toGDContent⟩
    (f32_rt.greq (fun v (s : GameData) => { s with bg_scale_y_fullscreen := v }) trivial rfl) rfl ?_
  refine .segTo ⟨s.toGDView, ⟨s.bg_rotation_fullscreen, s.bg_inclination_fullscreen, s.bg_layback_fullscreen, s.bg_fov_fullscreen, s.bg_offset_x_fullscreen, s.bg_offset_y_fullscreen, s.bg_offset_z_fullscreen, s.bg_scale_x_fullscreen, s.bg_scale_y_fullscreen, s.bg_scale_z_fullscreen, GameData.default.bg_view_horizontal_offset_fullscreen, GameData.default.bg_view_vertical_offset_fullscreen, GameData.default.bg_window_top_x_offset_fullscreen, GameData.default.bg_window_top_y_offset_fullscreen, GameData.default.bg_window_top_z_offset_fullscreen, GameData.default.bg_window_bottom_x_offset_fullscreen, GameData.default.bg_window_bottom_y_offset_fullscreen, GameData.default.bg_window_bottom_z_offset_fullscreen, GameData.default.bg_view_mode_full_single_screen, GameData.default.bg_rotation_full_single_screen, GameData.default.bg_inclination_full_single_screen, GameData.default.bg_layback_full_single_screen, GameData.default.bg_fov_full_single_screen, GameData.default.bg_offset_x_full_single_screen, GameData.default.bg_offset_y_full_single_screen, GameData.default.bg_offset_z_full_single_screen, GameData.default.bg_scale_x_full_single_screen, GameData.default.bg_scale_y_full_single_screen, GameData.default.bg_scale_z_full_single_screen, GameData.default.bg_view_horizontal_offset_full_single_screen, GameData.default.bg_view_vertical_offset_full_single_screen, GameData.default.bg_window_top_x_offset_full_single_screen, GameData.default.bg_window_top_y_offset_full_single_screen, GameData.default.bg_window_top_z_offset_full_single_screen, GameData.default.bg_window_bottom_x_offset_full_single_screen, GameData.default.bg_window_bottom_y_offset_full_single_screen, GameData.default.bg_window_bottom_z_offset_full_single_screen⟩, GameData.default.toGDPhysics, GameData.default.toGDLook, GameData.default.toGDRender, GameData.default.toGDContent⟩
    (f32_rt.greq (fun v (s : GameData) => { s with bg_scale_z_fullscreen := v }) trivial rfl) rfl ?_
  refine .segTo ⟨s.toGDView, ⟨s.bg_rotation_fullscreen, s.bg_inclination_fullscreen, s.bg_layback_fullscreen, s.bg_fov_fullscreen, s.bg_offset_x_fullscreen, s.bg_offset_y_fullscreen, s.bg_offset_z_fullscreen, s.bg_scale_x_fullscreen, s.bg_scale_y_fullscreen, s.bg_scale_z_fullscreen, s.bg_view_horizontal_offset_fullscreen, GameData.default.bg_view_vertical_offset_fullscreen, GameData.default.bg_window_top_x_offset_fullscreen, GameData.default.bg_window_top_y_offset_fullscreen, GameData.default.bg_window_top_z_offset_fullscreen, GameData.default.bg_window_bottom_x_offset_fullscreen, GameData.default.bg_window_bottom_y_offset_fullscreen, GameData.default.bg_window_bottom_z_offset_fullscreen, GameData.default.bg_view_mode_full_single_screen, GameData.default.bg_rotation_full_single_screen, GameData.default.bg_inclination_full_single_screen, GameData.default.bg_layback_full_single_screen, GameData.default.bg_fov_full_single_screen, GameData.default.bg_offset_x_full_single_screen, GameData.default.bg_offset_y_full_single_screen, GameData.default.bg_offset_z_full_single_screen, GameData.default.bg_scale_x_full_single_screen, GameData.default.bg_scale_y_full_single_screen, GameData.default.bg_scale_z_full_single_screen, GameData.default.bg_view_horizontal_offset_full_single_screen, GameData.default.bg_view_vertical_offset_full_single_screen, GameData.default.bg_window_top_x_offset_full_single_screen, GameData.default.bg_window_top_y_offset_full_single_screen, GameData.default.bg_window_top_z_offset_full_single_screen, GameData.default.bg_window_bottom_x_offset_full_single_screen, GameData.default.bg_window_bottom_y_offset_full_single_screen, GameData.default.bg_window_bottom_z_offset_full_single_screen⟩, GameData.default.toGDPhysics, GameData.default.toGDLook, GameData.default.toGDRender, GameData.default.toGDContent⟩
    (f32_rt.gopt (fun v (s : GameData) => { s with bg_view_horizontal_offset_fullscreen := v }) (fun _ _ => trivial) rfl rfl) rfl ?_
  refine .segTo ⟨s.toGDView, ⟨s.bg_rotation_fullscreen, s.bg_inclination_fullscreen, s.bg_layback_fullscreen, s.bg_fov_fullscreen, s.bg_offset_x_fullscreen, s.bg_offset_y_fullscreen, s.bg_offset_z_fullscreen, s.bg_scale_x_fullscreen, s.bg_scale_y_fullscreen, s.bg_scale_z_fullscreen, s.bg_view_horizontal_offset_fullscreen, s.bg_view_vertical_offset_fullscreen, GameData.default.bg_window_top_x_offset_fullscreen, GameData.default.bg_window_top_y_offset_fullscreen, GameData.default.bg_window_top_z_offset_fullscreen, GameData.default.bg_window_bottom_x_offset_fullscreen, GameData.default.bg_window_bottom_y_offset_fullscreen, GameData.default.bg_window_bottom_z_offset_fullscreen, GameData.default.bg_view_mode_full_single_screen, GameData.default.bg_rotation_full_single_screen, GameData.default.bg_inclination_full_single_screen, GameData.default.bg_layback_full_single_screen, GameData.default.bg_fov_full_single_screen, GameData.default.bg_offset_x_full_single_screen, GameData.default.bg_offset_y_full_single_screen, GameData.default.bg_offset_z_full_single_screen, GameData.default.bg_scale_x_full_single_screen, GameData.default.bg_scale_y_full_single_screen, GameData.default.bg_scale_z_full_single_screen, GameData.default.bg_view_horizontal_offset_full_single_screen, GameData.default.bg_view_vertical_offset_full_single_screen, GameData.default.bg_window_top_x_offset_full_single_screen, GameData.default.bg_window_top_y_offset_full_single_screen, GameData.default.bg_window_top_z_offset_full_single_screen, GameData.default.bg_window_bottom_x_offset_full_single_screen, GameData.default.bg_window_bottom_y_offset_full_single_screen, GameData.default.bg_window_bottom_z_offset_full_single_screen⟩, GameData.default.toGDPhysics, GameData.default.toGDLook, GameData.default.toGDRender, GameData.default.toGDContent⟩
    (f32_rt.gopt (fun v (s : GameData) => { s with bg_view_vertical_offset_fullscreen := v }) (fun _ _ => trivial) rfl rfl) rfl ?_
  refine .segTo ⟨s.toGDView, ⟨s.bg_rotation_fullscreen, s.bg_inclination_fullscreen, s.bg_layback_fullscreen, s.bg_fov_fullscreen, s.bg_offset_x_fullscreen, s.bg_offset_y_fullscreen, s.bg_offset_z_fullscreen, s.bg_scale_x_fullscreen, s.bg_scale_y_fullscreen, s.bg_scale_z_fullscreen, s.bg_view_horizontal_offset_fullscreen, s.bg_view_vertical_offset_fullscreen, s.bg_window_top_x_offset_fullscreen, GameData.default.bg_window_top_y_offset_fullscreen, GameData.default.bg_window_top_z_offset_fullscreen, GameData.default.bg_window_bottom_x_offset_fullscreen, GameData.default.bg_window_bottom_y_offset_fullscreen, GameData.default.bg_window_bottom_z_offset_fullscreen, GameData.default.bg_view_mode_full_single_screen, GameData.default.bg_rotation_full_single_screen, GameData.default.bg_inclination_full_single_screen, GameData.default.bg_layback_full_single_screen, GameData.default.bg_fov_full_single_screen, GameData.default.bg_offset_x_full_single_screen, GameData.default.bg_offset_y_full_single_screen, GameData.default.bg_offset_z_full_single_screen, GameData.default.bg_scale_x_full_single_screen, GameData.default.bg_scale_y_full_single_screen, GameData.default.bg_scale_z_full_single_screen, GameData.default.bg_view_horizontal_offset_full_single_screen, GameData.default.bg_view_vertical_offset_full_single_screen, GameData.default.bg_window_top_x_offset_full_single_screen, GameData.default.bg_window_top_y_offset_full_single_screen, GameData.default.bg_window_top_z_offset_full_single_screen, GameData.default.bg_window_bottom_x_offset_full_single_screen, GameData.default.bg_window_bottom_y_offset_full_single_screen, GameData.default.bg_window_bottom_z_offset_full_single_screen⟩, GameData.default.toGDPhysics, GameData.default.toGDLook, GameData.default.toGDRender, GameData.default.toGDContent⟩
    (f32_rt.gopt (fun v (s : GameData) => { s with bg_window_top_x_offset_fullscreen := v }) (fun _ _ => trivial) rfl rfl) rfl ?_
  refine .segTo ⟨s.toGDView, ⟨s.bg_rotation_fullscreen, s.bg_inclination_fullscreen, s.bg_layback_fullscreen, s.bg_fov_fullscreen, s.bg_offset_x_fullscreen, s.bg_offset_y_fullscreen, s.bg_offset_z_fullscreen, s.bg_scale_x_fullscreen, s.bg_scale_y_fullscreen, s.bg_scale_z_fullscreen, s.bg_view_horizontal_offset_fullscreen, s.bg_view_vertical_offset_fullscreen, s.bg_window_top_x_offset_fullscreen, s.bg_window_top_y_offset_fullscreen, GameData.default.bg_window_top_z_offset_fullscreen, GameData.default.bg_window_bottom_x_offset_fullscreen, GameData.default.bg_window_bottom_y_offset_fullscreen, GameData.default.bg_window_bottom_z_offset_fullscreen, GameData.default.bg_view_mode_full_single_screen, GameData.default.bg_rotation_full_single_screen, GameData.default.bg_inclination_full_single_screen, GameData.default.bg_layback_full_single_screen, GameData.default.bg_fov_full_single_screen, GameData.default.bg_offset_x_full_single_screen, GameData.default.bg_offset_y_full_single_screen, GameData.default.bg_offset_z_full_single_screen, GameData.default.bg_scale_x_full_single_screen, GameData.default.bg_scale_y_full_single_screen, GameData.default.bg_scale_z_full_single_screen, GameData.default.bg_view_horizontal_offset_full_single_screen, GameData.default.bg_view_vertical_offset_full_single_screen, GameData.default.bg_window_top_x_offset_full_single_screen, GameData.default.bg_window_top_y_offset_full_single_screen, GameData.default.bg_window_top_z_offset_full_single_screen, GameData.default.bg_window_bottom_x_offset_full_single_screen, GameData.default.bg_window_bottom_y_offset_full_single_screen, GameData.default.bg_window_bottom_z_offset_full_single_screen⟩, GameData.default.toGDPhysics, GameData.default.toGDLook, GameData.default.toGDRender, GameData.default.toGDContent⟩
    (f32_rt.gopt (fun v (s : GameData) => { s with bg_window_top_y_offset_fullscreen := v }) (fun _ _ => trivial) rfl rfl) rfl ?_
  refine .segTo ⟨s.toGDView, ⟨s.bg_rotation_fullscreen, s.bg_inclination_fullscreen, s.bg_layback_fullscreen, s.bg_fov_fullscreen, s.bg_offset_x_fullscreen, s.bg_offset_y_fullscreen, s.bg_offset_z_fullscreen, s.bg_scale_x_fullscreen, s.bg_scale_y_fullscreen, s.bg_scale_z_fullscreen, s.bg_view_horizontal_offset_fullscreen, s.bg_view_vertical_offset_fullscreen, s.bg_window_top_x_offset_fullscreen, s.bg_window_top_y_offset_fullscreen, s.bg_window_top_z_offset_fullscreen, GameData.default.bg_window_bottom_x_offset_fullscreen, GameData.default.bg_window_bottom_y_offset_fullscreen, GameData.default.bg_window_bottom_z_offset_fullscreen, GameData.default.bg_view_mode_full_single_screen, GameData.default.bg_rotation_full_single_screen, GameData.default.bg_inclination_full_single_screen, GameData.default.bg_layback_full_single_screen, GameData.default.bg_fov_full_single_screen, GameData.default.bg_offset_x_full_single_screen, GameData.default.bg_offset_y_full_single_screen, GameData.default.bg_offset_z_full_single_screen, GameData.default.bg_scale_x_full_single_screen, GameData.default.bg_scale_y_full_single_screen, GameData.default.bg_scale_z_full_single_screen, GameData.default.bg_view_horizontal_offset_full_single_screen, GameData.default.bg_view_vertical_offset_full_single_screen, GameData.default.bg_window_top_x_offset_full_single_screen, GameData.default.bg_window_top_y_offset_full_single_screen, GameData.default.bg_window_top_z_offset_full_single_screen, GameData.default.bg_window_bottom_x_offset_full_single_screen, GameData.default.bg_window_bottom_y_offset_full_single_screen, GameData.default.bg_window_bottom_z_offset_full_single_screen⟩, GameData.default.toGDPhysics, GameData.default.toGDLook, GameData.default.toGDRender, GameData.default.toGDContent⟩
    (f32_rt.gopt (fun v (s : GameData) => { s with bg_window_top_z_offset_fullscreen := v }) (fun _ _ => trivial) rfl rfl) rfl ?_
  refine .segTo ⟨s.toGDView, ⟨s.bg_rotation_fullscreen, s.bg_inclination_fullscreen, s.bg_layback_fullscreen, s.bg_fov_fullscreen, s.bg_offset_x_fullscreen, s.bg_offset_y_fullscreen, s.bg_offset_z_fullscreen, s.bg_scale_x_fullscreen, s.bg_scale_y_fullscreen, s.bg_scale_z_fullscreen, s.bg_view_horizontal_offset_fullscreen, s.bg_view_vertical_offset_fullscreen, s.bg_window_top_x_offset_fullscreen, s.bg_window_top_y_offset_fullscreen, s.bg_window_top_z_offset_fullscreen, s.bg_window_bottom_x_offset_fullscreen, GameData.default.bg_window_bottom_y_offset_fullscreen, GameData.default.bg_window_bottom_z_offset_fullscreen, GameData.default.bg_view_mode_full_single_screen, GameData.default.bg_rotation_full_single_screen, GameData.default.bg_inclination_full_single_screen, GameData.default.bg_layback_full_single_screen, GameData.default.bg_fov_full_single_screen, GameData.default.bg_offset_x_full_single_screen, GameData.default.bg_offset_y_full_single_screen, GameData.default.bg_offset_z_full_single_screen, GameData.default.bg_scale_x_full_single_screen, GameData.default.bg_scale_y_full_single_screen, GameData.default.bg_scale_z_full_single_screen, GameData.default.bg_view_horizontal_offset_full_single_screen, GameData.default.bg_view_vertical_offset_full_single_screen, GameData.default.bg_window_top_x_offset_full_single_screen, GameData.default.bg_window_top_y_offset_full_single_screen, GameData.default.bg_window_top_z_offset_full_single_screen, GameData.default.bg_window_bottom_x_offset_full_single_screen, GameData.default.bg_window_bottom_y_offset_full_single_screen, GameData.default.bg_window_bottom_z_offset_full_single_screen⟩, GameData.default.toGDPhysics, GameData.default.toGDLook, GameData.default.toGDRender, GameData.default.toGDContent⟩
    (f32_rt.gopt (fun v (s : GameData) => { s with bg_window_bottom_x_offset_fullscreen := v }) (fun _ _ => trivial) rfl rfl) rfl ?_
  refine .segTo ⟨s.toGDView, ⟨s.bg_rotation_fullscreen, s.bg_inclination_fullscreen, s.bg_layback_fullscreen, s.bg_fov_fullscreen, s.bg_offset_x_fullscreen, s.bg_offset_y_fullscreen, s.bg_offset_z_fullscreen, s.bg_scale_x_fullscreen, s.bg_scale_y_fullscreen, s.bg_scale_z_fullscreen, s.bg_view_horizontal_offset_fullscreen, s.bg_view_vertical_offset_fullscreen, s.bg_window_top_x_offset_fullscreen, s.bg_window_top_y_offset_fullscreen, s.bg_window_top_z_offset_fullscreen, s.bg_window_bottom_x_offset_fullscreen, s.bg_window_bottom_y_offset_fullscreen, GameData.default.bg_window_bottom_z_offset_fullscreen, GameData.default.bg_view_mode_full_single_screen, GameData.default.bg_rotation_full_single_screen, GameData.default.bg_inclination_full_single_screen, GameData.default.bg_layback_full_single_screen, GameData.default.bg_fov_full_single_screen, GameData.default.bg_offset_x_full_single_screen, GameData.default.bg_offset_y_full_single_screen, GameData.default.bg_offset_z_full_single_screen, GameData.default.bg_scale_x_full_single_screen, GameData.default.bg_scale_y_full_single_screen, GameData.default.bg_scale_z_full_single_screen, GameData.default.bg_view_horizontal_offset_full_single_screen, GameData.default.bg_view_vertical_offset_full_single_screen, GameData.default.bg_window_top_x_offset_full_single_screen, GameData.default.bg_window_top_y_offset_full_single_screen, GameData.default.bg_window_top_z_offset_full_single_screen, GameData.default.bg_window_bottom_x_offset_full_single_screen, GameData.default.bg_window_bottom_y_offset_full_single_screen, GameData.default.bg_window_bottom_z_offset_full_single_screen⟩, GameData.default.toGDPhysics, GameData.default.toGDLook, GameData.default.toGDRender, GameData.default.toGDContent⟩
    (f32_rt.gopt (fun v (s : GameData) => { s with bg_window_bottom_y_offset_fullscreen := v }) (fun _ _ => trivial) rfl rfl) rfl ?_
  refine .segTo ⟨s.toGDView, ⟨s.bg_rotation_fullscreen, s.bg_inclination_fullscreen, s.bg_layback_fullscreen, s.bg_fov_fullscreen, s.bg_offset_x_fullscreen, s.bg_offset_y_fullscreen, s.bg_offset_z_fullscreen, s.bg_scale_x_fullscreen, s.bg_scale_y_fullscreen, s.bg_scale_z_fullscreen, s.bg_view_horizontal_offset_fullscreen, s.bg_view_vertical_offset_fullscreen, s.bg_window_top_x_offset_fullscreen, s.bg_window_top_y_offset_fullscreen, s.bg_window_top_z_offset_fullscreen, s.bg_window_bottom_x_offset_fullscreen, s.bg_window_bottom_y_offset_fullscreen, s.bg_window_bottom_z_offset_fullscreen, GameData.default.bg_view_mode_full_single_screen, GameData.default.bg_rotation_full_single_screen, GameData.default.bg_inclination_full_single_screen, GameData.default.bg_layback_full_single_screen, GameData.default.bg_fov_full_single_screen, GameData.default.bg_offset_x_full_single_screen, GameData.default.bg_offset_y_full_single_screen, GameData.default.bg_offset_z_full_single_screen, GameData.default.bg_scale_x_full_single_screen, GameData.default.bg_scale_y_full_single_screen, GameData.default.bg_scale_z_full_single_screen, GameData.default.bg_view_horizontal_offset_full_single_screen, GameData.default.bg_view_vertical_offset_full_single_screen, GameData.default.bg_window_top_x_offset_full_single_screen, GameData.default.bg_window_top_y_offset_full_single_screen, GameData.default.bg_window_top_z_offset_full_single_screen, GameData.default.bg_window_bottom_x_offset_full_single_screen, GameData.default.bg_window_bottom_y_offset_full_single_screen, GameData.default.bg_window_bottom_z_offset_full_single_screen⟩, GameData.default.toGDPhysics, GameData.default.toGDLook, GameData.default.toGDRender, GameData.default.toGDContent⟩
    (f32_rt.gopt (fun v (s : GameData) => { s with bg_window_bottom_z_offset_fullscreen := v }) (fun _ _ => trivial) rfl rfl) rfl ?_
  refine .segTo ⟨s.toGDView, ⟨s.bg_rotation_fullscreen, s.bg_inclination_fullscreen, s.bg_layback_fullscreen, s.bg_fov_fullscreen, s.bg_offset_x_fullscreen, s.bg_offset_y_fullscreen, s.bg_offset_z_fullscreen, s.bg_scale_x_fullscreen, s.bg_scale_y_fullscreen, s.bg_scale_z_fullscreen, s.bg_view_horizontal_offset_fullscreen, s.bg_view_vertical_offset_fullscreen, s.bg_window_top_x_offset_fullscreen, s.bg_window_top_y_offset_fullscreen, s.bg_window_top_z_offset_fullscreen, s.bg_window_bottom_x_offset_fullscreen, s.bg_window_bottom_y_offset_fullscreen, s.bg_window_bottom_z_offset_fullscreen, s.bg_view_mode_full_single_screen, GameData.default.bg_rotation_full_single_screen, GameData.default.bg_inclination_full_single_screen, GameData.default.bg_layback_full_single_screen, GameData.default.bg_fov_full_single_screen, GameData.default.bg_offset_x_full_single_screen, GameData.default.bg_offset_y_full_single_screen, GameData.default.bg_offset_z_full_single_screen, GameData.default.bg_scale_x_full_single_screen, GameData.default.bg_scale_y_full_single_screen, GameData.default.bg_scale_z_full_single_screen, GameData.default.bg_view_horizontal_offset_full_single_screen, GameData.default.bg_view_vertical_offset_full_single_screen, GameData.default.bg_window_top_x_offset_full_single_screen, GameData.default.bg_window_top_y_offset_full_single_screen, GameData.default.bg_window_top_z_offset_full_single_screen, GameData.default.bg_window_bottom_x_offset_full_single_screen, GameData.default.bg_window_bottom_y_offset_full_single_screen, GameData.default.bg_window_bottom_z_offset_full_single_screen⟩, GameData.default.toGDPhysics, GameData.default.toGDLook, GameData.default.toGDRender, GameData.default.toGDContent⟩
    (ViewLayoutMode.rt.gopt (fun v (s : GameData) => { s with bg_view_mode_full_single_screen := v }) (fun _ _ => trivial) rfl rfl) rfl ?_
  refine .segTo ⟨s.toGDView, ⟨s.bg_rotation_fullscreen, s.bg_inclination_fullscreen, s.bg_layback_fullscreen, s.bg_fov_fullscreen, s.bg_offset_x_fullscreen, s.bg_offset_y_fullscreen, s.bg_offset_z_fullscreen, s.bg_scale_x_fullscreen, s.bg_scale_y_fullscreen, s.bg_scale_z_fullscreen, s.bg_view_horizontal_offset_fullscreen, s.bg_view_vertical_offset_fullscreen, s.bg_window_top_x_offset_fullscreen, s.bg_window_top_y_offset_fullscreen, s.bg_window_top_z_offset_fullscreen, s.bg_window_bottom_x_offset_fullscreen, s.bg_window_bottom_y_offset_fullscreen, s.bg_window_bottom_z_offset_fullscreen, s.bg_view_mode_full_single_screen, s.bg_rotation_full_single_screen, GameData.default.bg_inclination_full_single_screen, GameData.default.bg_layback_full_single_screen, GameData.default.bg_fov_full_single_screen, GameData.default.bg_offset_x_full_single_screen, GameData.default.bg_offset_y_full_single_screen, GameData.default.bg_offset_z_full_single_screen, GameData.default.bg_scale_x_full_single_screen, GameData.default.bg_scale_y_full_single_screen, GameData.default.bg_scale_z_full_single_screen, GameData.default.bg_view_horizontal_offset_full_single_screen, GameData.default.bg_view_vertical_offset_full_single_screen, GameData.default.bg_window_top_x_offset_full_single_screen, GameData.default.bg_window_top_y_offset_full_single_screen, GameData.default.bg_window_top_z_offset_full_single_screen, GameData.default.bg_window_bottom_x_offset_full_single_screen, GameData.default.bg_window_bottom_y_offset_full_single_screen, GameData.default.bg_window_bottom_z_offset_full_single_screen⟩, GameData.default.toGDPhysics, GameData.default.toGDLook, GameData.default.toGDRender, GameData.default.toGDContent⟩
    (f32_rt.gopt (fun v (s : GameData) => { s with bg_rotation_full_single_screen := v }) (fun _ _ => trivial) rfl rfl) rfl ?_
  refine .segTo ⟨s.toGDView, ⟨s.bg_rotation_fullscreen, s.bg_inclination_fullscreen, s.bg_layback_fullscreen, s.bg_fov_fullscreen, s.bg_offset_x_fullscreen, s.bg_offset_y_fullscreen, s.bg_offset_z_fullscreen, s.bg_scale_x_fullscreen, s.bg_scale_y_fullscreen, s.bg_scale_z_fullscreen, s.bg_view_horizontal_offset_fullscreen, s.bg_view_vertical_offset_fullscreen, s.bg_window_top_x_offset_fullscreen, s.bg_window_top_y_offset_fullscreen, s.bg_window_top_z_offset_fullscreen, s.bg_window_bottom_x_offset_fullscreen, s.bg_window_bottom_y_offset_fullscreen, s.bg_window_bottom_z_offset_fullscreen, s.bg_view_mode_full_single_screen, s.bg_rotation_full_single_screen, s.bg_inclination_full_single_screen, GameData.default.bg_layback_full_single_screen, GameData.default.bg_fov_full_single_screen, GameData.default.bg_offset_x_full_single_screen, GameData.default.bg_offset_y_full_single_screen, GameData.default.bg_offset_z_full_single_screen, GameData.default.bg_scale_x_full_single_screen, GameData.default.bg_scale_y_full_single_screen, GameData.default.bg_scale_z_full_single_screen, GameData.default.bg_view_horizontal_offset_full_single_screen, GameData.default.bg_view_vertical_offset_full_single_screen, GameData.default.bg_window_top_x_offset_full_single_screen, GameData.default.bg_window_top_y_offset_full_single_screen, GameData.default.bg_window_top_z_offset_full_single_screen, GameData.default.bg_window_bottom_x_offset_full_single_screen, GameData.default.bg_window_bottom_y_offset_full_single_screen, GameData.default.bg_window_bottom_z_offset_full_single_screen⟩, GameData.default.toGDPhysics, GameData.default.toGDLook, GameData.default.toGDRender, GameData.default.toGDContent⟩
    (f32_rt.gopt (fun v (s : GameData) => { s with bg_inclination_full_single_screen := v }) (fun _ _ => trivial) rfl rfl) rfl ?_
  refine .segTo ⟨s.toGDView, ⟨s.bg_rotation_fullscreen, s.bg_inclination_fullscreen, s.bg_layback_fullscreen, s.bg_fov_fullscreen, s.bg_offset_x_fullscreen, s.bg_offset_y_fullscreen, s.bg_offset_z_fullscreen, s.bg_scale_x_fullscreen, s.bg_scale_y_fullscreen, s.bg_scale_z_fullscreen, s.bg_view_horizontal_offset_fullscreen, s.bg_view_vertical_offset_fullscreen, s.bg_window_top_x_offset_fullscreen, s.bg_window_top_y_offset_fullscreen, s.bg_window_top_z_offset_fullscreen, s.bg_window_bottom_x_offset_fullscreen, s.bg_window_bottom_y_offset_fullscreen, s.bg_window_bottom_z_offset_fullscreen, s.bg_view_mode_full_single_screen, s.bg_rotation_full_single_screen, s.bg_inclination_full_single_screen, s.bg_layback_full_single_screen, GameData.default.bg_fov_full_single_screen, GameData.default.bg_offset_x_full_single_screen, GameData.default.bg_offset_y_full_single_screen, GameData.default.bg_offset_z_full_single_screen, GameData.default.bg_scale_x_full_single_screen, GameData.default.bg_scale_y_full_single_screen, GameData.default.bg_scale_z_full_single_screen, GameData.default.bg_view_horizontal_offset_full_single_screen, GameData.default.bg_view_vertical_offset_full_single_screen, GameData.default.bg_window_top_x_offset_full_single_screen, GameData.default.bg_window_top_y_offset_full_single_screen, GameData.default.bg_window_top_z_offset_full_single_screen, GameData.default.bg_window_bottom_x_offset_full_single_screen, GameData.default.bg_window_bottom_y_offset_full_single_screen, GameData.default.bg_window_bottom_z_offset_full_single_screen⟩, GameData.default.toGDPhysics, GameData.default.toGDLook, GameData.default.toGDRender, GameData.default.toGDContent⟩
    (f32_rt.gopt (fun v (s : GameData) => { s with bg_layback_full_single_screen := v }) (fun _ _ => trivial) rfl rfl) rfl ?_
  refine .segTo ⟨s.toGDView, ⟨s.bg_rotation_fullscreen, s.bg_inclination_fullscreen, s.bg_layback_fullscreen, s.bg_fov_fullscreen, s.bg_offset_x_fullscreen, s.bg_offset_y_fullscreen, s.bg_offset_z_fullscreen, s.bg_scale_x_fullscreen, s.bg_scale_y_fullscreen, s.bg_scale_z_fullscreen, s.bg_view_horizontal_offset_fullscreen, s.bg_view_vertical_offset_fullscreen, s.bg_window_top_x_offset_fullscreen, s.bg_window_top_y_offset_fullscreen, s.bg_window_top_z_offset_fullscreen, s.bg_window_bottom_x_offset_fullscreen, s.bg_window_bottom_y_offset_fullscreen, s.bg_window_bottom_z_offset_fullscreen, s.bg_view_mode_full_single_screen, s.bg_rotation_full_single_screen, s.bg_inclination_full_single_screen, s.bg_layback_full_single_screen, s.bg_fov_full_single_screen, GameData.default.bg_offset_x_full_single_screen, GameData.default.bg_offset_y_full_single_screen, GameData.default.bg_offset_z_full_single_screen, GameData.default.bg_scale_x_full_single_screen, GameData.default.bg_scale_y_full_single_screen, GameData.default.bg_scale_z_full_single_screen, GameData.default.bg_view_horizontal_offset_full_single_screen, GameData.default.bg_view_vertical_offset_full_single_screen, GameData.default.bg_window_top_x_offset_full_single_screen, GameData.default.bg_window_top_y_offset_full_single_screen, GameData.default.bg_window_top_z_offset_full_single_screen, GameData.default.bg_window_bottom_x_offset_full_single_screen, GameData.default.bg_window_bottom_y_offset_full_single_screen, GameData.default.bg_window_bottom_z_offset_full_single_screen⟩, GameData.default.toGDPhysics, GameData.default.toGDLook, GameData.default.toGDRender, GameData.default.toGDContent⟩
    (f32_rt.gopt (fun v (s : GameData) => { s with bg_fov_full_single_screen := v }) (fun _ _ => trivial) rfl rfl) rfl ?_
  refine .segTo ⟨s.toGDView, ⟨s.bg_rotation_fullscreen, s.bg_inclination_fullscreen, s.bg_layback_fullscreen, s.bg_fov_fullscreen, s.bg_offset_x_fullscreen, s.bg_offset_y_fullscreen, s.bg_offset_z_fullscreen, s.bg_scale_x_fullscreen, s.bg_scale_y_fullscreen, s.bg_scale_z_fullscreen, s.bg_view_horizontal_offset_fullscreen, s.bg_view_vertical_offset_fullscreen, s.bg_window_top_x_offset_fullscreen, s.bg_window_top_y_offset_fullscreen, s.bg_window_top_z_offset_fullscreen, s.bg_window_bottom_x_offset_fullscreen, s.bg_window_bottom_y_offset_fullscreen, s.bg_window_bottom_z_offset_fullscreen, s.bg_view_mode_full_single_screen, s.bg_rotation_full_single_screen, s.bg_inclination_full_single_screen, s.bg_layback_full_single_screen, s.bg_fov_full_single_screen, s.bg_offset_x_full_single_screen, GameData.default.bg_offset_y_full_single_screen, GameData.default.bg_offset_z_full_single_screen, GameData.default.bg_scale_x_full_single_screen, GameData.default.bg_scale_y_full_single_screen, GameData.default.bg_scale_z_full_single_screen, GameData.default.bg_view_horizontal_offset_full_single_screen, GameData.default.bg_view_vertical_offset_full_single_screen, GameData.default.bg_window_top_x_offset_full_single_screen, GameData.default.bg_window_top_y_offset_full_single_screen, GameData.default.bg_window_top_z_offset_full_single_screen, GameData.default.bg_window_bottom_x_offset_full_single_screen, GameData.default.bg_window_bottom_y_offset_full_single_screen, GameData.default.bg_window_bottom_z_offset_full_single_screen⟩, GameData.default.toGDPhysics, GameData.default.toGDLook, GameData.default.toGDRender, GameData.default.toGDContent⟩
    (f32_rt.gopt (fun v (s : GameData) => { s with bg_offset_x_full_single_screen := v }) (fun _ _ => trivial) rfl rfl) rfl ?_
  refine .segTo ⟨s.toGDView, ⟨s.bg_rotation_fullscreen, s.bg_inclination_fullscreen, s.bg_layback_fullscreen, s.bg_fov_fullscreen, s.bg_offset_x_fullscreen, s.bg_offset_y_fullscreen, s.bg_offset_z_fullscreen, s.bg_scale_x_fullscreen, s.bg_scale_y_fullscreen, s.bg_scale_z_fullscreen, s.bg_view_horizontal_offset_fullscreen, s.bg_view_vertical_offset_fullscreen, s.bg_window_top_x_offset_fullscreen, s.bg_window_top_y_offset_fullscreen, s.bg_window_top_z_offset_fullscreen, s.bg_window_bottom_x_offset_fullscreen, s.bg_window_bottom_y_offset_fullscreen, s.bg_window_bottom_z_offset_fullscreen, s.bg_view_mode_full_single_screen, s.bg_rotation_full_single_screen, s.bg_inclination_full_single_screen, s.bg_layback_full_single_screen, s.bg_fov_full_single_screen, s.bg_offset_x_full_single_screen, s.bg_offset_y_full_single_screen, GameData.default.bg_offset_z_full_single_screen, GameData.default.bg_scale_x_full_single_screen, GameData.default.bg_scale_y_full_single_screen, GameData.default.bg_scale_z_full_single_screen, GameData.default.bg_view_horizontal_offset_full_single_screen, GameData.default.bg_view_vertical_offset_full_single_screen, GameData.default.bg_window_top_x_offset_full_single_screen, GameData.default.bg_window_top_y_offset_full_single_screen, GameData.default.bg_window_top_z_offset_full_single_screen, GameData.default.bg_window_bottom_x_offset_full_single_screen, GameData.default.bg_window_bottom_y_offset_full_single_screen, GameData.default.bg_window_bottom_z_offset_full_single_screen⟩, GameData.default.toGDPhysics, GameData.default.toGDLook, GameData.default.toGDRender, GameData.default.toGDContent⟩
    (f32_rt.gopt (fun v (s : GameData) => { s with bg_offset_y_full_single_screen := v }) (fun _ _ => trivial) rfl rfl) rfl ?_
  refine .segTo ⟨s.toGDView, ⟨s.bg_rotation_fullscreen, s.bg_inclination_fullscreen, s.bg_layback_fullscreen, s.bg_fov_fullscreen, s.bg_offset_x_fullscreen, s.bg_offset_y_fullscreen, s.bg_offset_z_fullscreen, s.bg_scale_x_fullscreen, s.bg_scale_y_fullscreen, s.bg_scale_z_fullscreen, s.bg_view_horizontal_offset_fullscreen, s.bg_view_vertical_offset_fullscreen, s.bg_window_top_x_offset_fullscreen, s.bg_window_top_y_offset_fullscreen, s.bg_window_top_z_offset_fullscreen, s.bg_window_bottom_x_offset_fullscreen, s.bg_window_bottom_y_offset_fullscreen, s.bg_window_bottom_z_offset_fullscreen, s.bg_view_mode_full_single_screen, s.bg_rotation_full_single_screen, s.bg_inclination_full_single_screen, s.bg_layback_full_single_screen, s.bg_fov_full_single_screen, s.bg_offset_x_full_single_screen, s.bg_offset_y_full_single_screen, s.bg_offset_z_full_single_screen, GameData.default.bg_scale_x_full_single_screen, GameData.default.bg_scale_y_full_single_screen, GameData.default.bg_scale_z_full_single_screen, GameData.default.bg_view_horizontal_offset_full_single_screen, GameData.default.bg_view_vertical_offset_full_single_screen, GameData.default.bg_window_top_x_offset_full_single_screen, GameData.default.bg_window_top_y_offset_full_single_screen, GameData.default.bg_window_top_z_offset_full_single_screen, GameData.default.bg_window_bottom_x_offset_full_single_screen, GameData.default.bg_window_bottom_y_offset_full_single_screen, GameData.default.bg_window_bottom_z_offset_full_single_screen⟩, GameData.default.toGDPhysics, GameData.default.toGDLook, GameData.default.toGDRender, GameData.default.toGDContent⟩
    (f32_rt.gopt (fun v (s : GameData) => { s with bg_offset_z_full_single_screen := v }) (fun _ _ => trivial) rfl rfl) rfl ?_
  refine .segTo ⟨s.toGDView, ⟨s.bg_rotation_fullscreen, s.bg_inclination_fullscreen, s.bg_layback_fullscreen, s.bg_fov_fullscreen, s.bg_offset_x_fullscreen, s.bg_offset_y_fullscreen, s.bg_offset_z_fullscreen, s.bg_scale_x_fullscreen, s.bg_scale_y_fullscreen, s.bg_scale_z_fullscreen, s.bg_view_horizontal_offset_fullscreen, s.bg_view_vertical_offset_fullscreen, s.bg_window_top_x_offset_fullscreen, s.bg_window_top_y_offset_fullscreen, s.bg_window_top_z_offset_fullscreen, s.bg_window_bottom_x_offset_fullscreen, s.bg_window_bottom_y_offset_fullscreen, s.bg_window_bottom_z_offset_fullscreen, s.bg_view_mode_full_single_screen, s.bg_rotation_full_single_screen, s.bg_inclination_full_single_screen, s.bg_layback_full_single_screen, s.bg_fov_full_single_screen, s.bg_offset_x_full_single_screen, s.bg_offset_y_full_single_screen, s.bg_offset_z_full_single_screen, s.bg_scale_x_full_single_screen, GameData.default.bg_scale_y_full_single_screen, GameData.default.bg_scale_z_full_single_screen, GameData.default.bg_view_horizontal_offset_full_single_screen, GameData.default.bg_view_vertical_offset_full_single_screen, GameData.default.bg_window_top_x_offset_full_single_screen, GameData.default.bg_window_top_y_offset_full_single_screen, GameData.default.bg_window_top_z_offset_full_single_screen, GameData.default.bg_window_bottom_x_offset_full_single_screen, GameData.default.bg_window_bottom_y_offset_full_single_screen, GameData.default.bg_window_bottom_z_offset_full_single_screen⟩, GameData.default.toGDPhysics, GameData.default.toGDLook, GameData.default.toGDRender, GameData.default.toGDContent⟩
    (f32_rt.gopt (fun v (s : GameData) => { s with bg_scale_x_full_single_screen := v }) (fun _ _ => trivial) rfl rfl) rfl ?_
  refine .segTo ⟨s.toGDView, ⟨s.bg_rotation_fullscreen, s.bg_inclination_fullscreen, s.bg_layback_fullscreen, s.bg_fov_fullscreen, s.bg_offset_x_fullscreen, s.bg_offset_y_fullscreen, s.bg_offset_z_fullscreen, s.bg_scale_x_fullscreen, s.bg_scale_y_fullscreen, s.bg_scale_z_fullscreen, s.bg_view_horizontal_offset_fullscreen, s.bg_view_vertical_offset_fullscreen, s.bg_window_top_x_offset_fullscreen, s.bg_window_top_y_offset_fullscreen, s.bg_window_top_z_offset_fullscreen, s.bg_window_bottom_x_offset_fullscreen, s.bg_window_bottom_y_offset_fullscreen, s.bg_window_bottom_z_offset_fullscreen, s.bg_view_mode_full_single_screen, s.bg_rotation_full_single_screen, s.bg_inclination_full_single_screen, s.bg_layback_full_single_screen, s.bg_fov_full_single_screen, s.bg_offset_x_full_single_screen, s.bg_offset_y_full_single_screen, s.bg_offset_z_full_single_screen, s.bg_scale_x_full_single_screen, s.bg_scale_y_full_single_screen, GameData.default.bg_scale_z_full_single_screen, GameData.default.bg_view_horizontal_offset_full_single_screen, GameData.default.bg_view_vertical_offset_full_single_screen, GameData.default.bg_window_top_x_offset_full_single_screen, GameData.default.bg_window_top_y_offset_full_single_screen, GameData.default.bg_window_top_z_offset_full_single_screen, GameData.default.bg_window_bottom_x_offset_full_single_screen, GameData.default.bg_window_bottom_y_offset_full_single_screen, GameData.default.bg_window_bottom_z_offset_full_single_screen⟩, GameData.default.toGDPhysics, GameData.default.toGDLook, GameData.default.toGDRender, GameData.default.toGDContent⟩
    (f32_rt.gopt (fun v (s : GameData) => { s with bg_scale_y_full_single_screen := v }) (fun _ _ => trivial) rfl rfl) rfl ?_
  refine .segTo ⟨s.toGDView, ⟨s.bg_rotation_fullscreen, s.bg_inclination_fullscreen, s.bg_layback_fullscreen, s.bg_fov_fullscreen, s.bg_offset_x_fullscreen, s.bg_offset_y_fullscreen, s.bg_offset_z_fullscreen, s.bg_scale_x_fullscreen, s.bg_scale_y_fullscreen, s.bg_scale_z_fullscreen, s.bg_view_horizontal_offset_fullscreen, s.bg_view_vertical_offset_fullscreen, s.bg_window_top_x_offset_fullscreen, s.bg_window_top_y_offset_fullscreen, s.bg_window_top_z_offset_fullscreen, s.bg_window_bottom_x_offset_fullscreen, s.bg_window_bottom_y_offset_fullscreen, s.bg_window_bottom_z_offset_fullscreen, s.bg_view_mode_full_single_screen, s.bg_rotation_full_single_screen, s.bg_inclination_full_single_screen, s.bg_layback_full_single_screen, s.bg_fov_full_single_screen, s.bg_offset_x_full_single_screen, s.bg_offset_y_full_single_screen, s.bg_offset_z_full_single_screen, s.bg_scale_x_full_single_screen, s.bg_scale_y_full_single_screen, s.bg_scale_z_full_single_screen, GameData.default.bg_view_horizontal_offset_full_single_screen, GameData.default.bg_view_vertical_offset_full_single_screen, GameData.default.bg_window_top_x_offset_full_single_screen, GameData.default.bg_window_top_y_offset_full_single_screen, GameData.default.bg_window_top_z_offset_full_single_screen, GameData.default.bg_window_bottom_x_offset_full_single_screen, GameData.default.bg_window_bottom_y_offset_full_single_screen, GameData.default.bg_window_bottom_z_offset_full_single_screen⟩, GameData.default.toGDPhysics, GameData.default.toGDLook, GameData.default.toGDRender, GameData.default.toGDContent⟩
    (f32_rt.gopt (fun v (s : GameData) => { s with bg_scale_z_full_single_screen := v }) (fun _ _ => trivial) rfl rfl) rfl ?_
  refine .segTo ⟨s.toGDView, ⟨s.bg_rotation_fullscreen, s.bg_inclination_fullscreen, s.bg_layback_fullscreen, s.bg_fov_fullscreen, s.bg_offset_x_fullscreen, s.bg_offset_y_fullscreen, s.bg_offset_z_fullscreen, s.bg_scale_x_fullscreen, s.bg_scale_y_fullscreen, s.bg_scale_z_fullscreen, s.bg_view_horizontal_offset_fullscreen, s.bg_view_vertical_offset_fullscreen, s.bg_window_top_x_offset_fullscreen, s.bg_window_top_y_offset_fullscreen, s.bg_window_top_z_offset_fullscreen, s.bg_window_bottom_x_offset_fullscreen, s.bg_window_bottom_y_offset_fullscreen, s.bg_window_bottom_z_offset_fullscreen, s.bg_view_mode_full_single_screen, s.bg_rotation_full_single_screen, s.bg_inclination_full_single_screen, s.bg_layback_full_single_screen, s.bg_fov_full_single_screen, s.bg_offset_x_full_single_screen, s.bg_offset_y_full_single_screen, s.bg_offset_z_full_single_screen, s.bg_scale_x_full_single_screen, s.bg_scale_y_full_single_screen, s.bg_scale_z_full_single_screen, s.bg_view_horizontal_offset_full_single_screen, GameData.default.bg_view_vertical_offset_full_single_screen, GameData.default.bg_window_top_x_offset_full_single_screen, GameData.default.bg_window_top_y_offset_full_single_screen, GameData.default.bg_window_top_z_offset_full_single_screen, GameData.default.bg_window_bottom_x_offset_full_single_screen, GameData.default.bg_window_bottom_y_offset_full_single_screen, GameData.default.bg_window_bottom_z_offset_full_single_screen⟩, GameData.default.toGDPhysics, GameData.default.toGDLook, GameData.default.toGDRender, GameData.default.toGDContent⟩
    (f32_rt.gopt (fun v (s : GameData) => { s with bg_view_horizontal_offset_full_single_screen := v }) (fun _ _ => trivial) rfl rfl) rfl ?_
  refine .segTo ⟨s.toGDView, ⟨s.bg_rotation_fullscreen, s.bg_inclination_fullscreen, s.bg_layback_fullscreen, s.bg_fov_fullscreen, s.bg_offset_x_fullscreen, s.bg_offset_y_fullscreen, s.bg_offset_z_fullscreen, s.bg_scale_x_fullscreen, s.bg_scale_y_fullscreen, s.bg_scale_z_fullscreen, s.bg_view_horizontal_offset_fullscreen, s.bg_view_vertical_offset_fullscreen, s.bg_window_top_x_offset_fullscreen, s.bg_window_top_y_offset_fullscreen, s.bg_window_top_z_offset_fullscreen, s.bg_window_bottom_x_offset_fullscreen, s.bg_window_bottom_y_offset_fullscreen, s.bg_window_bottom_z_offset_fullscreen, s.bg_view_mode_full_single_screen, s.bg_rotation_full_single_screen, s.bg_inclination_full_single_screen, s.bg_layback_full_single_screen, s.bg_fov_full_single_screen, s.bg_offset_x_full_single_screen, s.bg_offset_y_full_single_screen, s.bg_offset_z_full_single_screen, s.bg_scale_x_full_single_screen, s.bg_scale_y_full_single_screen, s.bg_scale_z_full_single_screen, s.bg_view_horizontal_offset_full_single_screen, s.bg_view_vertical_offset_full_single_screen, GameData.default.bg_window_top_x_offset_full_single_screen, GameData.default.bg_window_top_y_offset_full_single_screen, GameData.default.bg_window_top_z_offset_full_single_screen, GameData.default.bg_window_bottom_x_offset_full_single_screen, GameData.default.bg_window_bottom_y_offset_full_single_screen, GameData.default.bg_window_bottom_z_offset_full_single_screen⟩, GameData.default.toGDPhysics, GameData.default.toGDLook, GameData.default.toGDRender, GameData.default.toGDContent⟩
    (f32_rt.gopt (fun v (s : GameData) => { s with bg_view_vertical_offset_full_single_screen := v }) (fun _ _ => trivial) rfl rfl) rfl ?_
  refine .segTo ⟨s.toGDView, ⟨s.bg_rotation_fullscreen, s.bg_inclination_fullscreen, s.bg_layback_fullscreen, s.bg_fov_fullscreen, s.bg_offset_x_fullscreen, s.bg_offset_y_fullscreen, s.bg_offset_z_fullscreen, s.bg_scale_x_fullscreen, s.bg_scale_y_fullscreen, s.bg_scale_z_fullscreen, s.bg_view_horizontal_offset_fullscreen, s.bg_view_vertical_offset_fullscreen, s.bg_window_top_x_offset_fullscreen, s.bg_window_top_y_offset_fullscreen, s.bg_window_top_z_offset_fullscreen, s.bg_window_bottom_x_offset_fullscreen, s.bg_window_bottom_y_offset_fullscreen, s.bg_window_bottom_z_offset_fullscreen, s.bg_view_mode_full_single_screen, s.bg_rotation_full_single_screen, s.bg_inclination_full_single_screen, s.bg_layback_full_single_screen, s.bg_fov_full_single_screen, s.bg_offset_x_full_single_screen, s.bg_offset_y_full_single_screen, s.bg_offset_z_full_single_screen, s.bg_scale_x_full_single_screen, s.bg_scale_y_full_single_screen, s.bg_scale_z_full_single_screen, s.bg_view_horizontal_offset_full_single_screen, s.bg_view_vertical_offset_full_single_screen, s.bg_window_top_x_offset_full_single_screen, GameData.default.bg_window_top_y_offset_full_single_screen, GameData.default.bg_window_top_z_offset_full_single_screen, GameData.default.bg_window_bottom_x_offset_full_single_screen, GameData.default.bg_window_bottom_y_offset_full_single_screen, GameData.default.bg_window_bottom_z_offset_full_single_screen⟩, GameData.default.toGDPhysics, GameData.default.toGDLook, GameData.default.toGDRender, GameData.default.toGDContent⟩
    (f32_rt.gopt (fun v (s : GameData) => { s with bg_window_top_x_offset_full_single_screen := v }) (fun _ _ => trivial) rfl rfl) rfl ?_
  refine .segTo ⟨s.toGDView, ⟨s.bg_rotation_fullscreen, s.bg_inclination_fullscreen, s.bg_layback_fullscreen, s.bg_fov_fullscreen, s.bg_offset_x_fullscreen, s.bg_offset_y_fullscreen, s.bg_offset_z_fullscreen, s.bg_scale_x_fullscreen, s.bg_scale_y_fullscreen, s.bg_scale_z_fullscreen, s.bg_view_horizontal_offset_fullscreen, s.bg_view_vertical_offset_fullscreen, s.bg_window_top_x_offset_fullscreen, s.bg_window_top_y_offset_fullscreen, s.bg_window_top_z_offset_fullscreen, s.bg_window_bottom_x_offset_fullscreen, s.bg_window_bottom_y_offset_fullscreen, s.bg_window_bottom_z_offset_fullscreen, s.bg_view_mode_full_single_screen, s.bg_rotation_full_single_screen, s.bg_inclination_full_single_screen, s.bg_layback_full_single_screen, s.bg_fov_full_single_screen, s.bg_offset_x_full_single_screen, s.bg_offset_y_full_single_screen, s.bg_offset_z_full_single_screen, s.bg_scale_x_full_single_screen, s.bg_scale_y_full_single_screen, s.bg_scale_z_full_single_screen, s.bg_view_horizontal_offset_full_single_screen, s.bg_view_vertical_offset_full_single_screen, s.bg_window_top_x_offset_full_single_screen, s.bg_window_top_y_offset_full_single_screen, GameData.default.bg_window_top_z_offset_full_single_screen, GameData.default.bg_window_bottom_x_offset_full_single_screen, GameData.default.bg_window_bottom_y_offset_full_single_screen, GameData.default.bg_window_bottom_z_offset_full_single_screen⟩, GameData.default.toGDPhysics, GameData.default.toGDLook, GameData.default.toGDRender, GameData.default.toGDContent⟩
    (f32_rt.gopt (fun v (s : GameData) => { s with bg_window_top_y_offset_full_single_screen := v }) (fun _ _ => trivial) rfl rfl) rfl ?_
  refine .segTo ⟨s.toGDView, ⟨s.bg_rotation_fullscreen, s.bg_inclination_fullscreen, s.bg_layback_fullscreen, s.bg_fov_fullscreen, s.bg_offset_x_fullscreen, s.bg_offset_y_fullscreen, s.bg_offset_z_fullscreen, s.bg_scale_x_fullscreen, s.bg_scale_y_fullscreen, s.bg_scale_z_fullscreen, s.bg_view_horizontal_offset_fullscreen, s.bg_view_vertical_offset_fullscreen, s.bg_window_top_x_offset_fullscreen, s.bg_window_top_y_offset_fullscreen, s.bg_window_top_z_offset_fullscreen, s.bg_window_bottom_x_offset_fullscreen, s.bg_window_bottom_y_offset_fullscreen, s.bg_window_bottom_z_offset_fullscreen, s.bg_view_mode_full_single_screen, s.bg_rotation_full_single_screen, s.bg_inclination_full_single_screen, s.bg_layback_full_single_screen, s.bg_fov_full_single_screen, s.bg_offset_x_full_single_screen, s.bg_offset_y_full_single_screen, s.bg_offset_z_full_single_screen, s.bg_scale_x_full_single_screen, s.bg_scale_y_full_single_screen, s.bg_scale_z_full_single_screen, s.bg_view_horizontal_offset_full_single_screen, s.bg_view_vertical_offset_full_single_screen, s.bg_window_top_x_offset_full_single_screen, s.bg_window_top_y_offset_full_single_screen, s.bg_window_top_z_offset_full_single_screen, GameData.default.bg_window_bottom_x_offset_full_single_screen, GameData.default.bg_window_bottom_y_offset_full_single_screen, GameData.default.bg_window_bottom_z_offset_full_single_screen⟩, GameData.default.toGDPhysics, GameData.default.toGDLook, GameData.default.toGDRender, GameData.default.toGDContent⟩
    (f32_rt.gopt (fun v (s : GameData) => { s with bg_window_top_z_offset_full_single_screen := v }) (fun _ _ => trivial) rfl rfl) rfl ?_
  refine .segTo ⟨s.toGDView, ⟨s.bg_rotation_fullscreen, s.bg_inclination_fullscreen, s.bg_layback_fullscreen, s.bg_fov_fullscreen, s.bg_offset_x_fullscreen, s.bg_offset_y_fullscreen, s.bg_offset_z_fullscreen, s.bg_scale_x_fullscreen, s.bg_scale_y_fullscreen, s.bg_scale_z_fullscreen, s.bg_view_horizontal_offset_fullscreen, s.bg_view_vertical_offset_fullscreen, s.bg_window_top_x_offset_fullscreen, s.bg_window_top_y_offset_fullscreen, s.bg_window_top_z_offset_fullscreen, s.bg_window_bottom_x_offset_fullscreen, s.bg_window_bottom_y_offset_fullscreen, s.bg_window_bottom_z_offset_fullscreen, s.bg_view_mode_full_single_screen, s.bg_rotation_full_single_screen, s.bg_inclination_full_single_screen, s.bg_layback_full_single_screen, s.bg_fov_full_single_screen, s.bg_offset_x_full_single_screen, s.bg_offset_y_full_single_screen, s.bg_offset_z_full_single_screen, s.bg_scale_x_full_single_screen, s.bg_scale_y_full_single_screen, s.bg_scale_z_full_single_screen, s.bg_view_horizontal_offset_full_single_screen, s.bg_view_vertical_offset_full_single_screen, s.bg_window_top_x_offset_full_single_screen, s.bg_window_top_y_offset_full_single_screen, s.bg_window_top_z_offset_full_single_screen, s.bg_window_bottom_x_offset_full_single_screen, GameData.default.bg_window_bottom_y_offset_full_single_screen, GameData.default.bg_window_bottom_z_offset_full_single_screen⟩, GameData.default.toGDPhysics, GameData.default.toGDLook, GameData.default.toGDRender, GameData.default.toGDContent⟩
    (f32_rt.gopt (fun v (s : GameData) => { s with bg_window_bottom_x_offset_full_single_screen := v }) (fun _ _ => trivial) rfl rfl) rfl ?_
  refine .segTo ⟨s.toGDView, ⟨s.bg_rotation_fullscreen, s.bg_inclination_fullscreen, s.bg_layback_fullscreen, s.bg_fov_fullscreen, s.bg_offset_x_fullscreen, s.bg_offset_y_fullscreen, s.bg_offset_z_fullscreen, s.bg_scale_x_fullscreen, s.bg_scale_y_fullscreen, s.bg_scale_z_fullscreen, s.bg_view_horizontal_offset_fullscreen, s.bg_view_vertical_offset_fullscreen, s.bg_window_top_x_offset_fullscreen, s.bg_window_top_y_offset_fullscreen, s.bg_window_top_z_offset_fullscreen, s.bg_window_bottom_x_offset_fullscreen, s.bg_window_bottom_y_offset_fullscreen, s.bg_window_bottom_z_offset_fullscreen, s.bg_view_mode_full_single_screen, s.bg_rotation_full_single_screen, s.bg_inclination_full_single_screen, s.bg_layback_full_single_screen, s.bg_fov_full_single_screen, s.bg_offset_x_full_single_screen, s.bg_offset_y_full_single_screen, s.bg_offset_z_full_single_screen, s.bg_scale_x_full_single_screen, s.bg_scale_y_full_single_screen, s.bg_scale_z_full_single_screen, s.bg_view_horizontal_offset_full_single_screen, s.bg_view_vertical_offset_full_single_screen, s.bg_window_top_x_offset_full_single_screen, s.bg_window_top_y_offset_full_single_screen, s.bg_window_top_z_offset_full_single_screen, s.bg_window_bottom_x_offset_full_single_screen, s.bg_window_bottom_y_offset_full_single_screen, GameData.default.bg_window_bottom_z_offset_full_single_screen⟩, GameData.default.toGDPhysics, GameData.default.toGDLook, GameData.default.toGDRender, GameData.default.toGDContent⟩
    (f32_rt.gopt (fun v (s : GameData) => { s with bg_window_bottom_y_offset_full_single_screen := v }) (fun _ _ => trivial) rfl rfl) rfl ?_
  refine .segTo ⟨s.toGDView, ⟨s.bg_rotation_fullscreen, s.bg_inclination_fullscreen, s.bg_layback_fullscreen, s.bg_fov_fullscreen, s.bg_offset_x_fullscreen, s.bg_offset_y_fullscreen, s.bg_offset_z_fullscreen, s.bg_scale_x_fullscreen, s.bg_scale_y_fullscreen, s.bg_scale_z_fullscreen, s.bg_view_horizontal_offset_fullscreen, s.bg_view_vertical_offset_fullscreen, s.bg_window_top_x_offset_fullscreen, s.bg_window_top_y_offset_fullscreen, s.bg_window_top_z_offset_fullscreen, s.bg_window_bottom_x_offset_fullscreen, s.bg_window_bottom_y_offset_fullscreen, s.bg_window_bottom_z_offset_fullscreen, s.bg_view_mode_full_single_screen, s.bg_rotation_full_single_screen, s.bg_inclination_full_single_screen, s.bg_layback_full_single_screen, s.bg_fov_full_single_screen, s.bg_offset_x_full_single_screen, s.bg_offset_y_full_single_screen, s.bg_offset_z_full_single_screen, s.bg_scale_x_full_single_screen, s.bg_scale_y_full_single_screen, s.bg_scale_z_full_single_screen, s.bg_view_horizontal_offset_full_single_screen, s.bg_view_vertical_offset_full_single_screen, s.bg_window_top_x_offset_full_single_screen, s.bg_window_top_y_offset_full_single_screen, s.bg_window_top_z_offset_full_single_screen, s.bg_window_bottom_x_offset_full_single_screen, s.bg_window_bottom_y_offset_full_single_screen, s.bg_window_bottom_z_offset_full_single_screen⟩, GameData.default.toGDPhysics, GameData.default.toGDLook, GameData.default.toGDRender, GameData.default.toGDContent⟩
    (f32_rt.gopt (fun v (s : GameData) => { s with bg_window_bottom_z_offset_full_single_screen := v }) (fun _ _ => trivial) rfl rfl) rfl ?_
  exact .done rfl

theorem GameData.readsC {v : UInt32} {s : GameData} (h : s.Fields) :
    GReads v s.opsC
    ⟨s.toGDView, s.toGDScreens, ⟨GameData.default.override_physics, GameData.default.override_physics_flipper, GameData.default.gravity, GameData.default.friction, GameData.default.elasticity, GameData.default.elastic_falloff, GameData.default.scatter, GameData.default.default_scatter, GameData.default.nudge_time, GameData.default.plunger_normalize, GameData.default.plunger_filter, GameData.default.physics_max_loops, GameData.default.render_em_reels, GameData.default.render_decals, GameData.default.offset_x, GameData.default.offset_y, GameData.default.zoom, GameData.default.angle_tilt_max, GameData.default.angle_tilt_min, GameData.default.stereo_max_separation, GameData.default.stereo_zero_parallax_displacement, GameData.default.stereo_offset, GameData.default.overwrite_global_stereo3d⟩, GameData.default.toGDLook, GameData.default.toGDRender, GameData.default.toGDContent⟩
    ⟨s.toGDView, s.toGDScreens, ⟨s.override_physics, s.override_physics_flipper, s.gravity, s.friction, s.elasticity, s.elastic_falloff, s.scatter, s.default_scatter, s.nudge_time, s.plunger_normalize, s.plunger_filter, s.physics_max_loops, s.render_em_reels, s.render_decals, s.offset_x, s.offset_y, s.zoom, s.angle_tilt_max, s.angle_tilt_min, s.stereo_max_separation, s.stereo_zero_parallax_displacement, s.stereo_offset, s.overwrite_global_stereo3d⟩, GameData.default.toGDLook, GameData.default.toGDRender, GameData.default.toGDContent⟩ := by
  unfold GameData.opsC
  refine .segTo ⟨s.toGDView, s.toGDScreens, ⟨s.override_physics, GameData.default.override_physics_flipper, GameData.default.gravity, GameData.default.friction, GameData.default.elasticity, GameData.default.elastic_falloff, GameData.default.scatter, GameData.default.default_scatter, GameData.default.nudge_time, GameData.default.plunger_normalize, GameData.default.plunger_filter, GameData.default.physics_max_loops, GameData.default.render_em_reels, GameData.default.render_decals, GameData.default.offset_x, GameData.default.offset_y, GameData.default.zoom, GameData.default.angle_tilt_max, GameData.default.angle_tilt_min, GameData.default.stereo_max_separation, GameData.default.stereo_zero_parallax_displacement, GameData.default.stereo_offset, GameData.default.overwrite_global_stereo3d⟩, GameData.default.toGDLook, GameData.default.toGDRender, GameData.default.toGDContent⟩
    (u32_rt.greq (fun v (s : GameData) => { s with override_physics := v }) trivial rfl) rfl ?_
  refine .segTo ⟨s.toGDView, s.toGDScreens, ⟨s.override_physics, s.override_physics_flipper, GameData.default.gravity, GameData.default.friction, GameData.default.elasticity, GameData.default.elastic_falloff, GameData.default.scatter, GameData.default.default_scatter, GameData.default.nudge_time, GameData.default.plunger_normalize, GameData.default.plunger_filter, GameData.default.physics_max_loops, GameData.default.render_em_reels, GameData.default.render_decals, GameData.default.offset_x, GameData.default.offset_y, GameData.default.zoom, GameData.default.angle_tilt_max, GameData.default.angle_tilt_min, GameData.default.stereo_max_separation, GameData.default.stereo_zero_parallax_displacement, GameData.default.stereo_offset, GameData.default.overwrite_global_stereo3d⟩, GameData.default.toGDLook, GameData.default.toGDRender, GameData.default.toGDContent⟩
    (bool_rt.gopt (fun v (s : GameData) => { s with override_physics_flipper := v }) (fun _ _ => trivial) rfl rfl) rfl ?_
  refine .segTo ⟨s.toGDView, s.toGDScreens, ⟨s.override_physics, s.override_physics_flipper, s.gravity, GameData.default.friction, GameData.default.elasticity, GameData.default.elastic_falloff, GameData.default.scatter, GameData.default.default_scatter, GameData.default.nudge_time, GameData.default.plunger_normalize, GameData.default.plunger_filter, GameData.default.physics_max_loops, GameData.default.render_em_reels, GameData.default.render_decals, GameData.default.offset_x, GameData.default.offset_y, GameData.default.zoom, GameData.default.angle_tilt_max, GameData.default.angle_tilt_min, GameData.default.stereo_max_separation, GameData.default.stereo_zero_parallax_displacement, GameData.default.stereo_offset, GameData.default.overwrite_global_stereo3d⟩, GameData.default.toGDLook, GameData.default.toGDRender, GameData.default.toGDContent⟩
    (f32_rt.greq (fun v (s : GameData) => { s with gravity := v }) trivial rfl) rfl ?_
  refine .segTo ⟨s.toGDView, s.toGDScreens, ⟨s.override_physics, s.override_physics_flipper, s.gravity, s.friction, GameData.default.elasticity, GameData.default.elastic_falloff, GameData.default.scatter, GameData.default.default_scatter, GameData.default.nudge_time, GameData.default.plunger_normalize, GameData.default.plunger_filter, GameData.default.physics_max_loops, GameData.default.render_em_reels, GameData.default.render_decals, GameData.default.offset_x, GameData.default.offset_y, GameData.default.zoom, GameData.default.angle_tilt_max, GameData.default.angle_tilt_min, GameData.default.stereo_max_separation, GameData.default.stereo_zero_parallax_displacement, GameData.default.stereo_offset, GameData.default.overwrite_global_stereo3d⟩, GameData.default.toGDLook, GameData.default.toGDRender, GameData.default.toGDContent⟩
    (f32_rt.greq (fun v (s : GameData) => { s with friction := v }) trivial rfl) rfl ?_
  refine .segTo ⟨s.toGDView, s.toGDScreens, ⟨s.override_physics, s.override_physics_flipper, s.gravity, s.friction, s.elasticity, GameData.default.elastic_falloff, GameData.default.scatter, GameData.default.default_scatter, GameData.default.nudge_time, GameData.default.plunger_normalize, GameData.default.plunger_filter, GameData.default.physics_max_loops, GameData.default.render_em_reels, GameData.default.render_decals, GameData.default.offset_x, GameData.default.offset_y, GameData.default.zoom, GameData.default.angle_tilt_max, GameData.default.angle_tilt_min, GameData.default.stereo_max_separation, GameData.default.stereo_zero_parallax_displacement, GameData.default.stereo_offset, GameData.default.overwrite_global_stereo3d⟩, GameData.default.toGDLook, GameData.default.toGDRender, GameData.default.toGDContent⟩
    (f32_rt.greq (fun v (s : GameData) => { s with elasticity := v }) trivial rfl) rfl ?_
  refine .segTo ⟨s.toGDView, s.toGDScreens, ⟨s.override_physics, s.override_physics_flipper, s.gravity, s.friction, s.elasticity, s.elastic_falloff, GameData.default.scatter, GameData.default.default_scatter, GameData.default.nudge_time, GameData.default.plunger_normalize, GameData.default.plunger_filter, GameData.default.physics_max_loops, GameData.default.render_em_reels, GameData.default.render_decals, GameData.default.offset_x, GameData.default.offset_y, GameData.default.zoom, GameData.default.angle_tilt_max, GameData.default.angle_tilt_min, GameData.default.stereo_max_separation, GameData.default.stereo_zero_parallax_displacement, GameData.default.stereo_offset, GameData.default.overwrite_global_stereo3d⟩, GameData.default.toGDLook, GameData.default.toGDRender, GameData.default.toGDContent⟩
    (f32_rt.greq (fun v (s : GameData) => { s with elastic_falloff := v }) trivial rfl) rfl ?_
  refine .segTo ⟨s.toGDView, s.toGDScreens, ⟨s.override_physics, s.override_physics_flipper, s.gravity, s.friction, s.elasticity, s.elastic_falloff, s.scatter, GameData.default.default_scatter, GameData.default.nudge_time, GameData.default.plunger_normalize, GameData.default.plunger_filter, GameData.default.physics_max_loops, GameData.default.render_em_reels, GameData.default.render_decals, GameData.default.offset_x, GameData.default.offset_y, GameData.default.zoom, GameData.default.angle_tilt_max, GameData.default.angle_tilt_min, GameData.default.stereo_max_separation, GameData.default.stereo_zero_parallax_displacement, GameData.default.stereo_offset, GameData.default.overwrite_global_stereo3d⟩, GameData.default.toGDLook, GameData.default.toGDRender, GameData.default.toGDContent⟩
    (f32_rt.greq (fun v (s : GameData) => { s with scatter := v }) trivial rfl) rfl ?_
  refine .segTo ⟨s.toGDView, s.toGDScreens, ⟨s.override_physics, s.override_physics_flipper, s.gravity, s.friction, s.elasticity, s.elastic_falloff, s.scatter, s.default_scatter, GameData.default.nudge_time, GameData.default.plunger_normalize, GameData.default.plunger_filter, GameData.default.physics_max_loops, GameData.default.render_em_reels, GameData.default.render_decals, GameData.default.offset_x, GameData.default.offset_y, GameData.default.zoom, GameData.default.angle_tilt_max, GameData.default.angle_tilt_min, GameData.default.stereo_max_separation, GameData.default.stereo_zero_parallax_displacement, GameData.default.stereo_offset, GameData.default.overwrite_global_stereo3d⟩, GameData.default.toGDLook, GameData.default.toGDRender, GameData.default.toGDContent⟩
    (f32_rt.greq (fun v (s : GameData) => { s with default_scatter := v }) trivial rfl) rfl ?_
  refine .segTo ⟨s.toGDView, s.toGDScreens, ⟨s.override_physics, s.override_physics_flipper, s.gravity, s.friction, s.elasticity, s.elastic_falloff, s.scatter, s.default_scatter, s.nudge_time, GameData.default.plunger_normalize, GameData.default.plunger_filter, GameData.default.physics_max_loops, GameData.default.render_em_reels, GameData.default.render_decals, GameData.default.offset_x, GameData.default.offset_y, GameData.default.zoom, GameData.default.angle_tilt_max, GameData.default.angle_tilt_min, GameData.default.stereo_max_separation, GameData.default.stereo_zero_parallax_displacement, GameData.default.stereo_offset, GameData.default.overwrite_global_stereo3d⟩, GameData.default.toGDLook, GameData.default.toGDRender, GameData.default.toGDContent⟩
    (f32_rt.greq (fun v (s : GameData) => { s with nudge_time := v }) trivial rfl) rfl ?_
  refine .segTo ⟨s.toGDView, s.toGDScreens, ⟨s.override_physics, s.override_physics_flipper, s.gravity, s.friction, s.elasticity, s.elastic_falloff, s.scatter, s.default_scatter, s.nudge_time, s.plunger_normalize, GameData.default.plunger_filter, GameData.default.physics_max_loops, GameData.default.render_em_reels, GameData.default.render_decals, GameData.default.offset_x, GameData.default.offset_y, GameData.default.zoom, GameData.default.angle_tilt_max, GameData.default.angle_tilt_min, GameData.default.stereo_max_separation, GameData.default.stereo_zero_parallax_displacement, GameData.default.stereo_offset, GameData.default.overwrite_global_stereo3d⟩, GameData.default.toGDLook, GameData.default.toGDRender, GameData.default.toGDContent⟩
    (u32_rt.gopt (fun v (s : GameData) => { s with plunger_normalize := v }) (fun _ _ => trivial) rfl rfl) rfl ?_
  refine .segTo ⟨s.toGDView, s.toGDScreens, ⟨s.override_physics, s.override_physics_flipper, s.gravity, s.friction, s.elasticity, s.elastic_falloff, s.scatter, s.default_scatter, s.nudge_time, s.plunger_normalize, s.plunger_filter, GameData.default.physics_max_loops, GameData.default.render_em_reels, GameData.default.render_decals, GameData.default.offset_x, GameData.default.offset_y, GameData.default.zoom, GameData.default.angle_tilt_max, GameData.default.angle_tilt_min, GameData.default.stereo_max_separation, GameData.default.stereo_zero_parallax_displacement, GameData.default.stereo_offset, GameData.default.overwrite_global_stereo3d⟩, GameData.default.toGDLook, GameData.default.toGDRender, GameData.default.toGDContent⟩
    (bool_rt.gopt (fun v (s : GameData) => { s with plunger_filter := v }) (fun _ _ => trivial) rfl rfl) rfl ?_
  refine .segTo ⟨s.toGDView, s.toGDScreens, ⟨s.override_physics, s.override_physics_flipper, s.gravity, s.friction, s.elasticity, s.elastic_falloff, s.scatter, s.default_scatter, s.nudge_time, s.plunger_normalize, s.plunger_filter, s.physics_max_loops, GameData.default.render_em_reels, GameData.default.render_decals, GameData.default.offset_x, GameData.default.offset_y, GameData.default.zoom, GameData.default.angle_tilt_max, GameData.default.angle_tilt_min, GameData.default.stereo_max_separation, GameData.default.stereo_zero_parallax_displacement, GameData.default.stereo_offset, GameData.default.overwrite_global_stereo3d⟩, GameData.default.toGDLook, GameData.default.toGDRender, GameData.default.toGDContent⟩
    (u32_rt.greq (fun v (s : GameData) => { s with physics_max_loops := v }) trivial rfl) rfl ?_
  refine .segTo ⟨s.toGDView, s.toGDScreens, ⟨s.override_physics, s.override_physics_flipper, s.gravity, s.friction, s.elasticity, s.elastic_falloff, s.scatter, s.default_scatter, s.nudge_time, s.plunger_normalize, s.plunger_filter, s.physics_max_loops, s.render_em_reels, GameData.default.render_decals, GameData.default.offset_x, GameData.default.offset_y, GameData.default.zoom, GameData.default.angle_tilt_max, GameData.default.angle_tilt_min, GameData.default.stereo_max_separation, GameData.default.stereo_zero_parallax_displacement, GameData.default.stereo_offset, GameData.default.overwrite_global_stereo3d⟩, GameData.default.toGDLook, GameData.default.toGDRender, GameData.default.toGDContent⟩
    (bool_rt.greq (fun v (s : GameData) => { s with render_em_reels := v }) trivial rfl) rfl ?_
  refine .segTo ⟨s.toGDView, s.toGDScreens, ⟨s.override_physics, s.override_physics_flipper, s.gravity, s.friction, s.elasticity, s.elastic_falloff, s.scatter, s.default_scatter, s.nudge_time, s.plunger_normalize, s.plunger_filter, s.physics_max_loops, s.render_em_reels, s.render_decals, GameData.default.offset_x, GameData.default.offset_y, GameData.default.zoom, GameData.default.angle_tilt_max, GameData.default.angle_tilt_min, GameData.default.stereo_max_separation, GameData.default.stereo_zero_parallax_displacement, GameData.default.stereo_offset, GameData.default.overwrite_global_stereo3d⟩, GameData.default.toGDLook, GameData.default.toGDRender, GameData.default.toGDContent⟩
    (bool_rt.greq (fun v (s : GameData) => { s with render_decals := v }) trivial rfl) rfl ?_
  refine .segTo ⟨s.toGDView, s.toGDScreens, ⟨s.override_physics, s.override_physics_flipper, s.gravity, s.friction, s.elasticity, s.elastic_falloff, s.scatter, s.default_scatter, s.nudge_time, s.plunger_normalize, s.plunger_filter, s.physics_max_loops, s.render_em_reels, s.render_decals, s.offset_x, GameData.default.offset_y, GameData.default.zoom, GameData.default.angle_tilt_max, GameData.default.angle_tilt_min, GameData.default.stereo_max_separation, GameData.default.stereo_zero_parallax_displacement, GameData.default.stereo_offset, GameData.default.overwrite_global_stereo3d⟩, GameData.default.toGDLook, GameData.default.toGDRender, GameData.default.toGDContent⟩
    (f32_rt.greq (fun v (s : GameData) => { s with offset_x := v }) trivial rfl) rfl ?_
  refine .segTo ⟨s.toGDView, s.toGDScreens, ⟨s.override_physics, s.override_physics_flipper, s.gravity, s.friction, s.elasticity, s.elastic_falloff, s.scatter, s.default_scatter, s.nudge_time, s.plunger_normalize, s.plunger_filter, s.physics_max_loops, s.render_em_reels, s.render_decals, s.offset_x, s.offset_y, GameData.default.zoom, GameData.default.angle_tilt_max, GameData.default.angle_tilt_min, GameData.default.stereo_max_separation, GameData.default.stereo_zero_parallax_displacement, GameData.default.stereo_offset, GameData.default.overwrite_global_stereo3d⟩, GameData.default.toGDLook, GameData.default.toGDRender, GameData.default.toGDContent⟩
    (f32_rt.greq (fun v (s : GameData) => { s with offset_y := v }) trivial rfl) rfl ?_
  refine .segTo ⟨s.toGDView, s.toGDScreens, ⟨s.override_physics, s.override_physics_flipper, s.gravity, s.friction, s.elasticity, s.elastic_falloff, s.scatter, s.default_scatter, s.nudge_time, s.plunger_normalize, s.plunger_filter, s.physics_max_loops, s.render_em_reels, s.render_decals, s.offset_x, s.offset_y, s.zoom, GameData.default.angle_tilt_max, GameData.default.angle_tilt_min, GameData.default.stereo_max_separation, GameData.default.stereo_zero_parallax_displacement, GameData.default.stereo_offset, GameData.default.overwrite_global_stereo3d⟩, GameData.default.toGDLook, GameData.default.toGDRender, GameData.default.toGDContent⟩
    (f32_rt.greq (fun v (s : GameData) => { s with zoom := v }) trivial rfl) rfl ?_
  refine .segTo ⟨s.toGDView, s.toGDScreens, ⟨s.override_physics, s.override_physics_flipper, s.gravity, s.friction, s.elasticity, s.elastic_falloff, s.scatter, s.default_scatter, s.nudge_time, s.plunger_normalize, s.plunger_filter, s.physics_max_loops, s.render_em_reels, s.render_decals, s.offset_x, s.offset_y, s.zoom, s.angle_tilt_max, GameData.default.angle_tilt_min, GameData.default.stereo_max_separation, GameData.default.stereo_zero_parallax_displacement, GameData.default.stereo_offset, GameData.default.overwrite_global_stereo3d⟩, GameData.default.toGDLook, GameData.default.toGDRender, GameData.default.toGDContent⟩
    (f32_rt.greq (fun v (s : GameData) => { s with angle_tilt_max := v }) trivial rfl) rfl ?_
  refine .segTo ⟨s.toGDView, s.toGDScreens, ⟨s.override_physics, s.override_physics_flipper, s.gravity, s.friction, s.elasticity, s.elastic_falloff, s.scatter, s.default_scatter, s.nudge_time, s.plunger_normalize, s.plunger_filter, s.physics_max_loops, s.render_em_reels, s.render_decals, s.offset_x, s.offset_y, s.zoom, s.angle_tilt_max, s.angle_tilt_min, GameData.default.stereo_max_separation, GameData.default.stereo_zero_parallax_displacement, GameData.default.stereo_offset, GameData.default.overwrite_global_stereo3d⟩, GameData.default.toGDLook, GameData.default.toGDRender, GameData.default.toGDContent⟩
    (f32_rt.greq (fun v (s : GameData) => { s with angle_tilt_min := v }) trivial rfl) rfl ?_
  refine .segTo ⟨s.toGDView, s.toGDScreens, ⟨s.override_physics, s.override_physics_flipper, s.gravity, s.friction, s.elasticity, s.elastic_falloff, s.scatter, s.default_scatter, s.nudge_time, s.plunger_normalize, s.plunger_filter, s.physics_max_loops, s.render_em_reels, s.render_decals, s.offset_x, s.offset_y, s.zoom, s.angle_tilt_max, s.angle_tilt_min, s.stereo_max_separation, GameData.default.stereo_zero_parallax_displacement, GameData.default.stereo_offset, GameData.default.overwrite_global_stereo3d⟩, GameData.default.toGDLook, GameData.default.toGDRender, GameData.default.toGDContent⟩
    (f32_rt.gopt (fun v (s : GameData) => { s with stereo_max_separation := v }) (fun _ _ => trivial) rfl rfl) rfl ?_
  refine .segTo ⟨s.toGDView, s.toGDScreens, ⟨s.override_physics, s.override_physics_flipper, s.gravity, s.friction, s.elasticity, s.elastic_falloff, s.scatter, s.default_scatter, s.nudge_time, s.plunger_normalize, s.plunger_filter, s.physics_max_loops, s.render_em_reels, s.render_decals, s.offset_x, s.offset_y, s.zoom, s.angle_tilt_max, s.angle_tilt_min, s.stereo_max_separation, s.stereo_zero_parallax_displacement, GameData.default.stereo_offset, GameData.default.overwrite_global_stereo3d⟩, GameData.default.toGDLook, GameData.default.toGDRender, GameData.default.toGDContent⟩
    (f32_rt.gopt (fun v (s : GameData) => { s with stereo_zero_parallax_displacement := v }) (fun _ _ => trivial) rfl rfl) rfl ?_
  refine .segTo ⟨s.toGDView, s.toGDScreens, ⟨s.override_physics, s.override_physics_flipper, s.gravity, s.friction, s.elasticity, s.elastic_falloff, s.scatter, s.default_scatter, s.nudge_time, s.plunger_normalize, s.plunger_filter, s.physics_max_loops, s.render_em_reels, s.render_decals, s.offset_x, s.offset_y, s.zoom, s.angle_tilt_max, s.angle_tilt_min, s.stereo_max_separation, s.stereo_zero_parallax_displacement, s.stereo_offset, GameData.default.overwrite_global_stereo3d⟩, GameData.default.toGDLook, GameData.default.toGDRender, GameData.default.toGDContent⟩
    (f32_rt.gopt (fun v (s : GameData) => { s with stereo_offset := v }) (fun _ _ => trivial) rfl rfl) rfl ?_
  refine .segTo ⟨s.toGDView, s.toGDScreens, ⟨s.override_physics, s.override_physics_flipper, s.gravity, s.friction, s.elasticity, s.elastic_falloff, s.scatter, s.default_scatter, s.nudge_time, s.plunger_normalize, s.plunger_filter, s.physics_max_loops, s.render_em_reels, s.render_decals, s.offset_x, s.offset_y, s.zoom, s.angle_tilt_max, s.angle_tilt_min, s.stereo_max_separation, s.stereo_zero_parallax_displacement, s.stereo_offset, s.overwrite_global_stereo3d⟩, GameData.default.toGDLook, GameData.default.toGDRender, GameData.default.toGDContent⟩
    (bool_rt.gopt (fun v (s : GameData) => { s with overwrite_global_stereo3d := v }) (fun _ _ => trivial) rfl rfl) rfl ?_
  exact .done rfl

theorem GameData.readsD {v : UInt32} {s : GameData} (h : s.Fields) :
    GReads v s.opsD
    ⟨s.toGDView, s.toGDScreens, s.toGDPhysics, ⟨GameData.default.image, GameData.default.backglass_image_full_desktop, GameData.default.backglass_image_full_fullscreen, GameData.default.backglass_image_full_single_screen, GameData.default.image_backdrop_night_day, GameData.default.image_color_grade, GameData.default.ball_image, GameData.default.ball_spherical_mapping, GameData.default.ball_image_front, GameData.default.env_image, GameData.default.notes, GameData.default.screen_shot, GameData.default.display_backdrop, GameData.default.glass_top_height, GameData.default.glass_bottom_height, GameData.default.table_height, GameData.default.playfield_material, GameData.default.backdrop_color, GameData.default.global_difficulty, GameData.default.light_ambient, GameData.default.light0_emission, GameData.default.light_height, GameData.default.light_range, GameData.default.light_emission_scale, GameData.default.env_emission_scale, GameData.default.global_emission_scale, GameData.default.ao_scale, GameData.default.ssr_scale, GameData.default.ground_to_lockbar_height⟩, GameData.default.toGDRender, GameData.default.toGDContent⟩
    ⟨s.toGDView, s.toGDScreens, s.toGDPhysics, ⟨s.image, s.backglass_image_full_desktop, s.backglass_image_full_fullscreen, s.backglass_image_full_single_screen, s.image_backdrop_night_day, s.image_color_grade, s.ball_image, s.ball_spherical_mapping, s.ball_image_front, s.env_image, s.notes, s.screen_shot, s.display_backdrop, s.glass_top_height, s.glass_bottom_height, s.table_height, s.playfield_material, s.backdrop_color, s.global_difficulty, s.light_ambient, s.light0_emission, s.light_height, s.light_range, s.light_emission_scale, s.env_emission_scale, s.global_emission_scale, s.ao_scale, s.ssr_scale, s.ground_to_lockbar_height⟩, GameData.default.toGDRender, GameData.default.toGDContent⟩ := by
  unfold GameData.opsD
  refine .segTo ⟨s.toGDView, s.toGDScreens, s.toGDPhysics, ⟨s.image, GameData.default.backglass_image_full_desktop, GameData.default.backglass_image_full_fullscreen, GameData.default.backglass_image_full_single_screen, GameData.default.image_backdrop_night_day, GameData.default.image_color_grade, GameData.default.ball_image, GameData.default.ball_spherical_mapping, GameData.default.ball_image_front, GameData.default.env_image, GameData.default.notes, GameData.default.screen_shot, GameData.default.display_backdrop, GameData.default.glass_top_height, GameData.default.glass_bottom_height, GameData.default.table_height, GameData.default.playfield_material, GameData.default.backdrop_color, GameData.default.global_difficulty, GameData.default.light_ambient, GameData.default.light0_emission, GameData.default.light_height, GameData.default.light_range, GameData.default.light_emission_scale, GameData.default.env_emission_scale, GameData.default.global_emission_scale, GameData.default.ao_scale, GameData.default.ssr_scale, GameData.default.ground_to_lockbar_height⟩, GameData.default.toGDRender, GameData.default.toGDContent⟩
    (string_rt.greq (fun v (s : GameData) => { s with image := v }) (h.1) rfl) rfl ?_
  refine .segTo ⟨s.toGDView, s.toGDScreens, s.toGDPhysics, ⟨s.image, s.backglass_image_full_desktop, GameData.default.backglass_image_full_fullscreen, GameData.default.backglass_image_full_single_screen, GameData.default.image_backdrop_night_day, GameData.default.image_color_grade, GameData.default.ball_image, GameData.default.ball_spherical_mapping, GameData.default.ball_image_front, GameData.default.env_image, GameData.default.notes, GameData.default.screen_shot, GameData.default.display_backdrop, GameData.default.glass_top_height, GameData.default.glass_bottom_height, GameData.default.table_height, GameData.default.playfield_material, GameData.default.backdrop_color, GameData.default.global_difficulty, GameData.default.light_ambient, GameData.default.light0_emission, GameData.default.light_height, GameData.default.light_range, GameData.default.light_emission_scale, GameData.default.env_emission_scale, GameData.default.global_emission_scale, GameData.default.ao_scale, GameData.default.ssr_scale, GameData.default.ground_to_lockbar_height⟩, GameData.default.toGDRender, GameData.default.toGDContent⟩
    (string_rt.greq (fun v (s : GameData) => { s with backglass_image_full_desktop := v }) (h.2.1) rfl) rfl ?_
  refine .segTo ⟨s.toGDView, s.toGDScreens, s.toGDPhysics, ⟨s.image, s.backglass_image_full_desktop, s.backglass_image_full_fullscreen, GameData.default.backglass_image_full_single_screen, GameData.default.image_backdrop_night_day, GameData.default.image_color_grade, GameData.default.ball_image, GameData.default.ball_spherical_mapping, GameData.default.ball_image_front, GameData.default.env_image, GameData.default.notes, GameData.default.screen_shot, GameData.default.display_backdrop, GameData.default.glass_top_height, GameData.default.glass_bottom_height, GameData.default.table_height, GameData.default.playfield_material, GameData.default.backdrop_color, GameData.default.global_difficulty, GameData.default.light_ambient, GameData.default.light0_emission, GameData.default.light_height, GameData.default.light_range, GameData.default.light_emission_scale, GameData.default.env_emission_scale, GameData.default.global_emission_scale, GameData.default.ao_scale, GameData.default.ssr_scale, GameData.default.ground_to_lockbar_height⟩, GameData.default.toGDRender, GameData.default.toGDContent⟩
    (string_rt.greq (fun v (s : GameData) => { s with backglass_image_full_fullscreen := v }) (h.2.2.1) rfl) rfl ?_
  refine .segTo ⟨s.toGDView, s.toGDScreens, s.toGDPhysics, ⟨s.image, s.backglass_image_full_desktop, s.backglass_image_full_fullscreen, s.backglass_image_full_single_screen, GameData.default.image_backdrop_night_day, GameData.default.image_color_grade, GameData.default.ball_image, GameData.default.ball_spherical_mapping, GameData.default.ball_image_front, GameData.default.env_image, GameData.default.notes, GameData.default.screen_shot, GameData.default.display_backdrop, GameData.default.glass_top_height, GameData.default.glass_bottom_height, GameData.default.table_height, GameData.default.playfield_material, GameData.default.backdrop_color, GameData.default.global_difficulty, GameData.default.light_ambient, GameData.default.light0_emission, GameData.default.light_height, GameData.default.light_range, GameData.default.light_emission_scale, GameData.default.env_emission_scale, GameData.default.global_emission_scale, GameData.default.ao_scale, GameData.default.ssr_scale, GameData.default.ground_to_lockbar_height⟩, GameData.default.toGDRender, GameData.default.toGDContent⟩
    (string_rt.gopt (fun v (s : GameData) => { s with backglass_image_full_single_screen := v }) (h.2.2.2.1) rfl rfl) rfl ?_
  refine .segTo ⟨s.toGDView, s.toGDScreens, s.toGDPhysics, ⟨s.image, s.backglass_image_full_desktop, s.backglass_image_full_fullscreen, s.backglass_image_full_single_screen, s.image_backdrop_night_day, GameData.default.image_color_grade, GameData.default.ball_image, GameData.default.ball_spherical_mapping, GameData.default.ball_image_front, GameData.default.env_image, GameData.default.notes, GameData.default.screen_shot, GameData.default.display_backdrop, GameData.default.glass_top_height, GameData.default.glass_bottom_height, GameData.default.table_height, GameData.default.playfield_material, GameData.default.backdrop_color, GameData.default.global_difficulty, GameData.default.light_ambient, GameData.default.light0_emission, GameData.default.light_height, GameData.default.light_range, GameData.default.light_emission_scale, GameData.default.env_emission_scale, GameData.default.global_emission_scale, GameData.default.ao_scale, GameData.default.ssr_scale, GameData.default.ground_to_lockbar_height⟩, GameData.default.toGDRender, GameData.default.toGDContent⟩
    (bool_rt.greq (fun v (s : GameData) => { s with image_backdrop_night_day := v }) trivial rfl) rfl ?_
  refine .segTo ⟨s.toGDView, s.toGDScreens, s.toGDPhysics, ⟨s.image, s.backglass_image_full_desktop, s.backglass_image_full_fullscreen, s.backglass_image_full_single_screen, s.image_backdrop_night_day, s.image_color_grade, GameData.default.ball_image, GameData.default.ball_spherical_mapping, GameData.default.ball_image_front, GameData.default.env_image, GameData.default.notes, GameData.default.screen_shot, GameData.default.display_backdrop, GameData.default.glass_top_height, GameData.default.glass_bottom_height, GameData.default.table_height, GameData.default.playfield_material, GameData.default.backdrop_color, GameData.default.global_difficulty, GameData.default.light_ambient, GameData.default.light0_emission, GameData.default.light_height, GameData.default.light_range, GameData.default.light_emission_scale, GameData.default.env_emission_scale, GameData.default.global_emission_scale, GameData.default.ao_scale, GameData.default.ssr_scale, GameData.default.ground_to_lockbar_height⟩, GameData.default.toGDRender, GameData.default.toGDContent⟩
    (string_rt.greq (fun v (s : GameData) => { s with image_color_grade := v }) (h.2.2.2.2.1) rfl) rfl ?_
  refine .segTo ⟨s.toGDView, s.toGDScreens, s.toGDPhysics, ⟨s.image, s.backglass_image_full_desktop, s.backglass_image_full_fullscreen, s.backglass_image_full_single_screen, s.image_backdrop_night_day, s.image_color_grade, s.ball_image, GameData.default.ball_spherical_mapping, GameData.default.ball_image_front, GameData.default.env_image, GameData.default.notes, GameData.default.screen_shot, GameData.default.display_backdrop, GameData.default.glass_top_height, GameData.default.glass_bottom_height, GameData.default.table_height, GameData.default.playfield_material, GameData.default.backdrop_color, GameData.default.global_difficulty, GameData.default.light_ambient, GameData.default.light0_emission, GameData.default.light_height, GameData.default.light_range, GameData.default.light_emission_scale, GameData.default.env_emission_scale, GameData.default.global_emission_scale, GameData.default.ao_scale, GameData.default.ssr_scale, GameData.default.ground_to_lockbar_height⟩, GameData.default.toGDRender, GameData.default.toGDContent⟩
    (string_rt.greq (fun v (s : GameData) => { s with ball_image := v }) (h.2.2.2.2.2.1) rfl) rfl ?_
  refine .segTo ⟨s.toGDView, s.toGDScreens, s.toGDPhysics, ⟨s.image, s.backglass_image_full_desktop, s.backglass_image_full_fullscreen, s.backglass_image_full_single_screen, s.image_backdrop_night_day, s.image_color_grade, s.ball_image, s.ball_spherical_mapping, GameData.default.ball_image_front, GameData.default.env_image, GameData.default.notes, GameData.default.screen_shot, GameData.default.display_backdrop, GameData.default.glass_top_height, GameData.default.glass_bottom_height, GameData.default.table_height, GameData.default.playfield_material, GameData.default.backdrop_color, GameData.default.global_difficulty, GameData.default.light_ambient, GameData.default.light0_emission, GameData.default.light_height, GameData.default.light_range, GameData.default.light_emission_scale, GameData.default.env_emission_scale, GameData.default.global_emission_scale, GameData.default.ao_scale, GameData.default.ssr_scale, GameData.default.ground_to_lockbar_height⟩, GameData.default.toGDRender, GameData.default.toGDContent⟩
    (bool_rt.gopt (fun v (s : GameData) => { s with ball_spherical_mapping := v }) (fun _ _ => trivial) rfl rfl) rfl ?_
  refine .segTo ⟨s.toGDView, s.toGDScreens, s.toGDPhysics, ⟨s.image, s.backglass_image_full_desktop, s.backglass_image_full_fullscreen, s.backglass_image_full_single_screen, s.image_backdrop_night_day, s.image_color_grade, s.ball_image, s.ball_spherical_mapping, s.ball_image_front, GameData.default.env_image, GameData.default.notes, GameData.default.screen_shot, GameData.default.display_backdrop, GameData.default.glass_top_height, GameData.default.glass_bottom_height, GameData.default.table_height, GameData.default.playfield_material, GameData.default.backdrop_color, GameData.default.global_difficulty, GameData.default.light_ambient, GameData.default.light0_emission, GameData.default.light_height, GameData.default.light_range, GameData.default.light_emission_scale, GameData.default.env_emission_scale, GameData.default.global_emission_scale, GameData.default.ao_scale, GameData.default.ssr_scale, GameData.default.ground_to_lockbar_height⟩, GameData.default.toGDRender, GameData.default.toGDContent⟩
    (string_rt.greq (fun v (s : GameData) => { s with ball_image_front := v }) (h.2.2.2.2.2.2.1) rfl) rfl ?_
  refine .segTo ⟨s.toGDView, s.toGDScreens, s.toGDPhysics, ⟨s.image, s.backglass_image_full_desktop, s.backglass_image_full_fullscreen, s.backglass_image_full_single_screen, s.image_backdrop_night_day, s.image_color_grade, s.ball_image, s.ball_spherical_mapping, s.ball_image_front, s.env_image, GameData.default.notes, GameData.default.screen_shot, GameData.default.display_backdrop, GameData.default.glass_top_height, GameData.default.glass_bottom_height, GameData.default.table_height, GameData.default.playfield_material, GameData.default.backdrop_color, GameData.default.global_difficulty, GameData.default.light_ambient, GameData.default.light0_emission, GameData.default.light_height, GameData.default.light_range, GameData.default.light_emission_scale, GameData.default.env_emission_scale, GameData.default.global_emission_scale, GameData.default.ao_scale, GameData.default.ssr_scale, GameData.default.ground_to_lockbar_height⟩, GameData.default.toGDRender, GameData.default.toGDContent⟩
    (string_rt.gopt (fun v (s : GameData) => { s with env_image := v }) (h.2.2.2.2.2.2.2.1) rfl rfl) rfl ?_
  refine .segTo ⟨s.toGDView, s.toGDScreens, s.toGDPhysics, ⟨s.image, s.backglass_image_full_desktop, s.backglass_image_full_fullscreen, s.backglass_image_full_single_screen, s.image_backdrop_night_day, s.image_color_grade, s.ball_image, s.ball_spherical_mapping, s.ball_image_front, s.env_image, s.notes, GameData.default.screen_shot, GameData.default.display_backdrop, GameData.default.glass_top_height, GameData.default.glass_bottom_height, GameData.default.table_height, GameData.default.playfield_material, GameData.default.backdrop_color, GameData.default.global_difficulty, GameData.default.light_ambient, GameData.default.light0_emission, GameData.default.light_height, GameData.default.light_range, GameData.default.light_emission_scale, GameData.default.env_emission_scale, GameData.default.global_emission_scale, GameData.default.ao_scale, GameData.default.ssr_scale, GameData.default.ground_to_lockbar_height⟩, GameData.default.toGDRender, GameData.default.toGDContent⟩
    (string_rt.gopt (fun v (s : GameData) => { s with notes := v }) (h.2.2.2.2.2.2.2.2.1) rfl rfl) rfl ?_
  refine .segTo ⟨s.toGDView, s.toGDScreens, s.toGDPhysics, ⟨s.image, s.backglass_image_full_desktop, s.backglass_image_full_fullscreen, s.backglass_image_full_single_screen, s.image_backdrop_night_day, s.image_color_grade, s.ball_image, s.ball_spherical_mapping, s.ball_image_front, s.env_image, s.notes, s.screen_shot, GameData.default.display_backdrop, GameData.default.glass_top_height, GameData.default.glass_bottom_height, GameData.default.table_height, GameData.default.playfield_material, GameData.default.backdrop_color, GameData.default.global_difficulty, GameData.default.light_ambient, GameData.default.light0_emission, GameData.default.light_height, GameData.default.light_range, GameData.default.light_emission_scale, GameData.default.env_emission_scale, GameData.default.global_emission_scale, GameData.default.ao_scale, GameData.default.ssr_scale, GameData.default.ground_to_lockbar_height⟩, GameData.default.toGDRender, GameData.default.toGDContent⟩
    (string_rt.greq (fun v (s : GameData) => { s with screen_shot := v }) (h.2.2.2.2.2.2.2.2.2.1) rfl) rfl ?_
  refine .segTo ⟨s.toGDView, s.toGDScreens, s.toGDPhysics, ⟨s.image, s.backglass_image_full_desktop, s.backglass_image_full_fullscreen, s.backglass_image_full_single_screen, s.image_backdrop_night_day, s.image_color_grade, s.ball_image, s.ball_spherical_mapping, s.ball_image_front, s.env_image, s.notes, s.screen_shot, s.display_backdrop, GameData.default.glass_top_height, GameData.default.glass_bottom_height, GameData.default.table_height, GameData.default.playfield_material, GameData.default.backdrop_color, GameData.default.global_difficulty, GameData.default.light_ambient, GameData.default.light0_emission, GameData.default.light_height, GameData.default.light_range, GameData.default.light_emission_scale, GameData.default.env_emission_scale, GameData.default.global_emission_scale, GameData.default.ao_scale, GameData.default.ssr_scale, GameData.default.ground_to_lockbar_height⟩, GameData.default.toGDRender, GameData.default.toGDContent⟩
    (bool_rt.greq (fun v (s : GameData) => { s with display_backdrop := v }) trivial rfl) rfl ?_
  refine .segTo ⟨s.toGDView, s.toGDScreens, s.toGDPhysics, ⟨s.image, s.backglass_image_full_desktop, s.backglass_image_full_fullscreen, s.backglass_image_full_single_screen, s.image_backdrop_night_day, s.image_color_grade, s.ball_image, s.ball_spherical_mapping, s.ball_image_front, s.env_image, s.notes, s.screen_shot, s.display_backdrop, s.glass_top_height, GameData.default.glass_bottom_height, GameData.default.table_height, GameData.default.playfield_material, GameData.default.backdrop_color, GameData.default.global_difficulty, GameData.default.light_ambient, GameData.default.light0_emission, GameData.default.light_height, GameData.default.light_range, GameData.default.light_emission_scale, GameData.default.env_emission_scale, GameData.default.global_emission_scale, GameData.default.ao_scale, GameData.default.ssr_scale, GameData.default.ground_to_lockbar_height⟩, GameData.default.toGDRender, GameData.default.toGDContent⟩
    (f32_rt.greq (fun v (s : GameData) => { s with glass_top_height := v }) trivial rfl) rfl ?_
  refine .segTo ⟨s.toGDView, s.toGDScreens, s.toGDPhysics, ⟨s.image, s.backglass_image_full_desktop, s.backglass_image_full_fullscreen, s.backglass_image_full_single_screen, s.image_backdrop_night_day, s.image_color_grade, s.ball_image, s.ball_spherical_mapping, s.ball_image_front, s.env_image, s.notes, s.screen_shot, s.display_backdrop, s.glass_top_height, s.glass_bottom_height, GameData.default.table_height, GameData.default.playfield_material, GameData.default.backdrop_color, GameData.default.global_difficulty, GameData.default.light_ambient, GameData.default.light0_emission, GameData.default.light_height, GameData.default.light_range, GameData.default.light_emission_scale, GameData.default.env_emission_scale, GameData.default.global_emission_scale, GameData.default.ao_scale, GameData.default.ssr_scale, GameData.default.ground_to_lockbar_height⟩, GameData.default.toGDRender, GameData.default.toGDContent⟩
    (f32_rt.gopt (fun v (s : GameData) => { s with glass_bottom_height := v }) (fun _ _ => trivial) rfl rfl) rfl ?_
  refine .segTo ⟨s.toGDView, s.toGDScreens, s.toGDPhysics, ⟨s.image, s.backglass_image_full_desktop, s.backglass_image_full_fullscreen, s.backglass_image_full_single_screen, s.image_backdrop_night_day, s.image_color_grade, s.ball_image, s.ball_spherical_mapping, s.ball_image_front, s.env_image, s.notes, s.screen_shot, s.display_backdrop, s.glass_top_height, s.glass_bottom_height, s.table_height, GameData.default.playfield_material, GameData.default.backdrop_color, GameData.default.global_difficulty, GameData.default.light_ambient, GameData.default.light0_emission, GameData.default.light_height, GameData.default.light_range, GameData.default.light_emission_scale, GameData.default.env_emission_scale, GameData.default.global_emission_scale, GameData.default.ao_scale, GameData.default.ssr_scale, GameData.default.ground_to_lockbar_height⟩, GameData.default.toGDRender, GameData.default.toGDContent⟩
    (f32_rt.gopt (fun v (s : GameData) => { s with table_height := v }) (fun _ _ => trivial) rfl rfl) rfl ?_
  refine .segTo ⟨s.toGDView, s.toGDScreens, s.toGDPhysics, ⟨s.image, s.backglass_image_full_desktop, s.backglass_image_full_fullscreen, s.backglass_image_full_single_screen, s.image_backdrop_night_day, s.image_color_grade, s.ball_image, s.ball_spherical_mapping, s.ball_image_front, s.env_image, s.notes, s.screen_shot, s.display_backdrop, s.glass_top_height, s.glass_bottom_height, s.table_height, s.playfield_material, GameData.default.backdrop_color, GameData.default.global_difficulty, GameData.default.light_ambient, GameData.default.light0_emission, GameData.default.light_height, GameData.default.light_range, GameData.default.light_emission_scale, GameData.default.env_emission_scale, GameData.default.global_emission_scale, GameData.default.ao_scale, GameData.default.ssr_scale, GameData.default.ground_to_lockbar_height⟩, GameData.default.toGDRender, GameData.default.toGDContent⟩
    (string_rt.greq (fun v (s : GameData) => { s with playfield_material := v }) (h.2.2.2.2.2.2.2.2.2.2.1) rfl) rfl ?_
  refine .segTo ⟨s.toGDView, s.toGDScreens, s.toGDPhysics, ⟨s.image, s.backglass_image_full_desktop, s.backglass_image_full_fullscreen, s.backglass_image_full_single_screen, s.image_backdrop_night_day, s.image_color_grade, s.ball_image, s.ball_spherical_mapping, s.ball_image_front, s.env_image, s.notes, s.screen_shot, s.display_backdrop, s.glass_top_height, s.glass_bottom_height, s.table_height, s.playfield_material, s.backdrop_color, GameData.default.global_difficulty, GameData.default.light_ambient, GameData.default.light0_emission, GameData.default.light_height, GameData.default.light_range, GameData.default.light_emission_scale, GameData.default.env_emission_scale, GameData.default.global_emission_scale, GameData.default.ao_scale, GameData.default.ssr_scale, GameData.default.ground_to_lockbar_height⟩, GameData.default.toGDRender, GameData.default.toGDContent⟩
    (color_rt.greq (fun v (s : GameData) => { s with backdrop_color := v }) trivial rfl) rfl ?_
  refine .segTo ⟨s.toGDView, s.toGDScreens, s.toGDPhysics, ⟨s.image, s.backglass_image_full_desktop, s.backglass_image_full_fullscreen, s.backglass_image_full_single_screen, s.image_backdrop_night_day, s.image_color_grade, s.ball_image, s.ball_spherical_mapping, s.ball_image_front, s.env_image, s.notes, s.screen_shot, s.display_backdrop, s.glass_top_height, s.glass_bottom_height, s.table_height, s.playfield_material, s.backdrop_color, s.global_difficulty, GameData.default.light_ambient, GameData.default.light0_emission, GameData.default.light_height, GameData.default.light_range, GameData.default.light_emission_scale, GameData.default.env_emission_scale, GameData.default.global_emission_scale, GameData.default.ao_scale, GameData.default.ssr_scale, GameData.default.ground_to_lockbar_height⟩, GameData.default.toGDRender, GameData.default.toGDContent⟩
    (f32_rt.greq (fun v (s : GameData) => { s with global_difficulty := v }) trivial rfl) rfl ?_
  refine .segTo ⟨s.toGDView, s.toGDScreens, s.toGDPhysics, ⟨s.image, s.backglass_image_full_desktop, s.backglass_image_full_fullscreen, s.backglass_image_full_single_screen, s.image_backdrop_night_day, s.image_color_grade, s.ball_image, s.ball_spherical_mapping, s.ball_image_front, s.env_image, s.notes, s.screen_shot, s.display_backdrop, s.glass_top_height, s.glass_bottom_height, s.table_height, s.playfield_material, s.backdrop_color, s.global_difficulty, s.light_ambient, GameData.default.light0_emission, GameData.default.light_height, GameData.default.light_range, GameData.default.light_emission_scale, GameData.default.env_emission_scale, GameData.default.global_emission_scale, GameData.default.ao_scale, GameData.default.ssr_scale, GameData.default.ground_to_lockbar_height⟩, GameData.default.toGDRender, GameData.default.toGDContent⟩
    (color_rt.greq (fun v (s : GameData) => { s with light_ambient := v }) trivial rfl) rfl ?_
  refine .segTo ⟨s.toGDView, s.toGDScreens, s.toGDPhysics, ⟨s.image, s.backglass_image_full_desktop, s.backglass_image_full_fullscreen, s.backglass_image_full_single_screen, s.image_backdrop_night_day, s.image_color_grade, s.ball_image, s.ball_spherical_mapping, s.ball_image_front, s.env_image, s.notes, s.screen_shot, s.display_backdrop, s.glass_top_height, s.glass_bottom_height, s.table_height, s.playfield_material, s.backdrop_color, s.global_difficulty, s.light_ambient, s.light0_emission, GameData.default.light_height, GameData.default.light_range, GameData.default.light_emission_scale, GameData.default.env_emission_scale, GameData.default.global_emission_scale, GameData.default.ao_scale, GameData.default.ssr_scale, GameData.default.ground_to_lockbar_height⟩, GameData.default.toGDRender, GameData.default.toGDContent⟩
    (color_rt.greq (fun v (s : GameData) => { s with light0_emission := v }) trivial rfl) rfl ?_
  refine .segTo ⟨s.toGDView, s.toGDScreens, s.toGDPhysics, ⟨s.image, s.backglass_image_full_desktop, s.backglass_image_full_fullscreen, s.backglass_image_full_single_screen, s.image_backdrop_night_day, s.image_color_grade, s.ball_image, s.ball_spherical_mapping, s.ball_image_front, s.env_image, s.notes, s.screen_shot, s.display_backdrop, s.glass_top_height, s.glass_bottom_height, s.table_height, s.playfield_material, s.backdrop_color, s.global_difficulty, s.light_ambient, s.light0_emission, s.light_height, GameData.default.light_range, GameData.default.light_emission_scale, GameData.default.env_emission_scale, GameData.default.global_emission_scale, GameData.default.ao_scale, GameData.default.ssr_scale, GameData.default.ground_to_lockbar_height⟩, GameData.default.toGDRender, GameData.default.toGDContent⟩
    (f32_rt.greq (fun v (s : GameData) => { s with light_height := v }) trivial rfl) rfl ?_
  refine .segTo ⟨s.toGDView, s.toGDScreens, s.toGDPhysics, ⟨s.image, s.backglass_image_full_desktop, s.backglass_image_full_fullscreen, s.backglass_image_full_single_screen, s.image_backdrop_night_day, s.image_color_grade, s.ball_image, s.ball_spherical_mapping, s.ball_image_front, s.env_image, s.notes, s.screen_shot, s.display_backdrop, s.glass_top_height, s.glass_bottom_height, s.table_height, s.playfield_material, s.backdrop_color, s.global_difficulty, s.light_ambient, s.light0_emission, s.light_height, s.light_range, GameData.default.light_emission_scale, GameData.default.env_emission_scale, GameData.default.global_emission_scale, GameData.default.ao_scale, GameData.default.ssr_scale, GameData.default.ground_to_lockbar_height⟩, GameData.default.toGDRender, GameData.default.toGDContent⟩
    (f32_rt.greq (fun v (s : GameData) => { s with light_range := v }) trivial rfl) rfl ?_
  refine .segTo ⟨s.toGDView, s.toGDScreens, s.toGDPhysics, ⟨s.image, s.backglass_image_full_desktop, s.backglass_image_full_fullscreen, s.backglass_image_full_single_screen, s.image_backdrop_night_day, s.image_color_grade, s.ball_image, s.ball_spherical_mapping, s.ball_image_front, s.env_image, s.notes, s.screen_shot, s.display_backdrop, s.glass_top_height, s.glass_bottom_height, s.table_height, s.playfield_material, s.backdrop_color, s.global_difficulty, s.light_ambient, s.light0_emission, s.light_height, s.light_range, s.light_emission_scale, GameData.default.env_emission_scale, GameData.default.global_emission_scale, GameData.default.ao_scale, GameData.default.ssr_scale, GameData.default.ground_to_lockbar_height⟩, GameData.default.toGDRender, GameData.default.toGDContent⟩
    (f32_rt.greq (fun v (s : GameData) => { s with light_emission_scale := v }) trivial rfl) rfl ?_
  refine .segTo ⟨s.toGDView, s.toGDScreens, s.toGDPhysics, ⟨s.image, s.backglass_image_full_desktop, s.backglass_image_full_fullscreen, s.backglass_image_full_single_screen, s.image_backdrop_night_day, s.image_color_grade, s.ball_image, s.ball_spherical_mapping, s.ball_image_front, s.env_image, s.notes, s.screen_shot, s.display_backdrop, s.glass_top_height, s.glass_bottom_height, s.table_height, s.playfield_material, s.backdrop_color, s.global_difficulty, s.light_ambient, s.light0_emission, s.light_height, s.light_range, s.light_emission_scale, s.env_emission_scale, GameData.default.global_emission_scale, GameData.default.ao_scale, GameData.default.ssr_scale, GameData.default.ground_to_lockbar_height⟩, GameData.default.toGDRender, GameData.default.toGDContent⟩
    (f32_rt.greq (fun v (s : GameData) => { s with env_emission_scale := v }) trivial rfl) rfl ?_
  refine .segTo ⟨s.toGDView, s.toGDScreens, s.toGDPhysics, ⟨s.image, s.backglass_image_full_desktop, s.backglass_image_full_fullscreen, s.backglass_image_full_single_screen, s.image_backdrop_night_day, s.image_color_grade, s.ball_image, s.ball_spherical_mapping, s.ball_image_front, s.env_image, s.notes, s.screen_shot, s.display_backdrop, s.glass_top_height, s.glass_bottom_height, s.table_height, s.playfield_material, s.backdrop_color, s.global_difficulty, s.light_ambient, s.light0_emission, s.light_height, s.light_range, s.light_emission_scale, s.env_emission_scale, s.global_emission_scale, GameData.default.ao_scale, GameData.default.ssr_scale, GameData.default.ground_to_lockbar_height⟩, GameData.default.toGDRender, GameData.default.toGDContent⟩
    (f32_rt.greq (fun v (s : GameData) => { s with global_emission_scale := v }) trivial rfl) rfl ?_
  refine .segTo ⟨s.toGDView, s.toGDScreens, s.toGDPhysics, ⟨s.image, s.backglass_image_full_desktop, s.backglass_image_full_fullscreen, s.backglass_image_full_single_screen, s.image_backdrop_night_day, s.image_color_grade, s.ball_image, s.ball_spherical_mapping, s.ball_image_front, s.env_image, s.notes, s.screen_shot, s.display_backdrop, s.glass_top_height, s.glass_bottom_height, s.table_height, s.playfield_material, s.backdrop_color, s.global_difficulty, s.light_ambient, s.light0_emission, s.light_height, s.light_range, s.light_emission_scale, s.env_emission_scale, s.global_emission_scale, s.ao_scale, GameData.default.ssr_scale, GameData.default.ground_to_lockbar_height⟩, GameData.default.toGDRender, GameData.default.toGDContent⟩
    (f32_rt.greq (fun v (s : GameData) => { s with ao_scale := v }) trivial rfl) rfl ?_
  refine .segTo ⟨s.toGDView, s.toGDScreens, s.toGDPhysics, ⟨s.image, s.backglass_image_full_desktop, s.backglass_image_full_fullscreen, s.backglass_image_full_single_screen, s.image_backdrop_night_day, s.image_color_grade, s.ball_image, s.ball_spherical_mapping, s.ball_image_front, s.env_image, s.notes, s.screen_shot, s.display_backdrop, s.glass_top_height, s.glass_bottom_height, s.table_height, s.playfield_material, s.backdrop_color, s.global_difficulty, s.light_ambient, s.light0_emission, s.light_height, s.light_range, s.light_emission_scale, s.env_emission_scale, s.global_emission_scale, s.ao_scale, s.ssr_scale, GameData.default.ground_to_lockbar_height⟩, GameData.default.toGDRender, GameData.default.toGDContent⟩
    (f32_rt.gopt (fun v (s : GameData) => { s with ssr_scale := v }) (fun _ _ => trivial) rfl rfl) rfl ?_
  refine .segTo ⟨s.toGDView, s.toGDScreens, s.toGDPhysics, ⟨s.image, s.backglass_image_full_desktop, s.backglass_image_full_fullscreen, s.backglass_image_full_single_screen, s.image_backdrop_night_day, s.image_color_grade, s.ball_image, s.ball_spherical_mapping, s.ball_image_front, s.env_image, s.notes, s.screen_shot, s.display_backdrop, s.glass_top_height, s.glass_bottom_height, s.table_height, s.playfield_material, s.backdrop_color, s.global_difficulty, s.light_ambient, s.light0_emission, s.light_height, s.light_range, s.light_emission_scale, s.env_emission_scale, s.global_emission_scale, s.ao_scale, s.ssr_scale, s.ground_to_lockbar_height⟩, GameData.default.toGDRender, GameData.default.toGDContent⟩
    (f32_rt.gopt (fun v (s : GameData) => { s with ground_to_lockbar_height := v }) (fun _ _ => trivial) rfl rfl) rfl ?_
  exact .done rfl

theorem GameData.readsE {v : UInt32} {s : GameData} (h : s.Fields) :
    GReads v s.opsE
    ⟨s.toGDView, s.toGDScreens, s.toGDPhysics, s.toGDLook, ⟨GameData.default.table_sound_volume, GameData.default.table_music_volume, GameData.default.table_adaptive_vsync, GameData.default.use_reflection_for_balls, GameData.default.brst, GameData.default.playfield_reflection_strength, GameData.default.use_trail_for_balls, GameData.default.ball_decal_mode, GameData.default.ball_playfield_reflection_strength, GameData.default.default_bulb_intensity_scale_on_ball, GameData.default.ball_trail_strength, GameData.default.user_detail_level, GameData.default.overwrite_global_detail_level, GameData.default.overwrite_global_day_night, GameData.default.show_grid, GameData.default.reflect_elements_on_playfield, GameData.default.use_aal, GameData.default.use_fxaa, GameData.default.use_ao, GameData.default.use_ssr, GameData.default.tone_mapper, GameData.default.exposure, GameData.default.bloom_strength⟩, GameData.default.toGDContent⟩
    ⟨s.toGDView, s.toGDScreens, s.toGDPhysics, s.toGDLook, ⟨s.table_sound_volume, s.table_music_volume, s.table_adaptive_vsync, s.use_reflection_for_balls, s.brst, s.playfield_reflection_strength, s.use_trail_for_balls, s.ball_decal_mode, s.ball_playfield_reflection_strength, s.default_bulb_intensity_scale_on_ball, s.ball_trail_strength, s.user_detail_level, s.overwrite_global_detail_level, s.overwrite_global_day_night, s.show_grid, s.reflect_elements_on_playfield, s.use_aal, s.use_fxaa, s.use_ao, s.use_ssr, s.tone_mapper, s.exposure, s.bloom_strength⟩, GameData.default.toGDContent⟩ := by
  unfold GameData.opsE
  refine .segTo ⟨s.toGDView, s.toGDScreens, s.toGDPhysics, s.toGDLook, ⟨s.table_sound_volume, GameData.default.table_music_volume, GameData.default.table_adaptive_vsync, GameData.default.use_reflection_for_balls, GameData.default.brst, GameData.default.playfield_reflection_strength, GameData.default.use_trail_for_balls, GameData.default.ball_decal_mode, GameData.default.ball_playfield_reflection_strength, GameData.default.default_bulb_intensity_scale_on_ball, GameData.default.ball_trail_strength, GameData.default.user_detail_level, GameData.default.overwrite_global_detail_level, GameData.default.overwrite_global_day_night, GameData.default.show_grid, GameData.default.reflect_elements_on_playfield, GameData.default.use_aal, GameData.default.use_fxaa, GameData.default.use_ao, GameData.default.use_ssr, GameData.default.tone_mapper, GameData.default.exposure, GameData.default.bloom_strength⟩, GameData.default.toGDContent⟩
    (f32_rt.greq (fun v (s : GameData) => { s with table_sound_volume := v }) trivial rfl) rfl ?_
  refine .segTo ⟨s.toGDView, s.toGDScreens, s.toGDPhysics, s.toGDLook, ⟨s.table_sound_volume, s.table_music_volume, GameData.default.table_adaptive_vsync, GameData.default.use_reflection_for_balls, GameData.default.brst, GameData.default.playfield_reflection_strength, GameData.default.use_trail_for_balls, GameData.default.ball_decal_mode, GameData.default.ball_playfield_reflection_strength, GameData.default.default_bulb_intensity_scale_on_ball, GameData.default.ball_trail_strength, GameData.default.user_detail_level, GameData.default.overwrite_global_detail_level, GameData.default.overwrite_global_day_night, GameData.default.show_grid, GameData.default.reflect_elements_on_playfield, GameData.default.use_aal, GameData.default.use_fxaa, GameData.default.use_ao, GameData.default.use_ssr, GameData.default.tone_mapper, GameData.default.exposure, GameData.default.bloom_strength⟩, GameData.default.toGDContent⟩
    (f32_rt.greq (fun v (s : GameData) => { s with table_music_volume := v }) trivial rfl) rfl ?_
  refine .segTo ⟨s.toGDView, s.toGDScreens, s.toGDPhysics, s.toGDLook, ⟨s.table_sound_volume, s.table_music_volume, s.table_adaptive_vsync, GameData.default.use_reflection_for_balls, GameData.default.brst, GameData.default.playfield_reflection_strength, GameData.default.use_trail_for_balls, GameData.default.ball_decal_mode, GameData.default.ball_playfield_reflection_strength, GameData.default.default_bulb_intensity_scale_on_ball, GameData.default.ball_trail_strength, GameData.default.user_detail_level, GameData.default.overwrite_global_detail_level, GameData.default.overwrite_global_day_night, GameData.default.show_grid, GameData.default.reflect_elements_on_playfield, GameData.default.use_aal, GameData.default.use_fxaa, GameData.default.use_ao, GameData.default.use_ssr, GameData.default.tone_mapper, GameData.default.exposure, GameData.default.bloom_strength⟩, GameData.default.toGDContent⟩
    (i32_rt.gopt (fun v (s : GameData) => { s with table_adaptive_vsync := v }) (fun _ _ => trivial) rfl rfl) rfl ?_
  refine .segTo ⟨s.toGDView, s.toGDScreens, s.toGDPhysics, s.toGDLook, ⟨s.table_sound_volume, s.table_music_volume, s.table_adaptive_vsync, s.use_reflection_for_balls, GameData.default.brst, GameData.default.playfield_reflection_strength, GameData.default.use_trail_for_balls, GameData.default.ball_decal_mode, GameData.default.ball_playfield_reflection_strength, GameData.default.default_bulb_intensity_scale_on_ball, GameData.default.ball_trail_strength, GameData.default.user_detail_level, GameData.default.overwrite_global_detail_level, GameData.default.overwrite_global_day_night, GameData.default.show_grid, GameData.default.reflect_elements_on_playfield, GameData.default.use_aal, GameData.default.use_fxaa, GameData.default.use_ao, GameData.default.use_ssr, GameData.default.tone_mapper, GameData.default.exposure, GameData.default.bloom_strength⟩, GameData.default.toGDContent⟩
    (i32_rt.gopt (fun v (s : GameData) => { s with use_reflection_for_balls := v }) (fun _ _ => trivial) rfl rfl) rfl ?_
  refine .segTo ⟨s.toGDView, s.toGDScreens, s.toGDPhysics, s.toGDLook, ⟨s.table_sound_volume, s.table_music_volume, s.table_adaptive_vsync, s.use_reflection_for_balls, s.brst, GameData.default.playfield_reflection_strength, GameData.default.use_trail_for_balls, GameData.default.ball_decal_mode, GameData.default.ball_playfield_reflection_strength, GameData.default.default_bulb_intensity_scale_on_ball, GameData.default.ball_trail_strength, GameData.default.user_detail_level, GameData.default.overwrite_global_detail_level, GameData.default.overwrite_global_day_night, GameData.default.show_grid, GameData.default.reflect_elements_on_playfield, GameData.default.use_aal, GameData.default.use_fxaa, GameData.default.use_ao, GameData.default.use_ssr, GameData.default.tone_mapper, GameData.default.exposure, GameData.default.bloom_strength⟩, GameData.default.toGDContent⟩
    (i32_rt.gopt (fun v (s : GameData) => { s with brst := v }) (fun _ _ => trivial) rfl rfl) rfl ?_
  refine .segTo ⟨s.toGDView, s.toGDScreens, s.toGDPhysics, s.toGDLook, ⟨s.table_sound_volume, s.table_music_volume, s.table_adaptive_vsync, s.use_reflection_for_balls, s.brst, s.playfield_reflection_strength, GameData.default.use_trail_for_balls, GameData.default.ball_decal_mode, GameData.default.ball_playfield_reflection_strength, GameData.default.default_bulb_intensity_scale_on_ball, GameData.default.ball_trail_strength, GameData.default.user_detail_level, GameData.default.overwrite_global_detail_level, GameData.default.overwrite_global_day_night, GameData.default.show_grid, GameData.default.reflect_elements_on_playfield, GameData.default.use_aal, GameData.default.use_fxaa, GameData.default.use_ao, GameData.default.use_ssr, GameData.default.tone_mapper, GameData.default.exposure, GameData.default.bloom_strength⟩, GameData.default.toGDContent⟩
    (quant8_rt.greq (fun v (s : GameData) => { s with playfield_reflection_strength := v }) (h.2.2.2.2.2.2.2.2.2.2.2.1) rfl) rfl ?_
  refine .segTo ⟨s.toGDView, s.toGDScreens, s.toGDPhysics, s.toGDLook, ⟨s.table_sound_volume, s.table_music_volume, s.table_adaptive_vsync, s.use_reflection_for_balls, s.brst, s.playfield_reflection_strength, s.use_trail_for_balls, GameData.default.ball_decal_mode, GameData.default.ball_playfield_reflection_strength, GameData.default.default_bulb_intensity_scale_on_ball, GameData.default.ball_trail_strength, GameData.default.user_detail_level, GameData.default.overwrite_global_detail_level, GameData.default.overwrite_global_day_night, GameData.default.show_grid, GameData.default.reflect_elements_on_playfield, GameData.default.use_aal, GameData.default.use_fxaa, GameData.default.use_ao, GameData.default.use_ssr, GameData.default.tone_mapper, GameData.default.exposure, GameData.default.bloom_strength⟩, GameData.default.toGDContent⟩
    (i32_rt.gopt (fun v (s : GameData) => { s with use_trail_for_balls := v }) (fun _ _ => trivial) rfl rfl) rfl ?_
  refine .segTo ⟨s.toGDView, s.toGDScreens, s.toGDPhysics, s.toGDLook, ⟨s.table_sound_volume, s.table_music_volume, s.table_adaptive_vsync, s.use_reflection_for_balls, s.brst, s.playfield_reflection_strength, s.use_trail_for_balls, s.ball_decal_mode, GameData.default.ball_playfield_reflection_strength, GameData.default.default_bulb_intensity_scale_on_ball, GameData.default.ball_trail_strength, GameData.default.user_detail_level, GameData.default.overwrite_global_detail_level, GameData.default.overwrite_global_day_night, GameData.default.show_grid, GameData.default.reflect_elements_on_playfield, GameData.default.use_aal, GameData.default.use_fxaa, GameData.default.use_ao, GameData.default.use_ssr, GameData.default.tone_mapper, GameData.default.exposure, GameData.default.bloom_strength⟩, GameData.default.toGDContent⟩
    (bool_rt.greq (fun v (s : GameData) => { s with ball_decal_mode := v }) trivial rfl) rfl ?_
  refine .segTo ⟨s.toGDView, s.toGDScreens, s.toGDPhysics, s.toGDLook, ⟨s.table_sound_volume, s.table_music_volume, s.table_adaptive_vsync, s.use_reflection_for_balls, s.brst, s.playfield_reflection_strength, s.use_trail_for_balls, s.ball_decal_mode, s.ball_playfield_reflection_strength, GameData.default.default_bulb_intensity_scale_on_ball, GameData.default.ball_trail_strength, GameData.default.user_detail_level, GameData.default.overwrite_global_detail_level, GameData.default.overwrite_global_day_night, GameData.default.show_grid, GameData.default.reflect_elements_on_playfield, GameData.default.use_aal, GameData.default.use_fxaa, GameData.default.use_ao, GameData.default.use_ssr, GameData.default.tone_mapper, GameData.default.exposure, GameData.default.bloom_strength⟩, GameData.default.toGDContent⟩
    (f32_rt.gopt (fun v (s : GameData) => { s with ball_playfield_reflection_strength := v }) (fun _ _ => trivial) rfl rfl) rfl ?_
  refine .segTo ⟨s.toGDView, s.toGDScreens, s.toGDPhysics, s.toGDLook, ⟨s.table_sound_volume, s.table_music_volume, s.table_adaptive_vsync, s.use_reflection_for_balls, s.brst, s.playfield_reflection_strength, s.use_trail_for_balls, s.ball_decal_mode, s.ball_playfield_reflection_strength, s.default_bulb_intensity_scale_on_ball, GameData.default.ball_trail_strength, GameData.default.user_detail_level, GameData.default.overwrite_global_detail_level, GameData.default.overwrite_global_day_night, GameData.default.show_grid, GameData.default.reflect_elements_on_playfield, GameData.default.use_aal, GameData.default.use_fxaa, GameData.default.use_ao, GameData.default.use_ssr, GameData.default.tone_mapper, GameData.default.exposure, GameData.default.bloom_strength⟩, GameData.default.toGDContent⟩
    (f32_rt.gopt (fun v (s : GameData) => { s with default_bulb_intensity_scale_on_ball := v }) (fun _ _ => trivial) rfl rfl) rfl ?_
  refine .segTo ⟨s.toGDView, s.toGDScreens, s.toGDPhysics, s.toGDLook, ⟨s.table_sound_volume, s.table_music_volume, s.table_adaptive_vsync, s.use_reflection_for_balls, s.brst, s.playfield_reflection_strength, s.use_trail_for_balls, s.ball_decal_mode, s.ball_playfield_reflection_strength, s.default_bulb_intensity_scale_on_ball, s.ball_trail_strength, GameData.default.user_detail_level, GameData.default.overwrite_global_detail_level, GameData.default.overwrite_global_day_night, GameData.default.show_grid, GameData.default.reflect_elements_on_playfield, GameData.default.use_aal, GameData.default.use_fxaa, GameData.default.use_ao, GameData.default.use_ssr, GameData.default.tone_mapper, GameData.default.exposure, GameData.default.bloom_strength⟩, GameData.default.toGDContent⟩
    (u32_rt.gopt (fun v (s : GameData) => { s with ball_trail_strength := v }) (fun _ _ => trivial) rfl rfl) rfl ?_
  refine .segTo ⟨s.toGDView, s.toGDScreens, s.toGDPhysics, s.toGDLook, ⟨s.table_sound_volume, s.table_music_volume, s.table_adaptive_vsync, s.use_reflection_for_balls, s.brst, s.playfield_reflection_strength, s.use_trail_for_balls, s.ball_decal_mode, s.ball_playfield_reflection_strength, s.default_bulb_intensity_scale_on_ball, s.ball_trail_strength, s.user_detail_level, GameData.default.overwrite_global_detail_level, GameData.default.overwrite_global_day_night, GameData.default.show_grid, GameData.default.reflect_elements_on_playfield, GameData.default.use_aal, GameData.default.use_fxaa, GameData.default.use_ao, GameData.default.use_ssr, GameData.default.tone_mapper, GameData.default.exposure, GameData.default.bloom_strength⟩, GameData.default.toGDContent⟩
    (u32_rt.gopt (fun v (s : GameData) => { s with user_detail_level := v }) (fun _ _ => trivial) rfl rfl) rfl ?_
  refine .segTo ⟨s.toGDView, s.toGDScreens, s.toGDPhysics, s.toGDLook, ⟨s.table_sound_volume, s.table_music_volume, s.table_adaptive_vsync, s.use_reflection_for_balls, s.brst, s.playfield_reflection_strength, s.use_trail_for_balls, s.ball_decal_mode, s.ball_playfield_reflection_strength, s.default_bulb_intensity_scale_on_ball, s.ball_trail_strength, s.user_detail_level, s.overwrite_global_detail_level, GameData.default.overwrite_global_day_night, GameData.default.show_grid, GameData.default.reflect_elements_on_playfield, GameData.default.use_aal, GameData.default.use_fxaa, GameData.default.use_ao, GameData.default.use_ssr, GameData.default.tone_mapper, GameData.default.exposure, GameData.default.bloom_strength⟩, GameData.default.toGDContent⟩
    (bool_rt.gopt (fun v (s : GameData) => { s with overwrite_global_detail_level := v }) (fun _ _ => trivial) rfl rfl) rfl ?_
  refine .segTo ⟨s.toGDView, s.toGDScreens, s.toGDPhysics, s.toGDLook, ⟨s.table_sound_volume, s.table_music_volume, s.table_adaptive_vsync, s.use_reflection_for_balls, s.brst, s.playfield_reflection_strength, s.use_trail_for_balls, s.ball_decal_mode, s.ball_playfield_reflection_strength, s.default_bulb_intensity_scale_on_ball, s.ball_trail_strength, s.user_detail_level, s.overwrite_global_detail_level, s.overwrite_global_day_night, GameData.default.show_grid, GameData.default.reflect_elements_on_playfield, GameData.default.use_aal, GameData.default.use_fxaa, GameData.default.use_ao, GameData.default.use_ssr, GameData.default.tone_mapper, GameData.default.exposure, GameData.default.bloom_strength⟩, GameData.default.toGDContent⟩
    (bool_rt.gopt (fun v (s : GameData) => { s with overwrite_global_day_night := v }) (fun _ _ => trivial) rfl rfl) rfl ?_
  refine .segTo ⟨s.toGDView, s.toGDScreens, s.toGDPhysics, s.toGDLook, ⟨s.table_sound_volume, s.table_music_volume, s.table_adaptive_vsync, s.use_reflection_for_balls, s.brst, s.playfield_reflection_strength, s.use_trail_for_balls, s.ball_decal_mode, s.ball_playfield_reflection_strength, s.default_bulb_intensity_scale_on_ball, s.ball_trail_strength, s.user_detail_level, s.overwrite_global_detail_level, s.overwrite_global_day_night, s.show_grid, GameData.default.reflect_elements_on_playfield, GameData.default.use_aal, GameData.default.use_fxaa, GameData.default.use_ao, GameData.default.use_ssr, GameData.default.tone_mapper, GameData.default.exposure, GameData.default.bloom_strength⟩, GameData.default.toGDContent⟩
    (bool_rt.greq (fun v (s : GameData) => { s with show_grid := v }) trivial rfl) rfl ?_
  refine .segTo ⟨s.toGDView, s.toGDScreens, s.toGDPhysics, s.toGDLook, ⟨s.table_sound_volume, s.table_music_volume, s.table_adaptive_vsync, s.use_reflection_for_balls, s.brst, s.playfield_reflection_strength, s.use_trail_for_balls, s.ball_decal_mode, s.ball_playfield_reflection_strength, s.default_bulb_intensity_scale_on_ball, s.ball_trail_strength, s.user_detail_level, s.overwrite_global_detail_level, s.overwrite_global_day_night, s.show_grid, s.reflect_elements_on_playfield, GameData.default.use_aal, GameData.default.use_fxaa, GameData.default.use_ao, GameData.default.use_ssr, GameData.default.tone_mapper, GameData.default.exposure, GameData.default.bloom_strength⟩, GameData.default.toGDContent⟩
    (bool_rt.gopt (fun v (s : GameData) => { s with reflect_elements_on_playfield := v }) (fun _ _ => trivial) rfl rfl) rfl ?_
  refine .segTo ⟨s.toGDView, s.toGDScreens, s.toGDPhysics, s.toGDLook, ⟨s.table_sound_volume, s.table_music_volume, s.table_adaptive_vsync, s.use_reflection_for_balls, s.brst, s.playfield_reflection_strength, s.use_trail_for_balls, s.ball_decal_mode, s.ball_playfield_reflection_strength, s.default_bulb_intensity_scale_on_ball, s.ball_trail_strength, s.user_detail_level, s.overwrite_global_detail_level, s.overwrite_global_day_night, s.show_grid, s.reflect_elements_on_playfield, s.use_aal, GameData.default.use_fxaa, GameData.default.use_ao, GameData.default.use_ssr, GameData.default.tone_mapper, GameData.default.exposure, GameData.default.bloom_strength⟩, GameData.default.toGDContent⟩
    (i32_rt.gopt (fun v (s : GameData) => { s with use_aal := v }) (fun _ _ => trivial) rfl rfl) rfl ?_
  refine .segTo ⟨s.toGDView, s.toGDScreens, s.toGDPhysics, s.toGDLook, ⟨s.table_sound_volume, s.table_music_volume, s.table_adaptive_vsync, s.use_reflection_for_balls, s.brst, s.playfield_reflection_strength, s.use_trail_for_balls, s.ball_decal_mode, s.ball_playfield_reflection_strength, s.default_bulb_intensity_scale_on_ball, s.ball_trail_strength, s.user_detail_level, s.overwrite_global_detail_level, s.overwrite_global_day_night, s.show_grid, s.reflect_elements_on_playfield, s.use_aal, s.use_fxaa, GameData.default.use_ao, GameData.default.use_ssr, GameData.default.tone_mapper, GameData.default.exposure, GameData.default.bloom_strength⟩, GameData.default.toGDContent⟩
    (i32_rt.gopt (fun v (s : GameData) => { s with use_fxaa := v }) (fun _ _ => trivial) rfl rfl) rfl ?_
  refine .segTo ⟨s.toGDView, s.toGDScreens, s.toGDPhysics, s.toGDLook, ⟨s.table_sound_volume, s.table_music_volume, s.table_adaptive_vsync, s.use_reflection_for_balls, s.brst, s.playfield_reflection_strength, s.use_trail_for_balls, s.ball_decal_mode, s.ball_playfield_reflection_strength, s.default_bulb_intensity_scale_on_ball, s.ball_trail_strength, s.user_detail_level, s.overwrite_global_detail_level, s.overwrite_global_day_night, s.show_grid, s.reflect_elements_on_playfield, s.use_aal, s.use_fxaa, s.use_ao, GameData.default.use_ssr, GameData.default.tone_mapper, GameData.default.exposure, GameData.default.bloom_strength⟩, GameData.default.toGDContent⟩
    (i32_rt.gopt (fun v (s : GameData) => { s with use_ao := v }) (fun _ _ => trivial) rfl rfl) rfl ?_
  refine .segTo ⟨s.toGDView, s.toGDScreens, s.toGDPhysics, s.toGDLook, ⟨s.table_sound_volume, s.table_music_volume, s.table_adaptive_vsync, s.use_reflection_for_balls, s.brst, s.playfield_reflection_strength, s.use_trail_for_balls, s.ball_decal_mode, s.ball_playfield_reflection_strength, s.default_bulb_intensity_scale_on_ball, s.ball_trail_strength, s.user_detail_level, s.overwrite_global_detail_level, s.overwrite_global_day_night, s.show_grid, s.reflect_elements_on_playfield, s.use_aal, s.use_fxaa, s.use_ao, s.use_ssr, GameData.default.tone_mapper, GameData.default.exposure, GameData.default.bloom_strength⟩, GameData.default.toGDContent⟩
    (i32_rt.gopt (fun v (s : GameData) => { s with use_ssr := v }) (fun _ _ => trivial) rfl rfl) rfl ?_
  refine .segTo ⟨s.toGDView, s.toGDScreens, s.toGDPhysics, s.toGDLook, ⟨s.table_sound_volume, s.table_music_volume, s.table_adaptive_vsync, s.use_reflection_for_balls, s.brst, s.playfield_reflection_strength, s.use_trail_for_balls, s.ball_decal_mode, s.ball_playfield_reflection_strength, s.default_bulb_intensity_scale_on_ball, s.ball_trail_strength, s.user_detail_level, s.overwrite_global_detail_level, s.overwrite_global_day_night, s.show_grid, s.reflect_elements_on_playfield, s.use_aal, s.use_fxaa, s.use_ao, s.use_ssr, s.tone_mapper, GameData.default.exposure, GameData.default.bloom_strength⟩, GameData.default.toGDContent⟩
    (ToneMapper.rt.gopt (fun v (s : GameData) => { s with tone_mapper := v }) (h.2.2.2.2.2.2.2.2.2.2.2.2.1) rfl rfl) rfl ?_
  refine .segTo ⟨s.toGDView, s.toGDScreens, s.toGDPhysics, s.toGDLook, ⟨s.table_sound_volume, s.table_music_volume, s.table_adaptive_vsync, s.use_reflection_for_balls, s.brst, s.playfield_reflection_strength, s.use_trail_for_balls, s.ball_decal_mode, s.ball_playfield_reflection_strength, s.default_bulb_intensity_scale_on_ball, s.ball_trail_strength, s.user_detail_level, s.overwrite_global_detail_level, s.overwrite_global_day_night, s.show_grid, s.reflect_elements_on_playfield, s.use_aal, s.use_fxaa, s.use_ao, s.use_ssr, s.tone_mapper, s.exposure, GameData.default.bloom_strength⟩, GameData.default.toGDContent⟩
    (f32_rt.gopt (fun v (s : GameData) => { s with exposure := v }) (fun _ _ => trivial) rfl rfl) rfl ?_
  refine .segTo ⟨s.toGDView, s.toGDScreens, s.toGDPhysics, s.toGDLook, ⟨s.table_sound_volume, s.table_music_volume, s.table_adaptive_vsync, s.use_reflection_for_balls, s.brst, s.playfield_reflection_strength, s.use_trail_for_balls, s.ball_decal_mode, s.ball_playfield_reflection_strength, s.default_bulb_intensity_scale_on_ball, s.ball_trail_strength, s.user_detail_level, s.overwrite_global_detail_level, s.overwrite_global_day_night, s.show_grid, s.reflect_elements_on_playfield, s.use_aal, s.use_fxaa, s.use_ao, s.use_ssr, s.tone_mapper, s.exposure, s.bloom_strength⟩, GameData.default.toGDContent⟩
    (f32_rt.greq (fun v (s : GameData) => { s with bloom_strength := v }) trivial rfl) rfl ?_
  exact .done rfl

theorem GameData.readsF {v : UInt32} {s : GameData} (h : s.Fields) (hf : s.Fits) :
    GReads v s.opsF
    ⟨s.toGDView, s.toGDScreens, s.toGDPhysics, s.toGDLook, s.toGDRender, ⟨GameData.default.materials_size, GameData.default.materials_old, GameData.default.materials_physics_old, GameData.default.materials, GameData.default.render_probes, GameData.default.gameitems_size, GameData.default.sounds_size, GameData.default.images_size, GameData.default.fonts_size, GameData.default.collections_size, GameData.default.name, GameData.default.custom_colors, GameData.default.protection_data, GameData.default.code, GameData.default.locked⟩⟩
    ⟨s.toGDView, s.toGDScreens, s.toGDPhysics, s.toGDLook, s.toGDRender, ⟨s.materials_size, s.materials_old, s.materials_physics_old, s.materials, s.render_probes, s.gameitems_size, s.sounds_size, s.images_size, s.fonts_size, s.collections_size, s.name, s.custom_colors, s.protection_data, s.code, s.locked⟩⟩ := by
  unfold GameData.opsF
  refine .segTo ⟨s.toGDView, s.toGDScreens, s.toGDPhysics, s.toGDLook, s.toGDRender, ⟨s.materials_size, GameData.default.materials_old, GameData.default.materials_physics_old, GameData.default.materials, GameData.default.render_probes, GameData.default.gameitems_size, GameData.default.sounds_size, GameData.default.images_size, GameData.default.fonts_size, GameData.default.collections_size, GameData.default.name, GameData.default.custom_colors, GameData.default.protection_data, GameData.default.code, GameData.default.locked⟩⟩
    (u32_rt.greq (fun v (s : GameData) => { s with materials_size := v }) trivial rfl) rfl ?_
  refine .segTo ⟨s.toGDView, s.toGDScreens, s.toGDPhysics, s.toGDLook, s.toGDRender, ⟨s.materials_size, s.materials_old, GameData.default.materials_physics_old, GameData.default.materials, GameData.default.render_probes, GameData.default.gameitems_size, GameData.default.sounds_size, GameData.default.images_size, GameData.default.fonts_size, GameData.default.collections_size, GameData.default.name, GameData.default.custom_colors, GameData.default.protection_data, GameData.default.code, GameData.default.locked⟩⟩
    (mate_reads (h.2.2.2.2.2.2.2.2.2.2.2.2.2.1) hf rfl) rfl ?_
  refine .segTo ⟨s.toGDView, s.toGDScreens, s.toGDPhysics, s.toGDLook, s.toGDRender, ⟨s.materials_size, s.materials_old, s.materials_physics_old, GameData.default.materials, GameData.default.render_probes, GameData.default.gameitems_size, GameData.default.sounds_size, GameData.default.images_size, GameData.default.fonts_size, GameData.default.collections_size, GameData.default.name, GameData.default.custom_colors, GameData.default.protection_data, GameData.default.code, GameData.default.locked⟩⟩
    (phma_reads (h.2.2.2.2.2.2.2.2.2.2.2.2.2.2.1) hf rfl rfl) rfl ?_
  refine .segTo ⟨s.toGDView, s.toGDScreens, s.toGDPhysics, s.toGDLook, s.toGDRender, ⟨s.materials_size, s.materials_old, s.materials_physics_old, s.materials, GameData.default.render_probes, GameData.default.gameitems_size, GameData.default.sounds_size, GameData.default.images_size, GameData.default.fonts_size, GameData.default.collections_size, GameData.default.name, GameData.default.custom_colors, GameData.default.protection_data, GameData.default.code, GameData.default.locked⟩⟩
    (matr_reads (h.2.2.2.2.2.2.2.2.2.2.2.2.2.2.2.1) hf rfl) rfl ?_
  refine .segTo ⟨s.toGDView, s.toGDScreens, s.toGDPhysics, s.toGDLook, s.toGDRender, ⟨s.materials_size, s.materials_old, s.materials_physics_old, s.materials, s.render_probes, GameData.default.gameitems_size, GameData.default.sounds_size, GameData.default.images_size, GameData.default.fonts_size, GameData.default.collections_size, GameData.default.name, GameData.default.custom_colors, GameData.default.protection_data, GameData.default.code, GameData.default.locked⟩⟩
    (rprb_reads (h.2.2.2.2.2.2.2.2.2.2.2.2.2.2.2.2.1) hf rfl) rfl ?_
  refine .segTo ⟨s.toGDView, s.toGDScreens, s.toGDPhysics, s.toGDLook, s.toGDRender, ⟨s.materials_size, s.materials_old, s.materials_physics_old, s.materials, s.render_probes, s.gameitems_size, GameData.default.sounds_size, GameData.default.images_size, GameData.default.fonts_size, GameData.default.collections_size, GameData.default.name, GameData.default.custom_colors, GameData.default.protection_data, GameData.default.code, GameData.default.locked⟩⟩
    (u32_rt.greq (fun v (s : GameData) => { s with gameitems_size := v }) trivial rfl) rfl ?_
  refine .segTo ⟨s.toGDView, s.toGDScreens, s.toGDPhysics, s.toGDLook, s.toGDRender, ⟨s.materials_size, s.materials_old, s.materials_physics_old, s.materials, s.render_probes, s.gameitems_size, s.sounds_size, GameData.default.images_size, GameData.default.fonts_size, GameData.default.collections_size, GameData.default.name, GameData.default.custom_colors, GameData.default.protection_data, GameData.default.code, GameData.default.locked⟩⟩
    (u32_rt.greq (fun v (s : GameData) => { s with sounds_size := v }) trivial rfl) rfl ?_
  refine .segTo ⟨s.toGDView, s.toGDScreens, s.toGDPhysics, s.toGDLook, s.toGDRender, ⟨s.materials_size, s.materials_old, s.materials_physics_old, s.materials, s.render_probes, s.gameitems_size, s.sounds_size, s.images_size, GameData.default.fonts_size, GameData.default.collections_size, GameData.default.name, GameData.default.custom_colors, GameData.default.protection_data, GameData.default.code, GameData.default.locked⟩⟩
    (u32_rt.greq (fun v (s : GameData) => { s with images_size := v }) trivial rfl) rfl ?_
  refine .segTo ⟨s.toGDView, s.toGDScreens, s.toGDPhysics, s.toGDLook, s.toGDRender, ⟨s.materials_size, s.materials_old, s.materials_physics_old, s.materials, s.render_probes, s.gameitems_size, s.sounds_size, s.images_size, s.fonts_size, GameData.default.collections_size, GameData.default.name, GameData.default.custom_colors, GameData.default.protection_data, GameData.default.code, GameData.default.locked⟩⟩
    (u32_rt.greq (fun v (s : GameData) => { s with fonts_size := v }) trivial rfl) rfl ?_
  refine .segTo ⟨s.toGDView, s.toGDScreens, s.toGDPhysics, s.toGDLook, s.toGDRender, ⟨s.materials_size, s.materials_old, s.materials_physics_old, s.materials, s.render_probes, s.gameitems_size, s.sounds_size, s.images_size, s.fonts_size, s.collections_size, GameData.default.name, GameData.default.custom_colors, GameData.default.protection_data, GameData.default.code, GameData.default.locked⟩⟩
    (u32_rt.greq (fun v (s : GameData) => { s with collections_size := v }) trivial rfl) rfl ?_
  refine .segTo ⟨s.toGDView, s.toGDScreens, s.toGDPhysics, s.toGDLook, s.toGDRender, ⟨s.materials_size, s.materials_old, s.materials_physics_old, s.materials, s.render_probes, s.gameitems_size, s.sounds_size, s.images_size, s.fonts_size, s.collections_size, s.name, GameData.default.custom_colors, GameData.default.protection_data, GameData.default.code, GameData.default.locked⟩⟩
    (wide_rt.greq (fun v (s : GameData) => { s with name := v }) (h.2.2.2.2.2.2.2.2.2.2.2.2.2.2.2.2.2.1) rfl) rfl ?_
  refine .segTo ⟨s.toGDView, s.toGDScreens, s.toGDPhysics, s.toGDLook, s.toGDRender, ⟨s.materials_size, s.materials_old, s.materials_physics_old, s.materials, s.render_probes, s.gameitems_size, s.sounds_size, s.images_size, s.fonts_size, s.collections_size, s.name, s.custom_colors, GameData.default.protection_data, GameData.default.code, GameData.default.locked⟩⟩
    (colors_rt.greq (fun v (s : GameData) => { s with custom_colors := v }) (h.2.2.2.2.2.2.2.2.2.2.2.2.2.2.2.2.2.2.1) rfl) rfl ?_
  refine .segTo ⟨s.toGDView, s.toGDScreens, s.toGDPhysics, s.toGDLook, s.toGDRender, ⟨s.materials_size, s.materials_old, s.materials_physics_old, s.materials, s.render_probes, s.gameitems_size, s.sounds_size, s.images_size, s.fonts_size, s.collections_size, s.name, s.custom_colors, s.protection_data, GameData.default.code, GameData.default.locked⟩⟩
    (data_rt.gopt (fun v (s : GameData) => { s with protection_data := v }) (h.2.2.2.2.2.2.2.2.2.2.2.2.2.2.2.2.2.2.2.1) rfl rfl) rfl ?_
  refine .segTo ⟨s.toGDView, s.toGDScreens, s.toGDPhysics, s.toGDLook, s.toGDRender, ⟨s.materials_size, s.materials_old, s.materials_physics_old, s.materials, s.render_probes, s.gameitems_size, s.sounds_size, s.images_size, s.fonts_size, s.collections_size, s.name, s.custom_colors, s.protection_data, s.code, GameData.default.locked⟩⟩
    (code_rt.greq (fun v (s : GameData) => { s with code := v }) (h.2.2.2.2.2.2.2.2.2.2.2.2.2.2.2.2.2.2.2.2) rfl) rfl ?_
  refine .segTo ⟨s.toGDView, s.toGDScreens, s.toGDPhysics, s.toGDLook, s.toGDRender, ⟨s.materials_size, s.materials_old, s.materials_physics_old, s.materials, s.render_probes, s.gameitems_size, s.sounds_size, s.images_size, s.fonts_size, s.collections_size, s.name, s.custom_colors, s.protection_data, s.code, s.locked⟩⟩
    (u32_rt.gopt (fun v (s : GameData) => { s with locked := v }) (fun _ _ => trivial) rfl rfl) rfl ?_
  exact .done rfl

theorem GameData.armsA_inv {v : UInt32} : GArmsInv GameData.Fields (GameData.armsA v) := by
  unfold GameData.armsA
  exact .cons (.gfld GP.any fun _ _ h _ => h) <|
    .cons (.gfld GP.any fun _ _ h _ => h) <|
    .cons (.gfld GP.any fun _ _ h _ => h) <|
    .cons (.gfld GP.any fun _ _ h _ => h) <|
    .cons (.gfld GP.any fun _ _ h _ => h) <|
    .cons (.gfld GP.any fun _ _ h _ => h) <|
    .cons (.gfld GP.any fun _ _ h _ => h) <|
    .cons (.gfld GP.any fun _ _ h _ => h) <|
    .cons (.gfld GP.any fun _ _ h _ => h) <|
    .cons (.gfld GP.any fun _ _ h _ => h) <|
    .cons (.gfld GP.any fun _ _ h _ => h) <|
    .cons (.gfld GP.any fun _ _ h _ => h) <|
    .cons (.gfld GP.any fun _ _ h _ => h) <|
    .cons (.gfld GP.any fun _ _ h _ => h) <|
    .cons (.gfld GP.any fun _ _ h _ => h) <|
    .cons (.gfld GP.any fun _ _ h _ => h) <|
    .cons efss_inv <|
    .cons (.gfld GP.any fun _ _ h _ => h) <|
    .cons (.gfld GP.any fun _ _ h _ => h) <|
    .cons (.gfld GP.any fun _ _ h _ => h) <|
    .cons (.gfld GP.any fun _ _ h _ => h) <|
    .cons (.gfld GP.any fun _ _ h _ => h) <|
    .cons (.gfld GP.any fun _ _ h _ => h) <|
    .cons (.gfld GP.any fun _ _ h _ => h) <|
    .cons (.gfld GP.any fun _ _ h _ => h) <|
    .cons (.gfld GP.any fun _ _ h _ => h) .nil

theorem GameData.armsA_tame {v : UInt32} : ArmsTame (GameData.armsA v) := by
  unfold GameData.armsA
  exact .cons (fun _ => f32_tame.fld) <|
    .cons (fun _ => f32_tame.fld) <|
    .cons (fun _ => f32_tame.fld) <|
    .cons (fun _ => f32_tame.fld) <|
    .cons (fun _ => u32_tame.fld) <|
    .cons (fun _ => enum_tame.fld) <|
    .cons (fun _ => f32_tame.fld) <|
    .cons (fun _ => f32_tame.fld) <|
    .cons (fun _ => f32_tame.fld) <|
    .cons (fun _ => f32_tame.fld) <|
    .cons (fun _ => f32_tame.fld) <|
    .cons (fun _ => f32_tame.fld) <|
    .cons (fun _ => f32_tame.fld) <|
    .cons (fun _ => f32_tame.fld) <|
    .cons (fun _ => f32_tame.fld) <|
    .cons (fun _ => f32_tame.fld) <|
    .cons (fun _ => bool_tame.fld) <|
    .cons (fun _ => f32_tame.fld) <|
    .cons (fun _ => f32_tame.fld) <|
    .cons (fun _ => f32_tame.fld) <|
    .cons (fun _ => f32_tame.fld) <|
    .cons (fun _ => f32_tame.fld) <|
    .cons (fun _ => f32_tame.fld) <|
    .cons (fun _ => f32_tame.fld) <|
    .cons (fun _ => f32_tame.fld) <|
    .cons (fun _ => enum_tame.fld) .nil

theorem GameData.armsB_inv : GArmsInv GameData.Fields (GameData.armsB) := by
  unfold GameData.armsB
  exact .cons (.gfld GP.any fun _ _ h _ => h) <|
    .cons (.gfld GP.any fun _ _ h _ => h) <|
    .cons (.gfld GP.any fun _ _ h _ => h) <|
    .cons (.gfld GP.any fun _ _ h _ => h) <|
    .cons (.gfld GP.any fun _ _ h _ => h) <|
    .cons (.gfld GP.any fun _ _ h _ => h) <|
    .cons (.gfld GP.any fun _ _ h _ => h) <|
    .cons (.gfld GP.any fun _ _ h _ => h) <|
    .cons (.gfld GP.any fun _ _ h _ => h) <|
    .cons (.gfld GP.any fun _ _ h _ => h) <|
    .cons (.gfld GP.any fun _ _ h _ => h) <|
    .cons (.gfld GP.any fun _ _ h _ => h) <|
    .cons (.gfld GP.any fun _ _ h _ => h) <|
    .cons (.gfld GP.any fun _ _ h _ => h) <|
    .cons (.gfld GP.any fun _ _ h _ => h) <|
    .cons (.gfld GP.any fun _ _ h _ => h) <|
    .cons (.gfld GP.any fun _ _ h _ => h) <|
    .cons (.gfld GP.any fun _ _ h _ => h) <|
    .cons (.gfld GP.any fun _ _ h _ => h) <|
    .cons (.gfld GP.any fun _ _ h _ => h) <|
    .cons (.gfld GP.any fun _ _ h _ => h) <|
    .cons (.gfld GP.any fun _ _ h _ => h) <|
    .cons (.gfld GP.any fun _ _ h _ => h) <|
    .cons (.gfld GP.any fun _ _ h _ => h) <|
    .cons (.gfld GP.any fun _ _ h _ => h) <|
    .cons (.gfld GP.any fun _ _ h _ => h) <|
    .cons (.gfld GP.any fun _ _ h _ => h) <|
    .cons (.gfld GP.any fun _ _ h _ => h) <|
    .cons (.gfld GP.any fun _ _ h _ => h) <|
    .cons (.gfld GP.any fun _ _ h _ => h) <|
    .cons (.gfld GP.any fun _ _ h _ => h) <|
    .cons (.gfld GP.any fun _ _ h _ => h) <|
    .cons (.gfld GP.any fun _ _ h _ => h) <|
    .cons (.gfld GP.any fun _ _ h _ => h) <|
    .cons (.gfld GP.any fun _ _ h _ => h) <|
    .cons (.gfld GP.any fun _ _ h _ => h) <|
    .cons (.gfld GP.any fun _ _ h _ => h) .nil

theorem GameData.armsB_tame : ArmsTame (GameData.armsB) := by
  unfold GameData.armsB
  exact .cons (fun _ => f32_tame.fld) <|
    .cons (fun _ => f32_tame.fld) <|
    .cons (fun _ => f32_tame.fld) <|
    .cons (fun _ => f32_tame.fld) <|
    .cons (fun _ => f32_tame.fld) <|
    .cons (fun _ => f32_tame.fld) <|
    .cons (fun _ => f32_tame.fld) <|
    .cons (fun _ => f32_tame.fld) <|
    .cons (fun _ => f32_tame.fld) <|
    .cons (fun _ => f32_tame.fld) <|
    .cons (fun _ => f32_tame.fld) <|
    .cons (fun _ => f32_tame.fld) <|
    .cons (fun _ => f32_tame.fld) <|
    .cons (fun _ => f32_tame.fld) <|
    .cons (fun _ => f32_tame.fld) <|
    .cons (fun _ => f32_tame.fld) <|
    .cons (fun _ => f32_tame.fld) <|
    .cons (fun _ => f32_tame.fld) <|
    .cons (fun _ => enum_tame.fld) <|
    .cons (fun _ => f32_tame.fld) <|
    .cons (fun _ => f32_tame.fld) <|
    .cons (fun _ => f32_tame.fld) <|
    .cons (fun _ => f32_tame.fld) <|
    .cons (fun _ => f32_tame.fld) <|
    .cons (fun _ => f32_tame.fld) <|
    .cons (fun _ => f32_tame.fld) <|
    .cons (fun _ => f32_tame.fld) <|
    .cons (fun _ => f32_tame.fld) <|
    .cons (fun _ => f32_tame.fld) <|
    .cons (fun _ => f32_tame.fld) <|
    .cons (fun _ => f32_tame.fld) <|
    .cons (fun _ => f32_tame.fld) <|
    .cons (fun _ => f32_tame.fld) <|
    .cons (fun _ => f32_tame.fld) <|
    .cons (fun _ => f32_tame.fld) <|
    .cons (fun _ => f32_tame.fld) <|
    .cons (fun _ => f32_tame.fld) .nil

theorem GameData.armsC_inv : GArmsInv GameData.Fields (GameData.armsC) := by
  unfold GameData.armsC
  exact .cons (.gfld GP.any fun _ _ h _ => h) <|
    .cons (.gfld GP.any fun _ _ h _ => h) <|
    .cons (.gfld GP.any fun _ _ h _ => h) <|
    .cons (.gfld GP.any fun _ _ h _ => h) <|
    .cons (.gfld GP.any fun _ _ h _ => h) <|
    .cons (.gfld GP.any fun _ _ h _ => h) <|
    .cons (.gfld GP.any fun _ _ h _ => h) <|
    .cons (.gfld GP.any fun _ _ h _ => h) <|
    .cons (.gfld GP.any fun _ _ h _ => h) <|
    .cons (.gfld GP.any fun _ _ h _ => h) <|
    .cons (.gfld GP.any fun _ _ h _ => h) <|
    .cons (.gfld GP.any fun _ _ h _ => h) <|
    .cons (.gfld GP.any fun _ _ h _ => h) <|
    .cons (.gfld GP.any fun _ _ h _ => h) <|
    .cons (.gfld GP.any fun _ _ h _ => h) <|
    .cons (.gfld GP.any fun _ _ h _ => h) <|
    .cons (.gfld GP.any fun _ _ h _ => h) <|
    .cons (.gfld GP.any fun _ _ h _ => h) <|
    .cons (.gfld GP.any fun _ _ h _ => h) <|
    .cons (.gfld GP.any fun _ _ h _ => h) <|
    .cons (.gfld GP.any fun _ _ h _ => h) <|
    .cons (.gfld GP.any fun _ _ h _ => h) <|
    .cons (.gfld GP.any fun _ _ h _ => h) .nil

theorem GameData.armsC_tame : ArmsTame (GameData.armsC) := by
  unfold GameData.armsC
  exact .cons (fun _ => u32_tame.fld) <|
    .cons (fun _ => bool_tame.fld) <|
    .cons (fun _ => f32_tame.fld) <|
    .cons (fun _ => f32_tame.fld) <|
    .cons (fun _ => f32_tame.fld) <|
    .cons (fun _ => f32_tame.fld) <|
    .cons (fun _ => f32_tame.fld) <|
    .cons (fun _ => f32_tame.fld) <|
    .cons (fun _ => f32_tame.fld) <|
    .cons (fun _ => u32_tame.fld) <|
    .cons (fun _ => bool_tame.fld) <|
    .cons (fun _ => u32_tame.fld) <|
    .cons (fun _ => bool_tame.fld) <|
    .cons (fun _ => bool_tame.fld) <|
    .cons (fun _ => f32_tame.fld) <|
    .cons (fun _ => f32_tame.fld) <|
    .cons (fun _ => f32_tame.fld) <|
    .cons (fun _ => f32_tame.fld) <|
    .cons (fun _ => f32_tame.fld) <|
    .cons (fun _ => f32_tame.fld) <|
    .cons (fun _ => f32_tame.fld) <|
    .cons (fun _ => f32_tame.fld) <|
    .cons (fun _ => bool_tame.fld) .nil

theorem GameData.armsD_inv : GArmsInv GameData.Fields (GameData.armsD) := by
  unfold GameData.armsD
  exact .cons (.gfld string_gp fun _ _ h hv => ⟨hv, h.2.1, h.2.2.1, h.2.2.2.1, h.2.2.2.2.1, h.2.2.2.2.2.1, h.2.2.2.2.2.2.1, h.2.2.2.2.2.2.2.1, h.2.2.2.2.2.2.2.2.1, h.2.2.2.2.2.2.2.2.2.1, h.2.2.2.2.2.2.2.2.2.2.1, h.2.2.2.2.2.2.2.2.2.2.2.1, h.2.2.2.2.2.2.2.2.2.2.2.2.1, h.2.2.2.2.2.2.2.2.2.2.2.2.2.1, h.2.2.2.2.2.2.2.2.2.2.2.2.2.2.1, h.2.2.2.2.2.2.2.2.2.2.2.2.2.2.2.1, h.2.2.2.2.2.2.2.2.2.2.2.2.2.2.2.2.1, h.2.2.2.2.2.2.2.2.2.2.2.2.2.2.2.2.2.1, h.2.2.2.2.2.2.2.2.2.2.2.2.2.2.2.2.2.2.1, h.2.2.2.2.2.2.2.2.2.2.2.2.2.2.2.2.2.2.2.1, h.2.2.2.2.2.2.2.2.2.2.2.2.2.2.2.2.2.2.2.2⟩) <|
    .cons (.gfld string_gp fun _ _ h hv => ⟨h.1, hv, h.2.2.1, h.2.2.2.1, h.2.2.2.2.1, h.2.2.2.2.2.1, h.2.2.2.2.2.2.1, h.2.2.2.2.2.2.2.1, h.2.2.2.2.2.2.2.2.1, h.2.2.2.2.2.2.2.2.2.1, h.2.2.2.2.2.2.2.2.2.2.1, h.2.2.2.2.2.2.2.2.2.2.2.1, h.2.2.2.2.2.2.2.2.2.2.2.2.1, h.2.2.2.2.2.2.2.2.2.2.2.2.2.1, h.2.2.2.2.2.2.2.2.2.2.2.2.2.2.1, h.2.2.2.2.2.2.2.2.2.2.2.2.2.2.2.1, h.2.2.2.2.2.2.2.2.2.2.2.2.2.2.2.2.1, h.2.2.2.2.2.2.2.2.2.2.2.2.2.2.2.2.2.1, h.2.2.2.2.2.2.2.2.2.2.2.2.2.2.2.2.2.2.1, h.2.2.2.2.2.2.2.2.2.2.2.2.2.2.2.2.2.2.2.1, h.2.2.2.2.2.2.2.2.2.2.2.2.2.2.2.2.2.2.2.2⟩) <|
    .cons (.gfld string_gp fun _ _ h hv => ⟨h.1, h.2.1, hv, h.2.2.2.1, h.2.2.2.2.1, h.2.2.2.2.2.1, h.2.2.2.2.2.2.1, h.2.2.2.2.2.2.2.1, h.2.2.2.2.2.2.2.2.1, h.2.2.2.2.2.2.2.2.2.1, h.2.2.2.2.2.2.2.2.2.2.1, h.2.2.2.2.2.2.2.2.2.2.2.1, h.2.2.2.2.2.2.2.2.2.2.2.2.1, h.2.2.2.2.2.2.2.2.2.2.2.2.2.1, h.2.2.2.2.2.2.2.2.2.2.2.2.2.2.1, h.2.2.2.2.2.2.2.2.2.2.2.2.2.2.2.1, h.2.2.2.2.2.2.2.2.2.2.2.2.2.2.2.2.1, h.2.2.2.2.2.2.2.2.2.2.2.2.2.2.2.2.2.1, h.2.2.2.2.2.2.2.2.2.2.2.2.2.2.2.2.2.2.1, h.2.2.2.2.2.2.2.2.2.2.2.2.2.2.2.2.2.2.2.1, h.2.2.2.2.2.2.2.2.2.2.2.2.2.2.2.2.2.2.2.2⟩) <|
    .cons (.gfld string_gp fun _ _ h hv => ⟨h.1, h.2.1, h.2.2.1, .some hv, h.2.2.2.2.1, h.2.2.2.2.2.1, h.2.2.2.2.2.2.1, h.2.2.2.2.2.2.2.1, h.2.2.2.2.2.2.2.2.1, h.2.2.2.2.2.2.2.2.2.1, h.2.2.2.2.2.2.2.2.2.2.1, h.2.2.2.2.2.2.2.2.2.2.2.1, h.2.2.2.2.2.2.2.2.2.2.2.2.1, h.2.2.2.2.2.2.2.2.2.2.2.2.2.1, h.2.2.2.2.2.2.2.2.2.2.2.2.2.2.1, h.2.2.2.2.2.2.2.2.2.2.2.2.2.2.2.1, h.2.2.2.2.2.2.2.2.2.2.2.2.2.2.2.2.1, h.2.2.2.2.2.2.2.2.2.2.2.2.2.2.2.2.2.1, h.2.2.2.2.2.2.2.2.2.2.2.2.2.2.2.2.2.2.1, h.2.2.2.2.2.2.2.2.2.2.2.2.2.2.2.2.2.2.2.1, h.2.2.2.2.2.2.2.2.2.2.2.2.2.2.2.2.2.2.2.2⟩) <|
    .cons (.gfld GP.any fun _ _ h _ => h) <|
    .cons (.gfld string_gp fun _ _ h hv => ⟨h.1, h.2.1, h.2.2.1, h.2.2.2.1, hv, h.2.2.2.2.2.1, h.2.2.2.2.2.2.1, h.2.2.2.2.2.2.2.1, h.2.2.2.2.2.2.2.2.1, h.2.2.2.2.2.2.2.2.2.1, h.2.2.2.2.2.2.2.2.2.2.1, h.2.2.2.2.2.2.2.2.2.2.2.1, h.2.2.2.2.2.2.2.2.2.2.2.2.1, h.2.2.2.2.2.2.2.2.2.2.2.2.2.1, h.2.2.2.2.2.2.2.2.2.2.2.2.2.2.1, h.2.2.2.2.2.2.2.2.2.2.2.2.2.2.2.1, h.2.2.2.2.2.2.2.2.2.2.2.2.2.2.2.2.1, h.2.2.2.2.2.2.2.2.2.2.2.2.2.2.2.2.2.1, h.2.2.2.2.2.2.2.2.2.2.2.2.2.2.2.2.2.2.1, h.2.2.2.2.2.2.2.2.2.2.2.2.2.2.2.2.2.2.2.1, h.2.2.2.2.2.2.2.2.2.2.2.2.2.2.2.2.2.2.2.2⟩) <|
    .cons (.gfld string_gp fun _ _ h hv => ⟨h.1, h.2.1, h.2.2.1, h.2.2.2.1, h.2.2.2.2.1, hv, h.2.2.2.2.2.2.1, h.2.2.2.2.2.2.2.1, h.2.2.2.2.2.2.2.2.1, h.2.2.2.2.2.2.2.2.2.1, h.2.2.2.2.2.2.2.2.2.2.1, h.2.2.2.2.2.2.2.2.2.2.2.1, h.2.2.2.2.2.2.2.2.2.2.2.2.1, h.2.2.2.2.2.2.2.2.2.2.2.2.2.1, h.2.2.2.2.2.2.2.2.2.2.2.2.2.2.1, h.2.2.2.2.2.2.2.2.2.2.2.2.2.2.2.1, h.2.2.2.2.2.2.2.2.2.2.2.2.2.2.2.2.1, h.2.2.2.2.2.2.2.2.2.2.2.2.2.2.2.2.2.1, h.2.2.2.2.2.2.2.2.2.2.2.2.2.2.2.2.2.2.1, h.2.2.2.2.2.2.2.2.2.2.2.2.2.2.2.2.2.2.2.1, h.2.2.2.2.2.2.2.2.2.2.2.2.2.2.2.2.2.2.2.2⟩) <|
    .cons (.gfld GP.any fun _ _ h _ => h) <|
    .cons (.gfld string_gp fun _ _ h hv => ⟨h.1, h.2.1, h.2.2.1, h.2.2.2.1, h.2.2.2.2.1, h.2.2.2.2.2.1, hv, h.2.2.2.2.2.2.2.1, h.2.2.2.2.2.2.2.2.1, h.2.2.2.2.2.2.2.2.2.1, h.2.2.2.2.2.2.2.2.2.2.1, h.2.2.2.2.2.2.2.2.2.2.2.1, h.2.2.2.2.2.2.2.2.2.2.2.2.1, h.2.2.2.2.2.2.2.2.2.2.2.2.2.1, h.2.2.2.2.2.2.2.2.2.2.2.2.2.2.1, h.2.2.2.2.2.2.2.2.2.2.2.2.2.2.2.1, h.2.2.2.2.2.2.2.2.2.2.2.2.2.2.2.2.1, h.2.2.2.2.2.2.2.2.2.2.2.2.2.2.2.2.2.1, h.2.2.2.2.2.2.2.2.2.2.2.2.2.2.2.2.2.2.1, h.2.2.2.2.2.2.2.2.2.2.2.2.2.2.2.2.2.2.2.1, h.2.2.2.2.2.2.2.2.2.2.2.2.2.2.2.2.2.2.2.2⟩) <|
    .cons (.gfld string_gp fun _ _ h hv => ⟨h.1, h.2.1, h.2.2.1, h.2.2.2.1, h.2.2.2.2.1, h.2.2.2.2.2.1, h.2.2.2.2.2.2.1, .some hv, h.2.2.2.2.2.2.2.2.1, h.2.2.2.2.2.2.2.2.2.1, h.2.2.2.2.2.2.2.2.2.2.1, h.2.2.2.2.2.2.2.2.2.2.2.1, h.2.2.2.2.2.2.2.2.2.2.2.2.1, h.2.2.2.2.2.2.2.2.2.2.2.2.2.1, h.2.2.2.2.2.2.2.2.2.2.2.2.2.2.1, h.2.2.2.2.2.2.2.2.2.2.2.2.2.2.2.1, h.2.2.2.2.2.2.2.2.2.2.2.2.2.2.2.2.1, h.2.2.2.2.2.2.2.2.2.2.2.2.2.2.2.2.2.1, h.2.2.2.2.2.2.2.2.2.2.2.2.2.2.2.2.2.2.1, h.2.2.2.2.2.2.2.2.2.2.2.2.2.2.2.2.2.2.2.1, h.2.2.2.2.2.2.2.2.2.2.2.2.2.2.2.2.2.2.2.2⟩) <|
    .cons (.gfld string_gp fun _ _ h hv => ⟨h.1, h.2.1, h.2.2.1, h.2.2.2.1, h.2.2.2.2.1, h.2.2.2.2.2.1, h.2.2.2.2.2.2.1, h.2.2.2.2.2.2.2.1, .some hv, h.2.2.2.2.2.2.2.2.2.1, h.2.2.2.2.2.2.2.2.2.2.1, h.2.2.2.2.2.2.2.2.2.2.2.1, h.2.2.2.2.2.2.2.2.2.2.2.2.1, h.2.2.2.2.2.2.2.2.2.2.2.2.2.1, h.2.2.2.2.2.2.2.2.2.2.2.2.2.2.1, h.2.2.2.2.2.2.2.2.2.2.2.2.2.2.2.1, h.2.2.2.2.2.2.2.2.2.2.2.2.2.2.2.2.1, h.2.2.2.2.2.2.2.2.2.2.2.2.2.2.2.2.2.1, h.2.2.2.2.2.2.2.2.2.2.2.2.2.2.2.2.2.2.1, h.2.2.2.2.2.2.2.2.2.2.2.2.2.2.2.2.2.2.2.1, h.2.2.2.2.2.2.2.2.2.2.2.2.2.2.2.2.2.2.2.2⟩) <|
    .cons (.gfld string_gp fun _ _ h hv => ⟨h.1, h.2.1, h.2.2.1, h.2.2.2.1, h.2.2.2.2.1, h.2.2.2.2.2.1, h.2.2.2.2.2.2.1, h.2.2.2.2.2.2.2.1, h.2.2.2.2.2.2.2.2.1, hv, h.2.2.2.2.2.2.2.2.2.2.1, h.2.2.2.2.2.2.2.2.2.2.2.1, h.2.2.2.2.2.2.2.2.2.2.2.2.1, h.2.2.2.2.2.2.2.2.2.2.2.2.2.1, h.2.2.2.2.2.2.2.2.2.2.2.2.2.2.1, h.2.2.2.2.2.2.2.2.2.2.2.2.2.2.2.1, h.2.2.2.2.2.2.2.2.2.2.2.2.2.2.2.2.1, h.2.2.2.2.2.2.2.2.2.2.2.2.2.2.2.2.2.1, h.2.2.2.2.2.2.2.2.2.2.2.2.2.2.2.2.2.2.1, h.2.2.2.2.2.2.2.2.2.2.2.2.2.2.2.2.2.2.2.1, h.2.2.2.2.2.2.2.2.2.2.2.2.2.2.2.2.2.2.2.2⟩) <|
    .cons (.gfld GP.any fun _ _ h _ => h) <|
    .cons (.gfld GP.any fun _ _ h _ => h) <|
    .cons (.gfld GP.any fun _ _ h _ => h) <|
    .cons (.gfld GP.any fun _ _ h _ => h) <|
    .cons (.gfld string_gp fun _ _ h hv => ⟨h.1, h.2.1, h.2.2.1, h.2.2.2.1, h.2.2.2.2.1, h.2.2.2.2.2.1, h.2.2.2.2.2.2.1, h.2.2.2.2.2.2.2.1, h.2.2.2.2.2.2.2.2.1, h.2.2.2.2.2.2.2.2.2.1, hv, h.2.2.2.2.2.2.2.2.2.2.2.1, h.2.2.2.2.2.2.2.2.2.2.2.2.1, h.2.2.2.2.2.2.2.2.2.2.2.2.2.1, h.2.2.2.2.2.2.2.2.2.2.2.2.2.2.1, h.2.2.2.2.2.2.2.2.2.2.2.2.2.2.2.1, h.2.2.2.2.2.2.2.2.2.2.2.2.2.2.2.2.1, h.2.2.2.2.2.2.2.2.2.2.2.2.2.2.2.2.2.1, h.2.2.2.2.2.2.2.2.2.2.2.2.2.2.2.2.2.2.1, h.2.2.2.2.2.2.2.2.2.2.2.2.2.2.2.2.2.2.2.1, h.2.2.2.2.2.2.2.2.2.2.2.2.2.2.2.2.2.2.2.2⟩) <|
    .cons (.gfld GP.any fun _ _ h _ => h) <|
    .cons (.gfld GP.any fun _ _ h _ => h) <|
    .cons (.gfld GP.any fun _ _ h _ => h) <|
    .cons (.gfld GP.any fun _ _ h _ => h) <|
    .cons (.gfld GP.any fun _ _ h _ => h) <|
    .cons (.gfld GP.any fun _ _ h _ => h) <|
    .cons (.gfld GP.any fun _ _ h _ => h) <|
    .cons (.gfld GP.any fun _ _ h _ => h) <|
    .cons (.gfld GP.any fun _ _ h _ => h) <|
    .cons (.gfld GP.any fun _ _ h _ => h) <|
    .cons (.gfld GP.any fun _ _ h _ => h) <|
    .cons (.gfld GP.any fun _ _ h _ => h) .nil

theorem GameData.armsD_tame : ArmsTame (GameData.armsD) := by
  unfold GameData.armsD
  exact .cons (fun _ => string_tame.fld) <|
    .cons (fun _ => string_tame.fld) <|
    .cons (fun _ => string_tame.fld) <|
    .cons (fun _ => string_tame.fld) <|
    .cons (fun _ => bool_tame.fld) <|
    .cons (fun _ => string_tame.fld) <|
    .cons (fun _ => string_tame.fld) <|
    .cons (fun _ => bool_tame.fld) <|
    .cons (fun _ => string_tame.fld) <|
    .cons (fun _ => string_tame.fld) <|
    .cons (fun _ => string_tame.fld) <|
    .cons (fun _ => string_tame.fld) <|
    .cons (fun _ => bool_tame.fld) <|
    .cons (fun _ => f32_tame.fld) <|
    .cons (fun _ => f32_tame.fld) <|
    .cons (fun _ => f32_tame.fld) <|
    .cons (fun _ => string_tame.fld) <|
    .cons (fun _ => color_tame.fld) <|
    .cons (fun _ => f32_tame.fld) <|
    .cons (fun _ => color_tame.fld) <|
    .cons (fun _ => color_tame.fld) <|
    .cons (fun _ => f32_tame.fld) <|
    .cons (fun _ => f32_tame.fld) <|
    .cons (fun _ => f32_tame.fld) <|
    .cons (fun _ => f32_tame.fld) <|
    .cons (fun _ => f32_tame.fld) <|
    .cons (fun _ => f32_tame.fld) <|
    .cons (fun _ => f32_tame.fld) <|
    .cons (fun _ => f32_tame.fld) .nil

theorem GameData.armsE_inv : GArmsInv GameData.Fields (GameData.armsE) := by
  unfold GameData.armsE
  exact .cons (.gfld GP.any fun _ _ h _ => h) <|
    .cons (.gfld GP.any fun _ _ h _ => h) <|
    .cons (.gfld GP.any fun _ _ h _ => h) <|
    .cons (.gfld GP.any fun _ _ h _ => h) <|
    .cons (.gfld GP.any fun _ _ h _ => h) <|
    .cons (.gfld quant8_gp fun _ _ h hv => ⟨h.1, h.2.1, h.2.2.1, h.2.2.2.1, h.2.2.2.2.1, h.2.2.2.2.2.1, h.2.2.2.2.2.2.1, h.2.2.2.2.2.2.2.1, h.2.2.2.2.2.2.2.2.1, h.2.2.2.2.2.2.2.2.2.1, h.2.2.2.2.2.2.2.2.2.2.1, hv, h.2.2.2.2.2.2.2.2.2.2.2.2.1, h.2.2.2.2.2.2.2.2.2.2.2.2.2.1, h.2.2.2.2.2.2.2.2.2.2.2.2.2.2.1, h.2.2.2.2.2.2.2.2.2.2.2.2.2.2.2.1, h.2.2.2.2.2.2.2.2.2.2.2.2.2.2.2.2.1, h.2.2.2.2.2.2.2.2.2.2.2.2.2.2.2.2.2.1, h.2.2.2.2.2.2.2.2.2.2.2.2.2.2.2.2.2.2.1, h.2.2.2.2.2.2.2.2.2.2.2.2.2.2.2.2.2.2.2.1, h.2.2.2.2.2.2.2.2.2.2.2.2.2.2.2.2.2.2.2.2⟩) <|
    .cons (.gfld GP.any fun _ _ h _ => h) <|
    .cons (.gfld GP.any fun _ _ h _ => h) <|
    .cons (.gfld GP.any fun _ _ h _ => h) <|
    .cons (.gfld GP.any fun _ _ h _ => h) <|
    .cons (.gfld GP.any fun _ _ h _ => h) <|
    .cons (.gfld GP.any fun _ _ h _ => h) <|
    .cons (.gfld GP.any fun _ _ h _ => h) <|
    .cons (.gfld GP.any fun _ _ h _ => h) <|
    .cons (.gfld GP.any fun _ _ h _ => h) <|
    .cons (.gfld GP.any fun _ _ h _ => h) <|
    .cons (.gfld GP.any fun _ _ h _ => h) <|
    .cons (.gfld GP.any fun _ _ h _ => h) <|
    .cons (.gfld GP.any fun _ _ h _ => h) <|
    .cons (.gfld GP.any fun _ _ h _ => h) <|
    .cons (.gfld ToneMapper.gp fun _ _ h hv => ⟨h.1, h.2.1, h.2.2.1, h.2.2.2.1, h.2.2.2.2.1, h.2.2.2.2.2.1, h.2.2.2.2.2.2.1, h.2.2.2.2.2.2.2.1, h.2.2.2.2.2.2.2.2.1, h.2.2.2.2.2.2.2.2.2.1, h.2.2.2.2.2.2.2.2.2.2.1, h.2.2.2.2.2.2.2.2.2.2.2.1, .some hv, h.2.2.2.2.2.2.2.2.2.2.2.2.2.1, h.2.2.2.2.2.2.2.2.2.2.2.2.2.2.1, h.2.2.2.2.2.2.2.2.2.2.2.2.2.2.2.1, h.2.2.2.2.2.2.2.2.2.2.2.2.2.2.2.2.1, h.2.2.2.2.2.2.2.2.2.2.2.2.2.2.2.2.2.1, h.2.2.2.2.2.2.2.2.2.2.2.2.2.2.2.2.2.2.1, h.2.2.2.2.2.2.2.2.2.2.2.2.2.2.2.2.2.2.2.1, h.2.2.2.2.2.2.2.2.2.2.2.2.2.2.2.2.2.2.2.2⟩) <|
    .cons (.gfld GP.any fun _ _ h _ => h) <|
    .cons (.gfld GP.any fun _ _ h _ => h) .nil

theorem GameData.armsE_tame : ArmsTame (GameData.armsE) := by
  unfold GameData.armsE
  exact .cons (fun _ => f32_tame.fld) <|
    .cons (fun _ => f32_tame.fld) <|
    .cons (fun _ => i32_tame.fld) <|
    .cons (fun _ => i32_tame.fld) <|
    .cons (fun _ => i32_tame.fld) <|
    .cons (fun _ => quant8_tame.fld) <|
    .cons (fun _ => i32_tame.fld) <|
    .cons (fun _ => bool_tame.fld) <|
    .cons (fun _ => f32_tame.fld) <|
    .cons (fun _ => f32_tame.fld) <|
    .cons (fun _ => u32_tame.fld) <|
    .cons (fun _ => u32_tame.fld) <|
    .cons (fun _ => bool_tame.fld) <|
    .cons (fun _ => bool_tame.fld) <|
    .cons (fun _ => bool_tame.fld) <|
    .cons (fun _ => bool_tame.fld) <|
    .cons (fun _ => i32_tame.fld) <|
    .cons (fun _ => i32_tame.fld) <|
    .cons (fun _ => i32_tame.fld) <|
    .cons (fun _ => i32_tame.fld) <|
    .cons (fun _ => enum_tame.fld) <|
    .cons (fun _ => f32_tame.fld) <|
    .cons (fun _ => f32_tame.fld) .nil

theorem GameData.armsF_inv : GArmsInv GameData.Fields (GameData.armsF) := by
  unfold GameData.armsF
  exact .cons (.gfld GP.any fun _ _ h _ => h) <|
    .cons (.gfldS (fun _ => saveMaterials_gp) fun _ _ h hv => ⟨h.1, h.2.1, h.2.2.1, h.2.2.2.1, h.2.2.2.2.1, h.2.2.2.2.2.1, h.2.2.2.2.2.2.1, h.2.2.2.2.2.2.2.1, h.2.2.2.2.2.2.2.2.1, h.2.2.2.2.2.2.2.2.2.1, h.2.2.2.2.2.2.2.2.2.2.1, h.2.2.2.2.2.2.2.2.2.2.2.1, h.2.2.2.2.2.2.2.2.2.2.2.2.1, hv, h.2.2.2.2.2.2.2.2.2.2.2.2.2.2.1, h.2.2.2.2.2.2.2.2.2.2.2.2.2.2.2.1, h.2.2.2.2.2.2.2.2.2.2.2.2.2.2.2.2.1, h.2.2.2.2.2.2.2.2.2.2.2.2.2.2.2.2.2.1, h.2.2.2.2.2.2.2.2.2.2.2.2.2.2.2.2.2.2.1, h.2.2.2.2.2.2.2.2.2.2.2.2.2.2.2.2.2.2.2.1, h.2.2.2.2.2.2.2.2.2.2.2.2.2.2.2.2.2.2.2.2⟩) <|
    .cons (.gfldS (fun _ => savePhysics_gp) fun _ _ h hv => ⟨h.1, h.2.1, h.2.2.1, h.2.2.2.1, h.2.2.2.2.1, h.2.2.2.2.2.1, h.2.2.2.2.2.2.1, h.2.2.2.2.2.2.2.1, h.2.2.2.2.2.2.2.2.1, h.2.2.2.2.2.2.2.2.2.1, h.2.2.2.2.2.2.2.2.2.2.1, h.2.2.2.2.2.2.2.2.2.2.2.1, h.2.2.2.2.2.2.2.2.2.2.2.2.1, h.2.2.2.2.2.2.2.2.2.2.2.2.2.1, .some hv, h.2.2.2.2.2.2.2.2.2.2.2.2.2.2.2.1, h.2.2.2.2.2.2.2.2.2.2.2.2.2.2.2.2.1, h.2.2.2.2.2.2.2.2.2.2.2.2.2.2.2.2.2.1, h.2.2.2.2.2.2.2.2.2.2.2.2.2.2.2.2.2.2.1, h.2.2.2.2.2.2.2.2.2.2.2.2.2.2.2.2.2.2.2.1, h.2.2.2.2.2.2.2.2.2.2.2.2.2.2.2.2.2.2.2.2⟩) <|
    .cons (.gfld material_gp fun _ _ h hv => ⟨h.1, h.2.1, h.2.2.1, h.2.2.2.1, h.2.2.2.2.1, h.2.2.2.2.2.1, h.2.2.2.2.2.2.1, h.2.2.2.2.2.2.2.1, h.2.2.2.2.2.2.2.2.1, h.2.2.2.2.2.2.2.2.2.1, h.2.2.2.2.2.2.2.2.2.2.1, h.2.2.2.2.2.2.2.2.2.2.2.1, h.2.2.2.2.2.2.2.2.2.2.2.2.1, h.2.2.2.2.2.2.2.2.2.2.2.2.2.1, h.2.2.2.2.2.2.2.2.2.2.2.2.2.2.1, (push_list (h.2.2.2.2.2.2.2.2.2.2.2.2.2.2.2.1) hv), h.2.2.2.2.2.2.2.2.2.2.2.2.2.2.2.2.1, h.2.2.2.2.2.2.2.2.2.2.2.2.2.2.2.2.2.1, h.2.2.2.2.2.2.2.2.2.2.2.2.2.2.2.2.2.2.1, h.2.2.2.2.2.2.2.2.2.2.2.2.2.2.2.2.2.2.2.1, h.2.2.2.2.2.2.2.2.2.2.2.2.2.2.2.2.2.2.2.2⟩) <|
    .cons (.gfld probe_gp fun _ _ h hv => ⟨h.1, h.2.1, h.2.2.1, h.2.2.2.1, h.2.2.2.2.1, h.2.2.2.2.2.1, h.2.2.2.2.2.2.1, h.2.2.2.2.2.2.2.1, h.2.2.2.2.2.2.2.2.1, h.2.2.2.2.2.2.2.2.2.1, h.2.2.2.2.2.2.2.2.2.2.1, h.2.2.2.2.2.2.2.2.2.2.2.1, h.2.2.2.2.2.2.2.2.2.2.2.2.1, h.2.2.2.2.2.2.2.2.2.2.2.2.2.1, h.2.2.2.2.2.2.2.2.2.2.2.2.2.2.1, h.2.2.2.2.2.2.2.2.2.2.2.2.2.2.2.1, (push_list (h.2.2.2.2.2.2.2.2.2.2.2.2.2.2.2.2.1) hv), h.2.2.2.2.2.2.2.2.2.2.2.2.2.2.2.2.2.1, h.2.2.2.2.2.2.2.2.2.2.2.2.2.2.2.2.2.2.1, h.2.2.2.2.2.2.2.2.2.2.2.2.2.2.2.2.2.2.2.1, h.2.2.2.2.2.2.2.2.2.2.2.2.2.2.2.2.2.2.2.2⟩) <|
    .cons (.gfld GP.any fun _ _ h _ => h) <|
    .cons (.gfld GP.any fun _ _ h _ => h) <|
    .cons (.gfld GP.any fun _ _ h _ => h) <|
    .cons (.gfld GP.any fun _ _ h _ => h) <|
    .cons (.gfld GP.any fun _ _ h _ => h) <|
    .cons (.gfld wide_gp fun _ _ h hv => ⟨h.1, h.2.1, h.2.2.1, h.2.2.2.1, h.2.2.2.2.1, h.2.2.2.2.2.1, h.2.2.2.2.2.2.1, h.2.2.2.2.2.2.2.1, h.2.2.2.2.2.2.2.2.1, h.2.2.2.2.2.2.2.2.2.1, h.2.2.2.2.2.2.2.2.2.2.1, h.2.2.2.2.2.2.2.2.2.2.2.1, h.2.2.2.2.2.2.2.2.2.2.2.2.1, h.2.2.2.2.2.2.2.2.2.2.2.2.2.1, h.2.2.2.2.2.2.2.2.2.2.2.2.2.2.1, h.2.2.2.2.2.2.2.2.2.2.2.2.2.2.2.1, h.2.2.2.2.2.2.2.2.2.2.2.2.2.2.2.2.1, hv, h.2.2.2.2.2.2.2.2.2.2.2.2.2.2.2.2.2.2.1, h.2.2.2.2.2.2.2.2.2.2.2.2.2.2.2.2.2.2.2.1, h.2.2.2.2.2.2.2.2.2.2.2.2.2.2.2.2.2.2.2.2⟩) <|
    .cons (.gfld colors_gp fun _ _ h hv => ⟨h.1, h.2.1, h.2.2.1, h.2.2.2.1, h.2.2.2.2.1, h.2.2.2.2.2.1, h.2.2.2.2.2.2.1, h.2.2.2.2.2.2.2.1, h.2.2.2.2.2.2.2.2.1, h.2.2.2.2.2.2.2.2.2.1, h.2.2.2.2.2.2.2.2.2.2.1, h.2.2.2.2.2.2.2.2.2.2.2.1, h.2.2.2.2.2.2.2.2.2.2.2.2.1, h.2.2.2.2.2.2.2.2.2.2.2.2.2.1, h.2.2.2.2.2.2.2.2.2.2.2.2.2.2.1, h.2.2.2.2.2.2.2.2.2.2.2.2.2.2.2.1, h.2.2.2.2.2.2.2.2.2.2.2.2.2.2.2.2.1, h.2.2.2.2.2.2.2.2.2.2.2.2.2.2.2.2.2.1, hv, h.2.2.2.2.2.2.2.2.2.2.2.2.2.2.2.2.2.2.2.1, h.2.2.2.2.2.2.2.2.2.2.2.2.2.2.2.2.2.2.2.2⟩) <|
    .cons (.gfld data_gp fun _ _ h hv => ⟨h.1, h.2.1, h.2.2.1, h.2.2.2.1, h.2.2.2.2.1, h.2.2.2.2.2.1, h.2.2.2.2.2.2.1, h.2.2.2.2.2.2.2.1, h.2.2.2.2.2.2.2.2.1, h.2.2.2.2.2.2.2.2.2.1, h.2.2.2.2.2.2.2.2.2.2.1, h.2.2.2.2.2.2.2.2.2.2.2.1, h.2.2.2.2.2.2.2.2.2.2.2.2.1, h.2.2.2.2.2.2.2.2.2.2.2.2.2.1, h.2.2.2.2.2.2.2.2.2.2.2.2.2.2.1, h.2.2.2.2.2.2.2.2.2.2.2.2.2.2.2.1, h.2.2.2.2.2.2.2.2.2.2.2.2.2.2.2.2.1, h.2.2.2.2.2.2.2.2.2.2.2.2.2.2.2.2.2.1, h.2.2.2.2.2.2.2.2.2.2.2.2.2.2.2.2.2.2.1, .some hv, h.2.2.2.2.2.2.2.2.2.2.2.2.2.2.2.2.2.2.2.2⟩) <|
    .cons (.gfld code_gp fun _ _ h hv => ⟨h.1, h.2.1, h.2.2.1, h.2.2.2.1, h.2.2.2.2.1, h.2.2.2.2.2.1, h.2.2.2.2.2.2.1, h.2.2.2.2.2.2.2.1, h.2.2.2.2.2.2.2.2.1, h.2.2.2.2.2.2.2.2.2.1, h.2.2.2.2.2.2.2.2.2.2.1, h.2.2.2.2.2.2.2.2.2.2.2.1, h.2.2.2.2.2.2.2.2.2.2.2.2.1, h.2.2.2.2.2.2.2.2.2.2.2.2.2.1, h.2.2.2.2.2.2.2.2.2.2.2.2.2.2.1, h.2.2.2.2.2.2.2.2.2.2.2.2.2.2.2.1, h.2.2.2.2.2.2.2.2.2.2.2.2.2.2.2.2.1, h.2.2.2.2.2.2.2.2.2.2.2.2.2.2.2.2.2.1, h.2.2.2.2.2.2.2.2.2.2.2.2.2.2.2.2.2.2.1, h.2.2.2.2.2.2.2.2.2.2.2.2.2.2.2.2.2.2.2.1, hv⟩) <|
    .cons (.gfld GP.any fun _ _ h _ => h) .nil

theorem GameData.armsF_tame : ArmsTame (GameData.armsF) := by
  unfold GameData.armsF
  exact .cons (fun _ => u32_tame.fld) <|
    .cons (fun _ => (fixedList_tame _ _).fld) <|
    .cons (fun _ => (fixedList_tame _ _).fld) <|
    .cons (fun _ => matr_tame.fld) <|
    .cons (fun _ => rprb_tame.fld) <|
    .cons (fun _ => u32_tame.fld) <|
    .cons (fun _ => u32_tame.fld) <|
    .cons (fun _ => u32_tame.fld) <|
    .cons (fun _ => u32_tame.fld) <|
    .cons (fun _ => u32_tame.fld) <|
    .cons (fun _ => wide_tame.fld) <|
    .cons (fun _ => colors_tame.fld) <|
    .cons (fun _ => data_tame.fld) <|
    .cons (fun _ => code_tame.fld) <|
    .cons (fun _ => u32_tame.fld) .nil

theorem GameData.armsA_beta {v : UInt32} : GArmsInv (BetaOk v) (GameData.armsA v) := by
  unfold GameData.armsA
  exact .cons (.gfld GP.any fun _ _ h _ => h) <|
    .cons (.gfld GP.any fun _ _ h _ => h) <|
    .cons (.gfld GP.any fun _ _ h _ => h) <|
    .cons (.gfld GP.any fun _ _ h _ => h) <|
    .cons (.gfld GP.any fun _ _ h _ => h) <|
    .cons (.gfld GP.any fun _ _ h _ => h) <|
    .cons (.gfld GP.any fun _ _ h _ => h) <|
    .cons (.gfld GP.any fun _ _ h _ => h) <|
    .cons (.gfld GP.any fun _ _ h _ => h) <|
    .cons (.gfld GP.any fun _ _ h _ => h) <|
    .cons (.gfld GP.any fun _ _ h _ => h) <|
    .cons (.gfld GP.any fun _ _ h _ => h) <|
    .cons (.gfld GP.any fun _ _ h _ => h) <|
    .cons (.gfld GP.any fun _ _ h _ => h) <|
    .cons (.gfld GP.any fun _ _ h _ => h) <|
    .cons (.gfld GP.any fun _ _ h _ => h) <|
    .cons efss_beta <|
    .cons (.gfld GP.any fun _ _ h _ => h) <|
    .cons (.gfld GP.any fun _ _ h _ => h) <|
    .cons (.gfld GP.any fun _ _ h _ => h) <|
    .cons (.gfld GP.any fun _ _ h _ => h) <|
    .cons (.gfld GP.any fun _ _ h _ => h) <|
    .cons (.gfld GP.any fun _ _ h _ => h) <|
    .cons (.gfld GP.any fun _ _ h _ => h) <|
    .cons (.gfld GP.any fun _ _ h _ => h) <|
    .cons (.gfld GP.any fun _ _ h _ => h) .nil

theorem GameData.armsB_beta {v : UInt32} : GArmsInv (BetaOk v) (GameData.armsB) := by
  unfold GameData.armsB
  exact .cons (.gfld GP.any fun _ _ h _ => h) <|
    .cons (.gfld GP.any fun _ _ h _ => h) <|
    .cons (.gfld GP.any fun _ _ h _ => h) <|
    .cons (.gfld GP.any fun _ _ h _ => h) <|
    .cons (.gfld GP.any fun _ _ h _ => h) <|
    .cons (.gfld GP.any fun _ _ h _ => h) <|
    .cons (.gfld GP.any fun _ _ h _ => h) <|
    .cons (.gfld GP.any fun _ _ h _ => h) <|
    .cons (.gfld GP.any fun _ _ h _ => h) <|
    .cons (.gfld GP.any fun _ _ h _ => h) <|
    .cons (.gfld GP.any fun _ _ h _ => h) <|
    .cons (.gfld GP.any fun _ _ h _ => h) <|
    .cons (.gfld GP.any fun _ _ h _ => h) <|
    .cons (.gfld GP.any fun _ _ h _ => h) <|
    .cons (.gfld GP.any fun _ _ h _ => h) <|
    .cons (.gfld GP.any fun _ _ h _ => h) <|
    .cons (.gfld GP.any fun _ _ h _ => h) <|
    .cons (.gfld GP.any fun _ _ h _ => h) <|
    .cons (.gfld GP.any fun _ _ h _ => h) <|
    .cons (.gfld GP.any fun _ _ h _ => h) <|
    .cons (.gfld GP.any fun _ _ h _ => h) <|
    .cons (.gfld GP.any fun _ _ h _ => h) <|
    .cons (.gfld GP.any fun _ _ h _ => h) <|
    .cons (.gfld GP.any fun _ _ h _ => h) <|
    .cons (.gfld GP.any fun _ _ h _ => h) <|
    .cons (.gfld GP.any fun _ _ h _ => h) <|
    .cons (.gfld GP.any fun _ _ h _ => h) <|
    .cons (.gfld GP.any fun _ _ h _ => h) <|
    .cons (.gfld GP.any fun _ _ h _ => h) <|
    .cons (.gfld GP.any fun _ _ h _ => h) <|
    .cons (.gfld GP.any fun _ _ h _ => h) <|
    .cons (.gfld GP.any fun _ _ h _ => h) <|
    .cons (.gfld GP.any fun _ _ h _ => h) <|
    .cons (.gfld GP.any fun _ _ h _ => h) <|
    .cons (.gfld GP.any fun _ _ h _ => h) <|
    .cons (.gfld GP.any fun _ _ h _ => h) <|
    .cons (.gfld GP.any fun _ _ h _ => h) .nil

theorem GameData.armsC_beta {v : UInt32} : GArmsInv (BetaOk v) (GameData.armsC) := by
  unfold GameData.armsC
  exact .cons (.gfld GP.any fun _ _ h _ => h) <|
    .cons (.gfld GP.any fun _ _ h _ => h) <|
    .cons (.gfld GP.any fun _ _ h _ => h) <|
    .cons (.gfld GP.any fun _ _ h _ => h) <|
    .cons (.gfld GP.any fun _ _ h _ => h) <|
    .cons (.gfld GP.any fun _ _ h _ => h) <|
    .cons (.gfld GP.any fun _ _ h _ => h) <|
    .cons (.gfld GP.any fun _ _ h _ => h) <|
    .cons (.gfld GP.any fun _ _ h _ => h) <|
    .cons (.gfld GP.any fun _ _ h _ => h) <|
    .cons (.gfld GP.any fun _ _ h _ => h) <|
    .cons (.gfld GP.any fun _ _ h _ => h) <|
    .cons (.gfld GP.any fun _ _ h _ => h) <|
    .cons (.gfld GP.any fun _ _ h _ => h) <|
    .cons (.gfld GP.any fun _ _ h _ => h) <|
    .cons (.gfld GP.any fun _ _ h _ => h) <|
    .cons (.gfld GP.any fun _ _ h _ => h) <|
    .cons (.gfld GP.any fun _ _ h _ => h) <|
    .cons (.gfld GP.any fun _ _ h _ => h) <|
    .cons (.gfld GP.any fun _ _ h _ => h) <|
    .cons (.gfld GP.any fun _ _ h _ => h) <|
    .cons (.gfld GP.any fun _ _ h _ => h) <|
    .cons (.gfld GP.any fun _ _ h _ => h) .nil

theorem GameData.armsD_beta {v : UInt32} : GArmsInv (BetaOk v) (GameData.armsD) := by
  unfold GameData.armsD
  exact .cons (.gfld GP.any fun _ _ h _ => h) <|
    .cons (.gfld GP.any fun _ _ h _ => h) <|
    .cons (.gfld GP.any fun _ _ h _ => h) <|
    .cons (.gfld GP.any fun _ _ h _ => h) <|
    .cons (.gfld GP.any fun _ _ h _ => h) <|
    .cons (.gfld GP.any fun _ _ h _ => h) <|
    .cons (.gfld GP.any fun _ _ h _ => h) <|
    .cons (.gfld GP.any fun _ _ h _ => h) <|
    .cons (.gfld GP.any fun _ _ h _ => h) <|
    .cons (.gfld GP.any fun _ _ h _ => h) <|
    .cons (.gfld GP.any fun _ _ h _ => h) <|
    .cons (.gfld GP.any fun _ _ h _ => h) <|
    .cons (.gfld GP.any fun _ _ h _ => h) <|
    .cons (.gfld GP.any fun _ _ h _ => h) <|
    .cons (.gfld GP.any fun _ _ h _ => h) <|
    .cons (.gfld GP.any fun _ _ h _ => h) <|
    .cons (.gfld GP.any fun _ _ h _ => h) <|
    .cons (.gfld GP.any fun _ _ h _ => h) <|
    .cons (.gfld GP.any fun _ _ h _ => h) <|
    .cons (.gfld GP.any fun _ _ h _ => h) <|
    .cons (.gfld GP.any fun _ _ h _ => h) <|
    .cons (.gfld GP.any fun _ _ h _ => h) <|
    .cons (.gfld GP.any fun _ _ h _ => h) <|
    .cons (.gfld GP.any fun _ _ h _ => h) <|
    .cons (.gfld GP.any fun _ _ h _ => h) <|
    .cons (.gfld GP.any fun _ _ h _ => h) <|
    .cons (.gfld GP.any fun _ _ h _ => h) <|
    .cons (.gfld GP.any fun _ _ h _ => h) <|
    .cons (.gfld GP.any fun _ _ h _ => h) .nil

theorem GameData.armsE_beta {v : UInt32} : GArmsInv (BetaOk v) (GameData.armsE) := by
  unfold GameData.armsE
  exact .cons (.gfld GP.any fun _ _ h _ => h) <|
    .cons (.gfld GP.any fun _ _ h _ => h) <|
    .cons (.gfld GP.any fun _ _ h _ => h) <|
    .cons (.gfld GP.any fun _ _ h _ => h) <|
    .cons (.gfld GP.any fun _ _ h _ => h) <|
    .cons (.gfld GP.any fun _ _ h _ => h) <|
    .cons (.gfld GP.any fun _ _ h _ => h) <|
    .cons (.gfld GP.any fun _ _ h _ => h) <|
    .cons (.gfld GP.any fun _ _ h _ => h) <|
    .cons (.gfld GP.any fun _ _ h _ => h) <|
    .cons (.gfld GP.any fun _ _ h _ => h) <|
    .cons (.gfld GP.any fun _ _ h _ => h) <|
    .cons (.gfld GP.any fun _ _ h _ => h) <|
    .cons (.gfld GP.any fun _ _ h _ => h) <|
    .cons (.gfld GP.any fun _ _ h _ => h) <|
    .cons (.gfld GP.any fun _ _ h _ => h) <|
    .cons (.gfld GP.any fun _ _ h _ => h) <|
    .cons (.gfld GP.any fun _ _ h _ => h) <|
    .cons (.gfld GP.any fun _ _ h _ => h) <|
    .cons (.gfld GP.any fun _ _ h _ => h) <|
    .cons (.gfld GP.any fun _ _ h _ => h) <|
    .cons (.gfld GP.any fun _ _ h _ => h) <|
    .cons (.gfld GP.any fun _ _ h _ => h) .nil

theorem GameData.armsF_beta {v : UInt32} : GArmsInv (BetaOk v) (GameData.armsF) := by
  unfold GameData.armsF
  exact .cons (.gfld GP.any fun _ _ h _ => h) <|
    .cons (.gfldS (fun _ => GP.any) fun _ _ h _ => h) <|
    .cons (.gfldS (fun _ => GP.any) fun _ _ h _ => h) <|
    .cons (.gfld GP.any fun _ _ h _ => h) <|
    .cons (.gfld GP.any fun _ _ h _ => h) <|
    .cons (.gfld GP.any fun _ _ h _ => h) <|
    .cons (.gfld GP.any fun _ _ h _ => h) <|
    .cons (.gfld GP.any fun _ _ h _ => h) <|
    .cons (.gfld GP.any fun _ _ h _ => h) <|
    .cons (.gfld GP.any fun _ _ h _ => h) <|
    .cons (.gfld GP.any fun _ _ h _ => h) <|
    .cons (.gfld GP.any fun _ _ h _ => h) <|
    .cons (.gfld GP.any fun _ _ h _ => h) <|
    .cons (.gfld GP.any fun _ _ h _ => h) <|
    .cons (.gfld GP.any fun _ _ h _ => h) .nil

theorem GameData.default_fields : GameData.default.Fields :=
  ⟨by decide, by decide, by decide, .none, by decide, by decide, by decide, .none, .none, by decide, by decide, ⟨255, by decide, by decide +kernel⟩, .none, (by intro m hm; cases hm), .none, .none, .none, by decide, rfl, .none, ⟨[], by decide, by decide, by decide⟩⟩

end Vpin
