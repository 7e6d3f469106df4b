import Verif.Lemmas.Enums
import Verif.Lemmas.Tame
import Verif.Lemmas.ItemData
import Verif.Lemmas.PrimitiveAnim
/-
`Primitive`: reading back what was written, and what the reader guarantees for every input.
Generated by tools/gen_items.py.
-/
namespace Vpin


theorem Primitive.reads {s : Primitive} (h : s.WF) : OReads Primitive.arms s.ops Primitive.init s := by
  unfold Primitive.ops
  refine .segTo ⟨Primitive.init.name, s.position, Primitive.init.size, Primitive.init.rot_and_tra0, Primitive.init.rot_and_tra1, Primitive.init.rot_and_tra2, Primitive.init.rot_and_tra3, Primitive.init.rot_and_tra4, Primitive.init.rot_and_tra5, Primitive.init.rot_and_tra6, Primitive.init.rot_and_tra7, Primitive.init.rot_and_tra8, Primitive.init.image, Primitive.init.normal_map, Primitive.init.sides, Primitive.init.material, Primitive.init.side_color, Primitive.init.is_visible, Primitive.init.draw_textures_inside, Primitive.init.hit_event, Primitive.init.threshold, Primitive.init.elasticity, Primitive.init.elasticity_falloff, Primitive.init.friction, Primitive.init.scatter, Primitive.init.edge_factor_ui, Primitive.init.collision_reduction_factor, Primitive.init.is_collidable, Primitive.init.is_toy, Primitive.init.use_3d_mesh, Primitive.init.static_rendering, Primitive.init.disable_lighting_top_old, Primitive.init.disable_lighting_top, Primitive.init.disable_lighting_below, Primitive.init.is_reflection_enabled, Primitive.init.backfaces_enabled, Primitive.init.physics_material, Primitive.init.overwrite_physics, Primitive.init.display_texture, Primitive.init.object_space_normal_map, Primitive.init.min_aa_bound, Primitive.init.max_aa_bound, Primitive.init.mesh_file_name, Primitive.init.num_vertices, Primitive.init.compressed_vertices_len, Primitive.init.compressed_vertices_data, Primitive.init.num_indices, Primitive.init.compressed_indices_len, Primitive.init.compressed_indices_data, Primitive.init.compressed_animation_vertices_len, Primitive.init.compressed_animation_vertices_data, Primitive.init.depth_bias, Primitive.init.add_blend, Primitive.init.use_depth_mask, Primitive.init.alpha, Primitive.init.color, Primitive.init.light_map, Primitive.init.reflection_probe, Primitive.init.reflection_strength, Primitive.init.refraction_probe, Primitive.init.refraction_thickness, Primitive.init.shared⟩
    (vertex3d_rt.req trivial rfl) rfl ?_
  refine .segTo ⟨Primitive.init.name, s.position, s.size, Primitive.init.rot_and_tra0, Primitive.init.rot_and_tra1, Primitive.init.rot_and_tra2, Primitive.init.rot_and_tra3, Primitive.init.rot_and_tra4, Primitive.init.rot_and_tra5, Primitive.init.rot_and_tra6, Primitive.init.rot_and_tra7, Primitive.init.rot_and_tra8, Primitive.init.image, Primitive.init.normal_map, Primitive.init.sides, Primitive.init.material, Primitive.init.side_color, Primitive.init.is_visible, Primitive.init.draw_textures_inside, Primitive.init.hit_event, Primitive.init.threshold, Primitive.init.elasticity, Primitive.init.elasticity_falloff, Primitive.init.friction, Primitive.init.scatter, Primitive.init.edge_factor_ui, Primitive.init.collision_reduction_factor, Primitive.init.is_collidable, Primitive.init.is_toy, Primitive.init.use_3d_mesh, Primitive.init.static_rendering, Primitive.init.disable_lighting_top_old, Primitive.init.disable_lighting_top, Primitive.init.disable_lighting_below, Primitive.init.is_reflection_enabled, Primitive.init.backfaces_enabled, Primitive.init.physics_material, Primitive.init.overwrite_physics, Primitive.init.display_texture, Primitive.init.object_space_normal_map, Primitive.init.min_aa_bound, Primitive.init.max_aa_bound, Primitive.init.mesh_file_name, Primitive.init.num_vertices, Primitive.init.compressed_vertices_len, Primitive.init.compressed_vertices_data, Primitive.init.num_indices, Primitive.init.compressed_indices_len, Primitive.init.compressed_indices_data, Primitive.init.compressed_animation_vertices_len, Primitive.init.compressed_animation_vertices_data, Primitive.init.depth_bias, Primitive.init.add_blend, Primitive.init.use_depth_mask, Primitive.init.alpha, Primitive.init.color, Primitive.init.light_map, Primitive.init.reflection_probe, Primitive.init.reflection_strength, Primitive.init.refraction_probe, Primitive.init.refraction_thickness, Primitive.init.shared⟩
    (vertex3d_rt.req trivial rfl) rfl ?_
  refine .segTo ⟨Primitive.init.name, s.position, s.size, s.rot_and_tra0, Primitive.init.rot_and_tra1, Primitive.init.rot_and_tra2, Primitive.init.rot_and_tra3, Primitive.init.rot_and_tra4, Primitive.init.rot_and_tra5, Primitive.init.rot_and_tra6, Primitive.init.rot_and_tra7, Primitive.init.rot_and_tra8, Primitive.init.image, Primitive.init.normal_map, Primitive.init.sides, Primitive.init.material, Primitive.init.side_color, Primitive.init.is_visible, Primitive.init.draw_textures_inside, Primitive.init.hit_event, Primitive.init.threshold, Primitive.init.elasticity, Primitive.init.elasticity_falloff, Primitive.init.friction, Primitive.init.scatter, Primitive.init.edge_factor_ui, Primitive.init.collision_reduction_factor, Primitive.init.is_collidable, Primitive.init.is_toy, Primitive.init.use_3d_mesh, Primitive.init.static_rendering, Primitive.init.disable_lighting_top_old, Primitive.init.disable_lighting_top, Primitive.init.disable_lighting_below, Primitive.init.is_reflection_enabled, Primitive.init.backfaces_enabled, Primitive.init.physics_material, Primitive.init.overwrite_physics, Primitive.init.display_texture, Primitive.init.object_space_normal_map, Primitive.init.min_aa_bound, Primitive.init.max_aa_bound, Primitive.init.mesh_file_name, Primitive.init.num_vertices, Primitive.init.compressed_vertices_len, Primitive.init.compressed_vertices_data, Primitive.init.num_indices, Primitive.init.compressed_indices_len, Primitive.init.compressed_indices_data, Primitive.init.compressed_animation_vertices_len, Primitive.init.compressed_animation_vertices_data, Primitive.init.depth_bias, Primitive.init.add_blend, Primitive.init.use_depth_mask, Primitive.init.alpha, Primitive.init.color, Primitive.init.light_map, Primitive.init.reflection_probe, Primitive.init.reflection_strength, Primitive.init.refraction_probe, Primitive.init.refraction_thickness, Primitive.init.shared⟩
    (f32_rt.req trivial rfl) rfl ?_
  refine .segTo ⟨Primitive.init.name, s.position, s.size, s.rot_and_tra0, s.rot_and_tra1, Primitive.init.rot_and_tra2, Primitive.init.rot_and_tra3, Primitive.init.rot_and_tra4, Primitive.init.rot_and_tra5, Primitive.init.rot_and_tra6, Primitive.init.rot_and_tra7, Primitive.init.rot_and_tra8, Primitive.init.image, Primitive.init.normal_map, Primitive.init.sides, Primitive.init.material, Primitive.init.side_color, Primitive.init.is_visible, Primitive.init.draw_textures_inside, Primitive.init.hit_event, Primitive.init.threshold, Primitive.init.elasticity, Primitive.init.elasticity_falloff, Primitive.init.friction, Primitive.init.scatter, Primitive.init.edge_factor_ui, Primitive.init.collision_reduction_factor, Primitive.init.is_collidable, Primitive.init.is_toy, Primitive.init.use_3d_mesh, Primitive.init.static_rendering, Primitive.init.disable_lighting_top_old, Primitive.init.disable_lighting_top, Primitive.init.disable_lighting_below, Primitive.init.is_reflection_enabled, Primitive.init.backfaces_enabled, Primitive.init.physics_material, Primitive.init.overwrite_physics, Primitive.init.display_texture, Primitive.init.object_space_normal_map, Primitive.init.min_aa_bound, Primitive.init.max_aa_bound, Primitive.init.mesh_file_name, Primitive.init.num_vertices, Primitive.init.compressed_vertices_len, Primitive.init.compressed_vertices_data, Primitive.init.num_indices, Primitive.init.compressed_indices_len, Primitive.init.compressed_indices_data, Primitive.init.compressed_animation_vertices_len, Primitive.init.compressed_animation_vertices_data, Primitive.init.depth_bias, Primitive.init.add_blend, Primitive.init.use_depth_mask, Primitive.init.alpha, Primitive.init.color, Primitive.init.light_map, Primitive.init.reflection_probe, Primitive.init.reflection_strength, Primitive.init.refraction_probe, Primitive.init.refraction_thickness, Primitive.init.shared⟩
    (f32_rt.req trivial rfl) rfl ?_
  refine .segTo ⟨Primitive.init.name, s.position, s.size, s.rot_and_tra0, s.rot_and_tra1, s.rot_and_tra2, Primitive.init.rot_and_tra3, Primitive.init.rot_and_tra4, Primitive.init.rot_and_tra5, Primitive.init.rot_and_tra6, Primitive.init.rot_and_tra7, Primitive.init.rot_and_tra8, Primitive.init.image, Primitive.init.normal_map, Primitive.init.sides, Primitive.init.material, Primitive.init.side_color, Primitive.init.is_visible, Primitive.init.draw_textures_inside, Primitive.init.hit_event, Primitive.init.threshold, Primitive.init.elasticity, Primitive.init.elasticity_falloff, Primitive.init.friction, Primitive.init.scatter, Primitive.init.edge_factor_ui, Primitive.init.collision_reduction_factor, Primitive.init.is_collidable, Primitive.init.is_toy, Primitive.init.use_3d_mesh, Primitive.init.static_rendering, Primitive.init.disable_lighting_top_old, Primitive.init.disable_lighting_top, Primitive.init.disable_lighting_below, Primitive.init.is_reflection_enabled, Primitive.init.backfaces_enabled, Primitive.init.physics_material, Primitive.init.overwrite_physics, Primitive.init.display_texture, Primitive.init.object_space_normal_map, Primitive.init.min_aa_bound, Primitive.init.max_aa_bound, Primitive.init.mesh_file_name, Primitive.init.num_vertices, Primitive.init.compressed_vertices_len, Primitive.init.compressed_vertices_data, Primitive.init.num_indices, Primitive.init.compressed_indices_len, Primitive.init.compressed_indices_data, Primitive.init.compressed_animation_vertices_len, Primitive.init.compressed_animation_vertices_data, Primitive.init.depth_bias, Primitive.init.add_blend, Primitive.init.use_depth_mask, Primitive.init.alpha, Primitive.init.color, Primitive.init.light_map, Primitive.init.reflection_probe, Primitive.init.reflection_strength, Primitive.init.refraction_probe, Primitive.init.refraction_thickness, Primitive.init.shared⟩
    (f32_rt.req trivial rfl) rfl ?_
  refine .segTo ⟨Primitive.init.name, s.position, s.size, s.rot_and_tra0, s.rot_and_tra1, s.rot_and_tra2, s.rot_and_tra3, Primitive.init.rot_and_tra4, Primitive.init.rot_and_tra5, Primitive.init.rot_and_tra6, Primitive.init.rot_and_tra7, Primitive.init.rot_and_tra8, Primitive.init.image, Primitive.init.normal_map, Primitive.init.sides, Primitive.init.material, Primitive.init.side_color, Primitive.init.is_visible, Primitive.init.draw_textures_inside, Primitive.init.hit_event, Primitive.init.threshold, Primitive.init.elasticity, Primitive.init.elasticity_falloff, Primitive.init.friction, Primitive.init.scatter, Primitive.init.edge_factor_ui, Primitive.init.collision_reduction_factor, Primitive.init.is_collidable, Primitive.init.is_toy, Primitive.init.use_3d_mesh, Primitive.init.static_rendering, Primitive.init.disable_lighting_top_old, Primitive.init.disable_lighting_top, Primitive.init.disable_lighting_below, Primitive.init.is_reflection_enabled, Primitive.init.backfaces_enabled, Primitive.init.physics_material, Primitive.init.overwrite_physics, Primitive.init.display_texture, Primitive.init.object_space_normal_map, Primitive.init.min_aa_bound, Primitive.init.max_aa_bound, Primitive.init.mesh_file_name, Primitive.init.num_vertices, Primitive.init.compressed_vertices_len, Primitive.init.compressed_vertices_data, Primitive.init.num_indices, Primitive.init.compressed_indices_len, Primitive.init.compressed_indices_data, Primitive.init.compressed_animation_vertices_len, Primitive.init.compressed_animation_vertices_data, Primitive.init.depth_bias, Primitive.init.add_blend, Primitive.init.use_depth_mask, Primitive.init.alpha, Primitive.init.color, Primitive.init.light_map, Primitive.init.reflection_probe, Primitive.init.reflection_strength, Primitive.init.refraction_probe, Primitive.init.refraction_thickness, Primitive.init.shared⟩
    (f32_rt.req trivial rfl) rfl ?_
  refine .segTo ⟨Primitive.init.name, s.position, s.size, s.rot_and_tra0, s.rot_and_tra1, s.rot_and_tra2, s.rot_and_tra3, s.rot_and_tra4, Primitive.init.rot_and_tra5, Primitive.init.rot_and_tra6, Primitive.init.rot_and_tra7, Primitive.init.rot_and_tra8, Primitive.init.image, Primitive.init.normal_map, Primitive.init.sides, Primitive.init.material, Primitive.init.side_color, Primitive.init.is_visible, Primitive.init.draw_textures_inside, Primitive.init.hit_event, Primitive.init.threshold, Primitive.init.elasticity, Primitive.init.elasticity_falloff, Primitive.init.friction, Primitive.init.scatter, Primitive.init.edge_factor_ui, Primitive.init.collision_reduction_factor, Primitive.init.is_collidable, Primitive.init.is_toy, Primitive.init.use_3d_mesh, Primitive.init.static_rendering, Primitive.init.disable_lighting_top_old, Primitive.init.disable_lighting_top, Primitive.init.disable_lighting_below, Primitive.init.is_reflection_enabled, Primitive.init.backfaces_enabled, Primitive.init.physics_material, Primitive.init.overwrite_physics, Primitive.init.display_texture, Primitive.init.object_space_normal_map, Primitive.init.min_aa_bound, Primitive.init.max_aa_bound, Primitive.init.mesh_file_name, Primitive.init.num_vertices, Primitive.init.compressed_vertices_len, Primitive.init.compressed_vertices_data, Primitive.init.num_indices, Primitive.init.compressed_indices_len, Primitive.init.compressed_indices_data, Primitive.init.compressed_animation_vertices_len, Primitive.init.compressed_animation_vertices_data, Primitive.init.depth_bias, Primitive.init.add_blend, Primitive.init.use_depth_mask, Primitive.init.alpha, Primitive.init.color, Primitive.init.light_map, Primitive.init.reflection_probe, Primitive.init.reflection_strength, Primitive.init.refraction_probe, Primitive.init.refraction_thickness, Primitive.init.shared⟩
    (f32_rt.req trivial rfl) rfl ?_
  refine .segTo ⟨Primitive.init.name, s.position, s.size, s.rot_and_tra0, s.rot_and_tra1, s.rot_and_tra2, s.rot_and_tra3, s.rot_and_tra4, s.rot_and_tra5, Primitive.init.rot_and_tra6, Primitive.init.rot_and_tra7, Primitive.init.rot_and_tra8, Primitive.init.image, Primitive.init.normal_map, Primitive.init.sides, Primitive.init.material, Primitive.init.side_color, Primitive.init.is_visible, Primitive.init.draw_textures_inside, Primitive.init.hit_event, Primitive.init.threshold, Primitive.init.elasticity, Primitive.init.elasticity_falloff, Primitive.init.friction, Primitive.init.scatter, Primitive.init.edge_factor_ui, Primitive.init.collision_reduction_factor, Primitive.init.is_collidable, Primitive.init.is_toy, Primitive.init.use_3d_mesh, Primitive.init.static_rendering, Primitive.init.disable_lighting_top_old, Primitive.init.disable_lighting_top, Primitive.init.disable_lighting_below, Primitive.init.is_reflection_enabled, Primitive.init.backfaces_enabled, Primitive.init.physics_material, Primitive.init.overwrite_physics, Primitive.init.display_texture, Primitive.init.object_space_normal_map, Primitive.init.min_aa_bound, Primitive.init.max_aa_bound, Primitive.init.mesh_file_name, Primitive.init.num_vertices, Primitive.init.compressed_vertices_len, Primitive.init.compressed_vertices_data, Primitive.init.num_indices, Primitive.init.compressed_indices_len, Primitive.init.compressed_indices_data, Primitive.init.compressed_animation_vertices_len, Primitive.init.compressed_animation_vertices_data, Primitive.init.depth_bias, Primitive.init.add_blend, Primitive.init.use_depth_mask, Primitive.init.alpha, Primitive.init.color, Primitive.init.light_map, Primitive.init.reflection_probe, Primitive.init.reflection_strength, Primitive.init.refraction_probe, Primitive.init.refraction_thickness, Primitive.init.shared⟩
    (f32_rt.req trivial rfl) rfl ?_
  refine .segTo ⟨Primitive.init.name, s.position, s.size, s.rot_and_tra0, s.rot_and_tra1, s.rot_and_tra2, s.rot_and_tra3, s.rot_and_tra4, s.rot_and_tra5, s.rot_and_tra6, Primitive.init.rot_and_tra7, Primitive.init.rot_and_tra8, Primitive.init.image, Primitive.init.normal_map, Primitive.init.sides, Primitive.init.material, Primitive.init.side_color, Primitive.init.is_visible, Primitive.init.draw_textures_inside, Primitive.init.hit_event, Primitive.init.threshold, Primitive.init.elasticity, Primitive.init.elasticity_falloff, Primitive.init.friction, Primitive.init.scatter, Primitive.init.edge_factor_ui, Primitive.init.collision_reduction_factor, Primitive.init.is_collidable, Primitive.init.is_toy, Primitive.init.use_3d_mesh, Primitive.init.static_rendering, Primitive.init.disable_lighting_top_old, Primitive.init.disable_lighting_top, Primitive.init.disable_lighting_below, Primitive.init.is_reflection_enabled, Primitive.init.backfaces_enabled, Primitive.init.physics_material, Primitive.init.overwrite_physics, Primitive.init.display_texture, Primitive.init.object_space_normal_map, Primitive.init.min_aa_bound, Primitive.init.max_aa_bound, Primitive.init.mesh_file_name, Primitive.init.num_vertices, Primitive.init.compressed_vertices_len, Primitive.init.compressed_vertices_data, Primitive.init.num_indices, Primitive.init.compressed_indices_len, Primitive.init.compressed_indices_data, Primitive.init.compressed_animation_vertices_len, Primitive.init.compressed_animation_vertices_data, Primitive.init.depth_bias, Primitive.init.add_blend, Primitive.init.use_depth_mask, Primitive.init.alpha, Primitive.init.color, Primitive.init.light_map, Primitive.init.reflection_probe, Primitive.init.reflection_strength, Primitive.init.refraction_probe, Primitive.init.refraction_thickness, Primitive.init.shared⟩
    (f32_rt.req trivial rfl) rfl ?_
  refine .segTo ⟨Primitive.init.name, s.position, s.size, s.rot_and_tra0, s.rot_and_tra1, s.rot_and_tra2, s.rot_and_tra3, s.rot_and_tra4, s.rot_and_tra5, s.rot_and_tra6, s.rot_and_tra7, Primitive.init.rot_and_tra8, Primitive.init.image, Primitive.init.normal_map, Primitive.init.sides, Primitive.init.material, Primitive.init.side_color, Primitive.init.is_visible, Primitive.init.draw_textures_inside, Primitive.init.hit_event, Primitive.init.threshold, Primitive.init.elasticity, Primitive.init.elasticity_falloff, Primitive.init.friction, Primitive.init.scatter, Primitive.init.edge_factor_ui, Primitive.init.collision_reduction_factor, Primitive.init.is_collidable, Primitive.init.is_toy, Primitive.init.use_3d_mesh, Primitive.init.static_rendering, Primitive.init.disable_lighting_top_old, Primitive.init.disable_lighting_top, Primitive.init.disable_lighting_below, Primitive.init.is_reflection_enabled, Primitive.init.backfaces_enabled, Primitive.init.physics_material, Primitive.init.overwrite_physics, Primitive.init.display_texture, Primitive.init.object_space_normal_map, Primitive.init.min_aa_bound, Primitive.init.max_aa_bound, Primitive.init.mesh_file_name, Primitive.init.num_vertices, Primitive.init.compressed_vertices_len, Primitive.init.compressed_vertices_data, Primitive.init.num_indices, Primitive.init.compressed_indices_len, Primitive.init.compressed_indices_data, Primitive.init.compressed_animation_vertices_len, Primitive.init.compressed_animation_vertices_data, Primitive.init.depth_bias, Primitive.init.add_blend, Primitive.init.use_depth_mask, Primitive.init.alpha, Primitive.init.color, Primitive.init.light_map, Primitive.init.reflection_probe, Primitive.init.reflection_strength, Primitive.init.refraction_probe, Primitive.init.refraction_thickness, Primitive.init.shared⟩
    (f32_rt.req trivial rfl) rfl ?_
  refine .segTo ⟨Primitive.init.name, s.position, s.size, s.rot_and_tra0, s.rot_and_tra1, s.rot_and_tra2, s.rot_and_tra3, s.rot_and_tra4, s.rot_and_tra5, s.rot_and_tra6, s.rot_and_tra7, s.rot_and_tra8, Primitive.init.image, Primitive.init.normal_map, Primitive.init.sides, Primitive.init.material, Primitive.init.side_color, Primitive.init.is_visible, Primitive.init.draw_textures_inside, Primitive.init.hit_event, Primitive.init.threshold, Primitive.init.elasticity, Primitive.init.elasticity_falloff, Primitive.init.friction, Primitive.init.scatter, Primitive.init.edge_factor_ui, Primitive.init.collision_reduction_factor, Primitive.init.is_collidable, Primitive.init.is_toy, Primitive.init.use_3d_mesh, Primitive.init.static_rendering, Primitive.init.disable_lighting_top_old, Primitive.init.disable_lighting_top, Primitive.init.disable_lighting_below, Primitive.init.is_reflection_enabled, Primitive.init.backfaces_enabled, Primitive.init.physics_material, Primitive.init.overwrite_physics, Primitive.init.display_texture, Primitive.init.object_space_normal_map, Primitive.init.min_aa_bound, Primitive.init.max_aa_bound, Primitive.init.mesh_file_name, Primitive.init.num_vertices, Primitive.init.compressed_vertices_len, Primitive.init.compressed_vertices_data, Primitive.init.num_indices, Primitive.init.compressed_indices_len, Primitive.init.compressed_indices_data, Primitive.init.compressed_animation_vertices_len, Primitive.init.compressed_animation_vertices_data, Primitive.init.depth_bias, Primitive.init.add_blend, Primitive.init.use_depth_mask, Primitive.init.alpha, Primitive.init.color, Primitive.init.light_map, Primitive.init.reflection_probe, Primitive.init.reflection_strength, Primitive.init.refraction_probe, Primitive.init.refraction_thickness, Primitive.init.shared⟩
    (f32_rt.req trivial rfl) rfl ?_
  refine .segTo ⟨Primitive.init.name, s.position, s.size, s.rot_and_tra0, s.rot_and_tra1, s.rot_and_tra2, s.rot_and_tra3, s.rot_and_tra4, s.rot_and_tra5, s.rot_and_tra6, s.rot_and_tra7, s.rot_and_tra8, s.image, Primitive.init.normal_map, Primitive.init.sides, Primitive.init.material, Primitive.init.side_color, Primitive.init.is_visible, Primitive.init.draw_textures_inside, Primitive.init.hit_event, Primitive.init.threshold, Primitive.init.elasticity, Primitive.init.elasticity_falloff, Primitive.init.friction, Primitive.init.scatter, Primitive.init.edge_factor_ui, Primitive.init.collision_reduction_factor, Primitive.init.is_collidable, Primitive.init.is_toy, Primitive.init.use_3d_mesh, Primitive.init.static_rendering, Primitive.init.disable_lighting_top_old, Primitive.init.disable_lighting_top, Primitive.init.disable_lighting_below, Primitive.init.is_reflection_enabled, Primitive.init.backfaces_enabled, Primitive.init.physics_material, Primitive.init.overwrite_physics, Primitive.init.display_texture, Primitive.init.object_space_normal_map, Primitive.init.min_aa_bound, Primitive.init.max_aa_bound, Primitive.init.mesh_file_name, Primitive.init.num_vertices, Primitive.init.compressed_vertices_len, Primitive.init.compressed_vertices_data, Primitive.init.num_indices, Primitive.init.compressed_indices_len, Primitive.init.compressed_indices_data, Primitive.init.compressed_animation_vertices_len, Primitive.init.compressed_animation_vertices_data, Primitive.init.depth_bias, Primitive.init.add_blend, Primitive.init.use_depth_mask, Primitive.init.alpha, Primitive.init.color, Primitive.init.light_map, Primitive.init.reflection_probe, Primitive.init.reflection_strength, Primitive.init.refraction_probe, Primitive.init.refraction_thickness, Primitive.init.shared⟩
    (string_rt.req h.image rfl) rfl ?_
  refine .segTo ⟨Primitive.init.name, s.position, s.size, s.rot_and_tra0, s.rot_and_tra1, s.rot_and_tra2, s.rot_and_tra3, s.rot_and_tra4, s.rot_and_tra5, s.rot_and_tra6, s.rot_and_tra7, s.rot_and_tra8, s.image, s.normal_map, Primitive.init.sides, Primitive.init.material, Primitive.init.side_color, Primitive.init.is_visible, Primitive.init.draw_textures_inside, Primitive.init.hit_event, Primitive.init.threshold, Primitive.init.elasticity, Primitive.init.elasticity_falloff, Primitive.init.friction, Primitive.init.scatter, Primitive.init.edge_factor_ui, Primitive.init.collision_reduction_factor, Primitive.init.is_collidable, Primitive.init.is_toy, Primitive.init.use_3d_mesh, Primitive.init.static_rendering, Primitive.init.disable_lighting_top_old, Primitive.init.disable_lighting_top, Primitive.init.disable_lighting_below, Primitive.init.is_reflection_enabled, Primitive.init.backfaces_enabled, Primitive.init.physics_material, Primitive.init.overwrite_physics, Primitive.init.display_texture, Primitive.init.object_space_normal_map, Primitive.init.min_aa_bound, Primitive.init.max_aa_bound, Primitive.init.mesh_file_name, Primitive.init.num_vertices, Primitive.init.compressed_vertices_len, Primitive.init.compressed_vertices_data, Primitive.init.num_indices, Primitive.init.compressed_indices_len, Primitive.init.compressed_indices_data, Primitive.init.compressed_animation_vertices_len, Primitive.init.compressed_animation_vertices_data, Primitive.init.depth_bias, Primitive.init.add_blend, Primitive.init.use_depth_mask, Primitive.init.alpha, Primitive.init.color, Primitive.init.light_map, Primitive.init.reflection_probe, Primitive.init.reflection_strength, Primitive.init.refraction_probe, Primitive.init.refraction_thickness, Primitive.init.shared⟩
    (string_rt.opt (fun v (s : Primitive) => { s with normal_map := v }) h.normal_map rfl rfl) rfl ?_
  refine .segTo ⟨Primitive.init.name, s.position, s.size, s.rot_and_tra0, s.rot_and_tra1, s.rot_and_tra2, s.rot_and_tra3, s.rot_and_tra4, s.rot_and_tra5, s.rot_and_tra6, s.rot_and_tra7, s.rot_and_tra8, s.image, s.normal_map, s.sides, Primitive.init.material, Primitive.init.side_color, Primitive.init.is_visible, Primitive.init.draw_textures_inside, Primitive.init.hit_event, Primitive.init.threshold, Primitive.init.elasticity, Primitive.init.elasticity_falloff, Primitive.init.friction, Primitive.init.scatter, Primitive.init.edge_factor_ui, Primitive.init.collision_reduction_factor, Primitive.init.is_collidable, Primitive.init.is_toy, Primitive.init.use_3d_mesh, Primitive.init.static_rendering, Primitive.init.disable_lighting_top_old, Primitive.init.disable_lighting_top, Primitive.init.disable_lighting_below, Primitive.init.is_reflection_enabled, Primitive.init.backfaces_enabled, Primitive.init.physics_material, Primitive.init.overwrite_physics, Primitive.init.display_texture, Primitive.init.object_space_normal_map, Primitive.init.min_aa_bound, Primitive.init.max_aa_bound, Primitive.init.mesh_file_name, Primitive.init.num_vertices, Primitive.init.compressed_vertices_len, Primitive.init.compressed_vertices_data, Primitive.init.num_indices, Primitive.init.compressed_indices_len, Primitive.init.compressed_indices_data, Primitive.init.compressed_animation_vertices_len, Primitive.init.compressed_animation_vertices_data, Primitive.init.depth_bias, Primitive.init.add_blend, Primitive.init.use_depth_mask, Primitive.init.alpha, Primitive.init.color, Primitive.init.light_map, Primitive.init.reflection_probe, Primitive.init.reflection_strength, Primitive.init.refraction_probe, Primitive.init.refraction_thickness, Primitive.init.shared⟩
    (u32_rt.req trivial rfl) rfl ?_
  refine .segTo ⟨s.name, s.position, s.size, s.rot_and_tra0, s.rot_and_tra1, s.rot_and_tra2, s.rot_and_tra3, s.rot_and_tra4, s.rot_and_tra5, s.rot_and_tra6, s.rot_and_tra7, s.rot_and_tra8, s.image, s.normal_map, s.sides, Primitive.init.material, Primitive.init.side_color, Primitive.init.is_visible, Primitive.init.draw_textures_inside, Primitive.init.hit_event, Primitive.init.threshold, Primitive.init.elasticity, Primitive.init.elasticity_falloff, Primitive.init.friction, Primitive.init.scatter, Primitive.init.edge_factor_ui, Primitive.init.collision_reduction_factor, Primitive.init.is_collidable, Primitive.init.is_toy, Primitive.init.use_3d_mesh, Primitive.init.static_rendering, Primitive.init.disable_lighting_top_old, Primitive.init.disable_lighting_top, Primitive.init.disable_lighting_below, Primitive.init.is_reflection_enabled, Primitive.init.backfaces_enabled, Primitive.init.physics_material, Primitive.init.overwrite_physics, Primitive.init.display_texture, Primitive.init.object_space_normal_map, Primitive.init.min_aa_bound, Primitive.init.max_aa_bound, Primitive.init.mesh_file_name, Primitive.init.num_vertices, Primitive.init.compressed_vertices_len, Primitive.init.compressed_vertices_data, Primitive.init.num_indices, Primitive.init.compressed_indices_len, Primitive.init.compressed_indices_data, Primitive.init.compressed_animation_vertices_len, Primitive.init.compressed_animation_vertices_data, Primitive.init.depth_bias, Primitive.init.add_blend, Primitive.init.use_depth_mask, Primitive.init.alpha, Primitive.init.color, Primitive.init.light_map, Primitive.init.reflection_probe, Primitive.init.reflection_strength, Primitive.init.refraction_probe, Primitive.init.refraction_thickness, Primitive.init.shared⟩
    (wide_rt.req h.name rfl) rfl ?_
  refine .segTo ⟨s.name, s.position, s.size, s.rot_and_tra0, s.rot_and_tra1, s.rot_and_tra2, s.rot_and_tra3, s.rot_and_tra4, s.rot_and_tra5, s.rot_and_tra6, s.rot_and_tra7, s.rot_and_tra8, s.image, s.normal_map, s.sides, s.material, Primitive.init.side_color, Primitive.init.is_visible, Primitive.init.draw_textures_inside, Primitive.init.hit_event, Primitive.init.threshold, Primitive.init.elasticity, Primitive.init.elasticity_falloff, Primitive.init.friction, Primitive.init.scatter, Primitive.init.edge_factor_ui, Primitive.init.collision_reduction_factor, Primitive.init.is_collidable, Primitive.init.is_toy, Primitive.init.use_3d_mesh, Primitive.init.static_rendering, Primitive.init.disable_lighting_top_old, Primitive.init.disable_lighting_top, Primitive.init.disable_lighting_below, Primitive.init.is_reflection_enabled, Primitive.init.backfaces_enabled, Primitive.init.physics_material, Primitive.init.overwrite_physics, Primitive.init.display_texture, Primitive.init.object_space_normal_map, Primitive.init.min_aa_bound, Primitive.init.max_aa_bound, Primitive.init.mesh_file_name, Primitive.init.num_vertices, Primitive.init.compressed_vertices_len, Primitive.init.compressed_vertices_data, Primitive.init.num_indices, Primitive.init.compressed_indices_len, Primitive.init.compressed_indices_data, Primitive.init.compressed_animation_vertices_len, Primitive.init.compressed_animation_vertices_data, Primitive.init.depth_bias, Primitive.init.add_blend, Primitive.init.use_depth_mask, Primitive.init.alpha, Primitive.init.color, Primitive.init.light_map, Primitive.init.reflection_probe, Primitive.init.reflection_strength, Primitive.init.refraction_probe, Primitive.init.refraction_thickness, Primitive.init.shared⟩
    (string_rt.req h.material rfl) rfl ?_
  refine .segTo ⟨s.name, s.position, s.size, s.rot_and_tra0, s.rot_and_tra1, s.rot_and_tra2, s.rot_and_tra3, s.rot_and_tra4, s.rot_and_tra5, s.rot_and_tra6, s.rot_and_tra7, s.rot_and_tra8, s.image, s.normal_map, s.sides, s.material, s.side_color, Primitive.init.is_visible, Primitive.init.draw_textures_inside, Primitive.init.hit_event, Primitive.init.threshold, Primitive.init.elasticity, Primitive.init.elasticity_falloff, Primitive.init.friction, Primitive.init.scatter, Primitive.init.edge_factor_ui, Primitive.init.collision_reduction_factor, Primitive.init.is_collidable, Primitive.init.is_toy, Primitive.init.use_3d_mesh, Primitive.init.static_rendering, Primitive.init.disable_lighting_top_old, Primitive.init.disable_lighting_top, Primitive.init.disable_lighting_below, Primitive.init.is_reflection_enabled, Primitive.init.backfaces_enabled, Primitive.init.physics_material, Primitive.init.overwrite_physics, Primitive.init.display_texture, Primitive.init.object_space_normal_map, Primitive.init.min_aa_bound, Primitive.init.max_aa_bound, Primitive.init.mesh_file_name, Primitive.init.num_vertices, Primitive.init.compressed_vertices_len, Primitive.init.compressed_vertices_data, Primitive.init.num_indices, Primitive.init.compressed_indices_len, Primitive.init.compressed_indices_data, Primitive.init.compressed_animation_vertices_len, Primitive.init.compressed_animation_vertices_data, Primitive.init.depth_bias, Primitive.init.add_blend, Primitive.init.use_depth_mask, Primitive.init.alpha, Primitive.init.color, Primitive.init.light_map, Primitive.init.reflection_probe, Primitive.init.reflection_strength, Primitive.init.refraction_probe, Primitive.init.refraction_thickness, Primitive.init.shared⟩
    (color_rt.req trivial rfl) rfl ?_
  refine .segTo ⟨s.name, s.position, s.size, s.rot_and_tra0, s.rot_and_tra1, s.rot_and_tra2, s.rot_and_tra3, s.rot_and_tra4, s.rot_and_tra5, s.rot_and_tra6, s.rot_and_tra7, s.rot_and_tra8, s.image, s.normal_map, s.sides, s.material, s.side_color, s.is_visible, Primitive.init.draw_textures_inside, Primitive.init.hit_event, Primitive.init.threshold, Primitive.init.elasticity, Primitive.init.elasticity_falloff, Primitive.init.friction, Primitive.init.scatter, Primitive.init.edge_factor_ui, Primitive.init.collision_reduction_factor, Primitive.init.is_collidable, Primitive.init.is_toy, Primitive.init.use_3d_mesh, Primitive.init.static_rendering, Primitive.init.disable_lighting_top_old, Primitive.init.disable_lighting_top, Primitive.init.disable_lighting_below, Primitive.init.is_reflection_enabled, Primitive.init.backfaces_enabled, Primitive.init.physics_material, Primitive.init.overwrite_physics, Primitive.init.display_texture, Primitive.init.object_space_normal_map, Primitive.init.min_aa_bound, Primitive.init.max_aa_bound, Primitive.init.mesh_file_name, Primitive.init.num_vertices, Primitive.init.compressed_vertices_len, Primitive.init.compressed_vertices_data, Primitive.init.num_indices, Primitive.init.compressed_indices_len, Primitive.init.compressed_indices_data, Primitive.init.compressed_animation_vertices_len, Primitive.init.compressed_animation_vertices_data, Primitive.init.depth_bias, Primitive.init.add_blend, Primitive.init.use_depth_mask, Primitive.init.alpha, Primitive.init.color, Primitive.init.light_map, Primitive.init.reflection_probe, Primitive.init.reflection_strength, Primitive.init.refraction_probe, Primitive.init.refraction_thickness, Primitive.init.shared⟩
    (bool_rt.req trivial rfl) rfl ?_
  refine .segTo ⟨s.name, s.position, s.size, s.rot_and_tra0, s.rot_and_tra1, s.rot_and_tra2, s.rot_and_tra3, s.rot_and_tra4, s.rot_and_tra5, s.rot_and_tra6, s.rot_and_tra7, s.rot_and_tra8, s.image, s.normal_map, s.sides, s.material, s.side_color, s.is_visible, s.draw_textures_inside, Primitive.init.hit_event, Primitive.init.threshold, Primitive.init.elasticity, Primitive.init.elasticity_falloff, Primitive.init.friction, Primitive.init.scatter, Primitive.init.edge_factor_ui, Primitive.init.collision_reduction_factor, Primitive.init.is_collidable, Primitive.init.is_toy, Primitive.init.use_3d_mesh, Primitive.init.static_rendering, Primitive.init.disable_lighting_top_old, Primitive.init.disable_lighting_top, Primitive.init.disable_lighting_below, Primitive.init.is_reflection_enabled, Primitive.init.backfaces_enabled, Primitive.init.physics_material, Primitive.init.overwrite_physics, Primitive.init.display_texture, Primitive.init.object_space_normal_map, Primitive.init.min_aa_bound, Primitive.init.max_aa_bound, Primitive.init.mesh_file_name, Primitive.init.num_vertices, Primitive.init.compressed_vertices_len, Primitive.init.compressed_vertices_data, Primitive.init.num_indices, Primitive.init.compressed_indices_len, Primitive.init.compressed_indices_data, Primitive.init.compressed_animation_vertices_len, Primitive.init.compressed_animation_vertices_data, Primitive.init.depth_bias, Primitive.init.add_blend, Primitive.init.use_depth_mask, Primitive.init.alpha, Primitive.init.color, Primitive.init.light_map, Primitive.init.reflection_probe, Primitive.init.reflection_strength, Primitive.init.refraction_probe, Primitive.init.refraction_thickness, Primitive.init.shared⟩
    (bool_rt.req trivial rfl) rfl ?_
  refine .segTo ⟨s.name, s.position, s.size, s.rot_and_tra0, s.rot_and_tra1, s.rot_and_tra2, s.rot_and_tra3, s.rot_and_tra4, s.rot_and_tra5, s.rot_and_tra6, s.rot_and_tra7, s.rot_and_tra8, s.image, s.normal_map, s.sides, s.material, s.side_color, s.is_visible, s.draw_textures_inside, s.hit_event, Primitive.init.threshold, Primitive.init.elasticity, Primitive.init.elasticity_falloff, Primitive.init.friction, Primitive.init.scatter, Primitive.init.edge_factor_ui, Primitive.init.collision_reduction_factor, Primitive.init.is_collidable, Primitive.init.is_toy, Primitive.init.use_3d_mesh, Primitive.init.static_rendering, Primitive.init.disable_lighting_top_old, Primitive.init.disable_lighting_top, Primitive.init.disable_lighting_below, Primitive.init.is_reflection_enabled, Primitive.init.backfaces_enabled, Primitive.init.physics_material, Primitive.init.overwrite_physics, Primitive.init.display_texture, Primitive.init.object_space_normal_map, Primitive.init.min_aa_bound, Primitive.init.max_aa_bound, Primitive.init.mesh_file_name, Primitive.init.num_vertices, Primitive.init.compressed_vertices_len, Primitive.init.compressed_vertices_data, Primitive.init.num_indices, Primitive.init.compressed_indices_len, Primitive.init.compressed_indices_data, Primitive.init.compressed_animation_vertices_len, Primitive.init.compressed_animation_vertices_data, Primitive.init.depth_bias, Primitive.init.add_blend, Primitive.init.use_depth_mask, Primitive.init.alpha, Primitive.init.color, Primitive.init.light_map, Primitive.init.reflection_probe, Primitive.init.reflection_strength, Primitive.init.refraction_probe, Primitive.init.refraction_thickness, Primitive.init.shared⟩
    (bool_rt.req trivial rfl) rfl ?_
  refine .segTo ⟨s.name, s.position, s.size, s.rot_and_tra0, s.rot_and_tra1, s.rot_and_tra2, s.rot_and_tra3, s.rot_and_tra4, s.rot_and_tra5, s.rot_and_tra6, s.rot_and_tra7, s.rot_and_tra8, s.image, s.normal_map, s.sides, s.material, s.side_color, s.is_visible, s.draw_textures_inside, s.hit_event, s.threshold, Primitive.init.elasticity, Primitive.init.elasticity_falloff, Primitive.init.friction, Primitive.init.scatter, Primitive.init.edge_factor_ui, Primitive.init.collision_reduction_factor, Primitive.init.is_collidable, Primitive.init.is_toy, Primitive.init.use_3d_mesh, Primitive.init.static_rendering, Primitive.init.disable_lighting_top_old, Primitive.init.disable_lighting_top, Primitive.init.disable_lighting_below, Primitive.init.is_reflection_enabled, Primitive.init.backfaces_enabled, Primitive.init.physics_material, Primitive.init.overwrite_physics, Primitive.init.display_texture, Primitive.init.object_space_normal_map, Primitive.init.min_aa_bound, Primitive.init.max_aa_bound, Primitive.init.mesh_file_name, Primitive.init.num_vertices, Primitive.init.compressed_vertices_len, Primitive.init.compressed_vertices_data, Primitive.init.num_indices, Primitive.init.compressed_indices_len, Primitive.init.compressed_indices_data, Primitive.init.compressed_animation_vertices_len, Primitive.init.compressed_animation_vertices_data, Primitive.init.depth_bias, Primitive.init.add_blend, Primitive.init.use_depth_mask, Primitive.init.alpha, Primitive.init.color, Primitive.init.light_map, Primitive.init.reflection_probe, Primitive.init.reflection_strength, Primitive.init.refraction_probe, Primitive.init.refraction_thickness, Primitive.init.shared⟩
    (f32_rt.req trivial rfl) rfl ?_
  refine .segTo ⟨s.name, s.position, s.size, s.rot_and_tra0, s.rot_and_tra1, s.rot_and_tra2, s.rot_and_tra3, s.rot_and_tra4, s.rot_and_tra5, s.rot_and_tra6, s.rot_and_tra7, s.rot_and_tra8, s.image, s.normal_map, s.sides, s.material, s.side_color, s.is_visible, s.draw_textures_inside, s.hit_event, s.threshold, s.elasticity, Primitive.init.elasticity_falloff, Primitive.init.friction, Primitive.init.scatter, Primitive.init.edge_factor_ui, Primitive.init.collision_reduction_factor, Primitive.init.is_collidable, Primitive.init.is_toy, Primitive.init.use_3d_mesh, Primitive.init.static_rendering, Primitive.init.disable_lighting_top_old, Primitive.init.disable_lighting_top, Primitive.init.disable_lighting_below, Primitive.init.is_reflection_enabled, Primitive.init.backfaces_enabled, Primitive.init.physics_material, Primitive.init.overwrite_physics, Primitive.init.display_texture, Primitive.init.object_space_normal_map, Primitive.init.min_aa_bound, Primitive.init.max_aa_bound, Primitive.init.mesh_file_name, Primitive.init.num_vertices, Primitive.init.compressed_vertices_len, Primitive.init.compressed_vertices_data, Primitive.init.num_indices, Primitive.init.compressed_indices_len, Primitive.init.compressed_indices_data, Primitive.init.compressed_animation_vertices_len, Primitive.init.compressed_animation_vertices_data, Primitive.init.depth_bias, Primitive.init.add_blend, Primitive.init.use_depth_mask, Primitive.init.alpha, Primitive.init.color, Primitive.init.light_map, Primitive.init.reflection_probe, Primitive.init.reflection_strength, Primitive.init.refraction_probe, Primitive.init.refraction_thickness, Primitive.init.shared⟩
    (f32_rt.req trivial rfl) rfl ?_
  refine .segTo ⟨s.name, s.position, s.size, s.rot_and_tra0, s.rot_and_tra1, s.rot_and_tra2, s.rot_and_tra3, s.rot_and_tra4, s.rot_and_tra5, s.rot_and_tra6, s.rot_and_tra7, s.rot_and_tra8, s.image, s.normal_map, s.sides, s.material, s.side_color, s.is_visible, s.draw_textures_inside, s.hit_event, s.threshold, s.elasticity, s.elasticity_falloff, Primitive.init.friction, Primitive.init.scatter, Primitive.init.edge_factor_ui, Primitive.init.collision_reduction_factor, Primitive.init.is_collidable, Primitive.init.is_toy, Primitive.init.use_3d_mesh, Primitive.init.static_rendering, Primitive.init.disable_lighting_top_old, Primitive.init.disable_lighting_top, Primitive.init.disable_lighting_below, Primitive.init.is_reflection_enabled, Primitive.init.backfaces_enabled, Primitive.init.physics_material, Primitive.init.overwrite_physics, Primitive.init.display_texture, Primitive.init.object_space_normal_map, Primitive.init.min_aa_bound, Primitive.init.max_aa_bound, Primitive.init.mesh_file_name, Primitive.init.num_vertices, Primitive.init.compressed_vertices_len, Primitive.init.compressed_vertices_data, Primitive.init.num_indices, Primitive.init.compressed_indices_len, Primitive.init.compressed_indices_data, Primitive.init.compressed_animation_vertices_len, Primitive.init.compressed_animation_vertices_data, Primitive.init.depth_bias, Primitive.init.add_blend, Primitive.init.use_depth_mask, Primitive.init.alpha, Primitive.init.color, Primitive.init.light_map, Primitive.init.reflection_probe, Primitive.init.reflection_strength, Primitive.init.refraction_probe, Primitive.init.refraction_thickness, Primitive.init.shared⟩
    (f32_rt.req trivial rfl) rfl ?_
  refine .segTo ⟨s.name, s.position, s.size, s.rot_and_tra0, s.rot_and_tra1, s.rot_and_tra2, s.rot_and_tra3, s.rot_and_tra4, s.rot_and_tra5, s.rot_and_tra6, s.rot_and_tra7, s.rot_and_tra8, s.image, s.normal_map, s.sides, s.material, s.side_color, s.is_visible, s.draw_textures_inside, s.hit_event, s.threshold, s.elasticity, s.elasticity_falloff, s.friction, Primitive.init.scatter, Primitive.init.edge_factor_ui, Primitive.init.collision_reduction_factor, Primitive.init.is_collidable, Primitive.init.is_toy, Primitive.init.use_3d_mesh, Primitive.init.static_rendering, Primitive.init.disable_lighting_top_old, Primitive.init.disable_lighting_top, Primitive.init.disable_lighting_below, Primitive.init.is_reflection_enabled, Primitive.init.backfaces_enabled, Primitive.init.physics_material, Primitive.init.overwrite_physics, Primitive.init.display_texture, Primitive.init.object_space_normal_map, Primitive.init.min_aa_bound, Primitive.init.max_aa_bound, Primitive.init.mesh_file_name, Primitive.init.num_vertices, Primitive.init.compressed_vertices_len, Primitive.init.compressed_vertices_data, Primitive.init.num_indices, Primitive.init.compressed_indices_len, Primitive.init.compressed_indices_data, Primitive.init.compressed_animation_vertices_len, Primitive.init.compressed_animation_vertices_data, Primitive.init.depth_bias, Primitive.init.add_blend, Primitive.init.use_depth_mask, Primitive.init.alpha, Primitive.init.color, Primitive.init.light_map, Primitive.init.reflection_probe, Primitive.init.reflection_strength, Primitive.init.refraction_probe, Primitive.init.refraction_thickness, Primitive.init.shared⟩
    (f32_rt.req trivial rfl) rfl ?_
  refine .segTo ⟨s.name, s.position, s.size, s.rot_and_tra0, s.rot_and_tra1, s.rot_and_tra2, s.rot_and_tra3, s.rot_and_tra4, s.rot_and_tra5, s.rot_and_tra6, s.rot_and_tra7, s.rot_and_tra8, s.image, s.normal_map, s.sides, s.material, s.side_color, s.is_visible, s.draw_textures_inside, s.hit_event, s.threshold, s.elasticity, s.elasticity_falloff, s.friction, s.scatter, Primitive.init.edge_factor_ui, Primitive.init.collision_reduction_factor, Primitive.init.is_collidable, Primitive.init.is_toy, Primitive.init.use_3d_mesh, Primitive.init.static_rendering, Primitive.init.disable_lighting_top_old, Primitive.init.disable_lighting_top, Primitive.init.disable_lighting_below, Primitive.init.is_reflection_enabled, Primitive.init.backfaces_enabled, Primitive.init.physics_material, Primitive.init.overwrite_physics, Primitive.init.display_texture, Primitive.init.object_space_normal_map, Primitive.init.min_aa_bound, Primitive.init.max_aa_bound, Primitive.init.mesh_file_name, Primitive.init.num_vertices, Primitive.init.compressed_vertices_len, Primitive.init.compressed_vertices_data, Primitive.init.num_indices, Primitive.init.compressed_indices_len, Primitive.init.compressed_indices_data, Primitive.init.compressed_animation_vertices_len, Primitive.init.compressed_animation_vertices_data, Primitive.init.depth_bias, Primitive.init.add_blend, Primitive.init.use_depth_mask, Primitive.init.alpha, Primitive.init.color, Primitive.init.light_map, Primitive.init.reflection_probe, Primitive.init.reflection_strength, Primitive.init.refraction_probe, Primitive.init.refraction_thickness, Primitive.init.shared⟩
    (f32_rt.req trivial rfl) rfl ?_
  refine .segTo ⟨s.name, s.position, s.size, s.rot_and_tra0, s.rot_and_tra1, s.rot_and_tra2, s.rot_and_tra3, s.rot_and_tra4, s.rot_and_tra5, s.rot_and_tra6, s.rot_and_tra7, s.rot_and_tra8, s.image, s.normal_map, s.sides, s.material, s.side_color, s.is_visible, s.draw_textures_inside, s.hit_event, s.threshold, s.elasticity, s.elasticity_falloff, s.friction, s.scatter, s.edge_factor_ui, Primitive.init.collision_reduction_factor, Primitive.init.is_collidable, Primitive.init.is_toy, Primitive.init.use_3d_mesh, Primitive.init.static_rendering, Primitive.init.disable_lighting_top_old, Primitive.init.disable_lighting_top, Primitive.init.disable_lighting_below, Primitive.init.is_reflection_enabled, Primitive.init.backfaces_enabled, Primitive.init.physics_material, Primitive.init.overwrite_physics, Primitive.init.display_texture, Primitive.init.object_space_normal_map, Primitive.init.min_aa_bound, Primitive.init.max_aa_bound, Primitive.init.mesh_file_name, Primitive.init.num_vertices, Primitive.init.compressed_vertices_len, Primitive.init.compressed_vertices_data, Primitive.init.num_indices, Primitive.init.compressed_indices_len, Primitive.init.compressed_indices_data, Primitive.init.compressed_animation_vertices_len, Primitive.init.compressed_animation_vertices_data, Primitive.init.depth_bias, Primitive.init.add_blend, Primitive.init.use_depth_mask, Primitive.init.alpha, Primitive.init.color, Primitive.init.light_map, Primitive.init.reflection_probe, Primitive.init.reflection_strength, Primitive.init.refraction_probe, Primitive.init.refraction_thickness, Primitive.init.shared⟩
    (f32_rt.req trivial rfl) rfl ?_
  refine .segTo ⟨s.name, s.position, s.size, s.rot_and_tra0, s.rot_and_tra1, s.rot_and_tra2, s.rot_and_tra3, s.rot_and_tra4, s.rot_and_tra5, s.rot_and_tra6, s.rot_and_tra7, s.rot_and_tra8, s.image, s.normal_map, s.sides, s.material, s.side_color, s.is_visible, s.draw_textures_inside, s.hit_event, s.threshold, s.elasticity, s.elasticity_falloff, s.friction, s.scatter, s.edge_factor_ui, s.collision_reduction_factor, Primitive.init.is_collidable, Primitive.init.is_toy, Primitive.init.use_3d_mesh, Primitive.init.static_rendering, Primitive.init.disable_lighting_top_old, Primitive.init.disable_lighting_top, Primitive.init.disable_lighting_below, Primitive.init.is_reflection_enabled, Primitive.init.backfaces_enabled, Primitive.init.physics_material, Primitive.init.overwrite_physics, Primitive.init.display_texture, Primitive.init.object_space_normal_map, Primitive.init.min_aa_bound, Primitive.init.max_aa_bound, Primitive.init.mesh_file_name, Primitive.init.num_vertices, Primitive.init.compressed_vertices_len, Primitive.init.compressed_vertices_data, Primitive.init.num_indices, Primitive.init.compressed_indices_len, Primitive.init.compressed_indices_data, Primitive.init.compressed_animation_vertices_len, Primitive.init.compressed_animation_vertices_data, Primitive.init.depth_bias, Primitive.init.add_blend, Primitive.init.use_depth_mask, Primitive.init.alpha, Primitive.init.color, Primitive.init.light_map, Primitive.init.reflection_probe, Primitive.init.reflection_strength, Primitive.init.refraction_probe, Primitive.init.refraction_thickness, Primitive.init.shared⟩
    (f32_rt.opt (fun v (s : Primitive) => { s with collision_reduction_factor := v }) (fun _ _ => trivial) rfl rfl) rfl ?_
  refine .segTo ⟨s.name, s.position, s.size, s.rot_and_tra0, s.rot_and_tra1, s.rot_and_tra2, s.rot_and_tra3, s.rot_and_tra4, s.rot_and_tra5, s.rot_and_tra6, s.rot_and_tra7, s.rot_and_tra8, s.image, s.normal_map, s.sides, s.material, s.side_color, s.is_visible, s.draw_textures_inside, s.hit_event, s.threshold, s.elasticity, s.elasticity_falloff, s.friction, s.scatter, s.edge_factor_ui, s.collision_reduction_factor, s.is_collidable, Primitive.init.is_toy, Primitive.init.use_3d_mesh, Primitive.init.static_rendering, Primitive.init.disable_lighting_top_old, Primitive.init.disable_lighting_top, Primitive.init.disable_lighting_below, Primitive.init.is_reflection_enabled, Primitive.init.backfaces_enabled, Primitive.init.physics_material, Primitive.init.overwrite_physics, Primitive.init.display_texture, Primitive.init.object_space_normal_map, Primitive.init.min_aa_bound, Primitive.init.max_aa_bound, Primitive.init.mesh_file_name, Primitive.init.num_vertices, Primitive.init.compressed_vertices_len, Primitive.init.compressed_vertices_data, Primitive.init.num_indices, Primitive.init.compressed_indices_len, Primitive.init.compressed_indices_data, Primitive.init.compressed_animation_vertices_len, Primitive.init.compressed_animation_vertices_data, Primitive.init.depth_bias, Primitive.init.add_blend, Primitive.init.use_depth_mask, Primitive.init.alpha, Primitive.init.color, Primitive.init.light_map, Primitive.init.reflection_probe, Primitive.init.reflection_strength, Primitive.init.refraction_probe, Primitive.init.refraction_thickness, Primitive.init.shared⟩
    (bool_rt.req trivial rfl) rfl ?_
  refine .segTo ⟨s.name, s.position, s.size, s.rot_and_tra0, s.rot_and_tra1, s.rot_and_tra2, s.rot_and_tra3, s.rot_and_tra4, s.rot_and_tra5, s.rot_and_tra6, s.rot_and_tra7, s.rot_and_tra8, s.image, s.normal_map, s.sides, s.material, s.side_color, s.is_visible, s.draw_textures_inside, s.hit_event, s.threshold, s.elasticity, s.elasticity_falloff, s.friction, s.scatter, s.edge_factor_ui, s.collision_reduction_factor, s.is_collidable, s.is_toy, Primitive.init.use_3d_mesh, Primitive.init.static_rendering, Primitive.init.disable_lighting_top_old, Primitive.init.disable_lighting_top, Primitive.init.disable_lighting_below, Primitive.init.is_reflection_enabled, Primitive.init.backfaces_enabled, Primitive.init.physics_material, Primitive.init.overwrite_physics, Primitive.init.display_texture, Primitive.init.object_space_normal_map, Primitive.init.min_aa_bound, Primitive.init.max_aa_bound, Primitive.init.mesh_file_name, Primitive.init.num_vertices, Primitive.init.compressed_vertices_len, Primitive.init.compressed_vertices_data, Primitive.init.num_indices, Primitive.init.compressed_indices_len, Primitive.init.compressed_indices_data, Primitive.init.compressed_animation_vertices_len, Primitive.init.compressed_animation_vertices_data, Primitive.init.depth_bias, Primitive.init.add_blend, Primitive.init.use_depth_mask, Primitive.init.alpha, Primitive.init.color, Primitive.init.light_map, Primitive.init.reflection_probe, Primitive.init.reflection_strength, Primitive.init.refraction_probe, Primitive.init.refraction_thickness, Primitive.init.shared⟩
    (bool_rt.req trivial rfl) rfl ?_
  refine .segTo ⟨s.name, s.position, s.size, s.rot_and_tra0, s.rot_and_tra1, s.rot_and_tra2, s.rot_and_tra3, s.rot_and_tra4, s.rot_and_tra5, s.rot_and_tra6, s.rot_and_tra7, s.rot_and_tra8, s.image, s.normal_map, s.sides, s.material, s.side_color, s.is_visible, s.draw_textures_inside, s.hit_event, s.threshold, s.elasticity, s.elasticity_falloff, s.friction, s.scatter, s.edge_factor_ui, s.collision_reduction_factor, s.is_collidable, s.is_toy, s.use_3d_mesh, Primitive.init.static_rendering, Primitive.init.disable_lighting_top_old, Primitive.init.disable_lighting_top, Primitive.init.disable_lighting_below, Primitive.init.is_reflection_enabled, Primitive.init.backfaces_enabled, Primitive.init.physics_material, Primitive.init.overwrite_physics, Primitive.init.display_texture, Primitive.init.object_space_normal_map, Primitive.init.min_aa_bound, Primitive.init.max_aa_bound, Primitive.init.mesh_file_name, Primitive.init.num_vertices, Primitive.init.compressed_vertices_len, Primitive.init.compressed_vertices_data, Primitive.init.num_indices, Primitive.init.compressed_indices_len, Primitive.init.compressed_indices_data, Primitive.init.compressed_animation_vertices_len, Primitive.init.compressed_animation_vertices_data, Primitive.init.depth_bias, Primitive.init.add_blend, Primitive.init.use_depth_mask, Primitive.init.alpha, Primitive.init.color, Primitive.init.light_map, Primitive.init.reflection_probe, Primitive.init.reflection_strength, Primitive.init.refraction_probe, Primitive.init.refraction_thickness, Primitive.init.shared⟩
    (bool_rt.req trivial rfl) rfl ?_
  refine .segTo ⟨s.name, s.position, s.size, s.rot_and_tra0, s.rot_and_tra1, s.rot_and_tra2, s.rot_and_tra3, s.rot_and_tra4, s.rot_and_tra5, s.rot_and_tra6, s.rot_and_tra7, s.rot_and_tra8, s.image, s.normal_map, s.sides, s.material, s.side_color, s.is_visible, s.draw_textures_inside, s.hit_event, s.threshold, s.elasticity, s.elasticity_falloff, s.friction, s.scatter, s.edge_factor_ui, s.collision_reduction_factor, s.is_collidable, s.is_toy, s.use_3d_mesh, s.static_rendering, Primitive.init.disable_lighting_top_old, Primitive.init.disable_lighting_top, Primitive.init.disable_lighting_below, Primitive.init.is_reflection_enabled, Primitive.init.backfaces_enabled, Primitive.init.physics_material, Primitive.init.overwrite_physics, Primitive.init.display_texture, Primitive.init.object_space_normal_map, Primitive.init.min_aa_bound, Primitive.init.max_aa_bound, Primitive.init.mesh_file_name, Primitive.init.num_vertices, Primitive.init.compressed_vertices_len, Primitive.init.compressed_vertices_data, Primitive.init.num_indices, Primitive.init.compressed_indices_len, Primitive.init.compressed_indices_data, Primitive.init.compressed_animation_vertices_len, Primitive.init.compressed_animation_vertices_data, Primitive.init.depth_bias, Primitive.init.add_blend, Primitive.init.use_depth_mask, Primitive.init.alpha, Primitive.init.color, Primitive.init.light_map, Primitive.init.reflection_probe, Primitive.init.reflection_strength, Primitive.init.refraction_probe, Primitive.init.refraction_thickness, Primitive.init.shared⟩
    (bool_rt.req trivial rfl) rfl ?_
  refine .segTo ⟨s.name, s.position, s.size, s.rot_and_tra0, s.rot_and_tra1, s.rot_and_tra2, s.rot_and_tra3, s.rot_and_tra4, s.rot_and_tra5, s.rot_and_tra6, s.rot_and_tra7, s.rot_and_tra8, s.image, s.normal_map, s.sides, s.material, s.side_color, s.is_visible, s.draw_textures_inside, s.hit_event, s.threshold, s.elasticity, s.elasticity_falloff, s.friction, s.scatter, s.edge_factor_ui, s.collision_reduction_factor, s.is_collidable, s.is_toy, s.use_3d_mesh, s.static_rendering, s.disable_lighting_top_old, Primitive.init.disable_lighting_top, Primitive.init.disable_lighting_below, Primitive.init.is_reflection_enabled, Primitive.init.backfaces_enabled, Primitive.init.physics_material, Primitive.init.overwrite_physics, Primitive.init.display_texture, Primitive.init.object_space_normal_map, Primitive.init.min_aa_bound, Primitive.init.max_aa_bound, Primitive.init.mesh_file_name, Primitive.init.num_vertices, Primitive.init.compressed_vertices_len, Primitive.init.compressed_vertices_data, Primitive.init.num_indices, Primitive.init.compressed_indices_len, Primitive.init.compressed_indices_data, Primitive.init.compressed_animation_vertices_len, Primitive.init.compressed_animation_vertices_data, Primitive.init.depth_bias, Primitive.init.add_blend, Primitive.init.use_depth_mask, Primitive.init.alpha, Primitive.init.color, Primitive.init.light_map, Primitive.init.reflection_probe, Primitive.init.reflection_strength, Primitive.init.refraction_probe, Primitive.init.refraction_thickness, Primitive.init.shared⟩
    (quant8_rt.opt (fun v (s : Primitive) => { s with disable_lighting_top_old := v }) h.disable_lighting_top_old rfl rfl) rfl ?_
  refine .segTo ⟨s.name, s.position, s.size, s.rot_and_tra0, s.rot_and_tra1, s.rot_and_tra2, s.rot_and_tra3, s.rot_and_tra4, s.rot_and_tra5, s.rot_and_tra6, s.rot_and_tra7, s.rot_and_tra8, s.image, s.normal_map, s.sides, s.material, s.side_color, s.is_visible, s.draw_textures_inside, s.hit_event, s.threshold, s.elasticity, s.elasticity_falloff, s.friction, s.scatter, s.edge_factor_ui, s.collision_reduction_factor, s.is_collidable, s.is_toy, s.use_3d_mesh, s.static_rendering, s.disable_lighting_top_old, s.disable_lighting_top, Primitive.init.disable_lighting_below, Primitive.init.is_reflection_enabled, Primitive.init.backfaces_enabled, Primitive.init.physics_material, Primitive.init.overwrite_physics, Primitive.init.display_texture, Primitive.init.object_space_normal_map, Primitive.init.min_aa_bound, Primitive.init.max_aa_bound, Primitive.init.mesh_file_name, Primitive.init.num_vertices, Primitive.init.compressed_vertices_len, Primitive.init.compressed_vertices_data, Primitive.init.num_indices, Primitive.init.compressed_indices_len, Primitive.init.compressed_indices_data, Primitive.init.compressed_animation_vertices_len, Primitive.init.compressed_animation_vertices_data, Primitive.init.depth_bias, Primitive.init.add_blend, Primitive.init.use_depth_mask, Primitive.init.alpha, Primitive.init.color, Primitive.init.light_map, Primitive.init.reflection_probe, Primitive.init.reflection_strength, Primitive.init.refraction_probe, Primitive.init.refraction_thickness, Primitive.init.shared⟩
    (f32_rt.opt (fun v (s : Primitive) => { s with disable_lighting_top := v }) (fun _ _ => trivial) rfl rfl) rfl ?_
  refine .segTo ⟨s.name, s.position, s.size, s.rot_and_tra0, s.rot_and_tra1, s.rot_and_tra2, s.rot_and_tra3, s.rot_and_tra4, s.rot_and_tra5, s.rot_and_tra6, s.rot_and_tra7, s.rot_and_tra8, s.image, s.normal_map, s.sides, s.material, s.side_color, s.is_visible, s.draw_textures_inside, s.hit_event, s.threshold, s.elasticity, s.elasticity_falloff, s.friction, s.scatter, s.edge_factor_ui, s.collision_reduction_factor, s.is_collidable, s.is_toy, s.use_3d_mesh, s.static_rendering, s.disable_lighting_top_old, s.disable_lighting_top, s.disable_lighting_below, Primitive.init.is_reflection_enabled, Primitive.init.backfaces_enabled, Primitive.init.physics_material, Primitive.init.overwrite_physics, Primitive.init.display_texture, Primitive.init.object_space_normal_map, Primitive.init.min_aa_bound, Primitive.init.max_aa_bound, Primitive.init.mesh_file_name, Primitive.init.num_vertices, Primitive.init.compressed_vertices_len, Primitive.init.compressed_vertices_data, Primitive.init.num_indices, Primitive.init.compressed_indices_len, Primitive.init.compressed_indices_data, Primitive.init.compressed_animation_vertices_len, Primitive.init.compressed_animation_vertices_data, Primitive.init.depth_bias, Primitive.init.add_blend, Primitive.init.use_depth_mask, Primitive.init.alpha, Primitive.init.color, Primitive.init.light_map, Primitive.init.reflection_probe, Primitive.init.reflection_strength, Primitive.init.refraction_probe, Primitive.init.refraction_thickness, Primitive.init.shared⟩
    (f32_rt.opt (fun v (s : Primitive) => { s with disable_lighting_below := v }) (fun _ _ => trivial) rfl rfl) rfl ?_
  refine .segTo ⟨s.name, s.position, s.size, s.rot_and_tra0, s.rot_and_tra1, s.rot_and_tra2, s.rot_and_tra3, s.rot_and_tra4, s.rot_and_tra5, s.rot_and_tra6, s.rot_and_tra7, s.rot_and_tra8, s.image, s.normal_map, s.sides, s.material, s.side_color, s.is_visible, s.draw_textures_inside, s.hit_event, s.threshold, s.elasticity, s.elasticity_falloff, s.friction, s.scatter, s.edge_factor_ui, s.collision_reduction_factor, s.is_collidable, s.is_toy, s.use_3d_mesh, s.static_rendering, s.disable_lighting_top_old, s.disable_lighting_top, s.disable_lighting_below, s.is_reflection_enabled, Primitive.init.backfaces_enabled, Primitive.init.physics_material, Primitive.init.overwrite_physics, Primitive.init.display_texture, Primitive.init.object_space_normal_map, Primitive.init.min_aa_bound, Primitive.init.max_aa_bound, Primitive.init.mesh_file_name, Primitive.init.num_vertices, Primitive.init.compressed_vertices_len, Primitive.init.compressed_vertices_data, Primitive.init.num_indices, Primitive.init.compressed_indices_len, Primitive.init.compressed_indices_data, Primitive.init.compressed_animation_vertices_len, Primitive.init.compressed_animation_vertices_data, Primitive.init.depth_bias, Primitive.init.add_blend, Primitive.init.use_depth_mask, Primitive.init.alpha, Primitive.init.color, Primitive.init.light_map, Primitive.init.reflection_probe, Primitive.init.reflection_strength, Primitive.init.refraction_probe, Primitive.init.refraction_thickness, Primitive.init.shared⟩
    (bool_rt.opt (fun v (s : Primitive) => { s with is_reflection_enabled := v }) (fun _ _ => trivial) rfl rfl) rfl ?_
  refine .segTo ⟨s.name, s.position, s.size, s.rot_and_tra0, s.rot_and_tra1, s.rot_and_tra2, s.rot_and_tra3, s.rot_and_tra4, s.rot_and_tra5, s.rot_and_tra6, s.rot_and_tra7, s.rot_and_tra8, s.image, s.normal_map, s.sides, s.material, s.side_color, s.is_visible, s.draw_textures_inside, s.hit_event, s.threshold, s.elasticity, s.elasticity_falloff, s.friction, s.scatter, s.edge_factor_ui, s.collision_reduction_factor, s.is_collidable, s.is_toy, s.use_3d_mesh, s.static_rendering, s.disable_lighting_top_old, s.disable_lighting_top, s.disable_lighting_below, s.is_reflection_enabled, s.backfaces_enabled, Primitive.init.physics_material, Primitive.init.overwrite_physics, Primitive.init.display_texture, Primitive.init.object_space_normal_map, Primitive.init.min_aa_bound, Primitive.init.max_aa_bound, Primitive.init.mesh_file_name, Primitive.init.num_vertices, Primitive.init.compressed_vertices_len, Primitive.init.compressed_vertices_data, Primitive.init.num_indices, Primitive.init.compressed_indices_len, Primitive.init.compressed_indices_data, Primitive.init.compressed_animation_vertices_len, Primitive.init.compressed_animation_vertices_data, Primitive.init.depth_bias, Primitive.init.add_blend, Primitive.init.use_depth_mask, Primitive.init.alpha, Primitive.init.color, Primitive.init.light_map, Primitive.init.reflection_probe, Primitive.init.reflection_strength, Primitive.init.refraction_probe, Primitive.init.refraction_thickness, Primitive.init.shared⟩
    (bool_rt.opt (fun v (s : Primitive) => { s with backfaces_enabled := v }) (fun _ _ => trivial) rfl rfl) rfl ?_
  refine .segTo ⟨s.name, s.position, s.size, s.rot_and_tra0, s.rot_and_tra1, s.rot_and_tra2, s.rot_and_tra3, s.rot_and_tra4, s.rot_and_tra5, s.rot_and_tra6, s.rot_and_tra7, s.rot_and_tra8, s.image, s.normal_map, s.sides, s.material, s.side_color, s.is_visible, s.draw_textures_inside, s.hit_event, s.threshold, s.elasticity, s.elasticity_falloff, s.friction, s.scatter, s.edge_factor_ui, s.collision_reduction_factor, s.is_collidable, s.is_toy, s.use_3d_mesh, s.static_rendering, s.disable_lighting_top_old, s.disable_lighting_top, s.disable_lighting_below, s.is_reflection_enabled, s.backfaces_enabled, s.physics_material, Primitive.init.overwrite_physics, Primitive.init.display_texture, Primitive.init.object_space_normal_map, Primitive.init.min_aa_bound, Primitive.init.max_aa_bound, Primitive.init.mesh_file_name, Primitive.init.num_vertices, Primitive.init.compressed_vertices_len, Primitive.init.compressed_vertices_data, Primitive.init.num_indices, Primitive.init.compressed_indices_len, Primitive.init.compressed_indices_data, Primitive.init.compressed_animation_vertices_len, Primitive.init.compressed_animation_vertices_data, Primitive.init.depth_bias, Primitive.init.add_blend, Primitive.init.use_depth_mask, Primitive.init.alpha, Primitive.init.color, Primitive.init.light_map, Primitive.init.reflection_probe, Primitive.init.reflection_strength, Primitive.init.refraction_probe, Primitive.init.refraction_thickness, Primitive.init.shared⟩
    (string_rt.opt (fun v (s : Primitive) => { s with physics_material := v }) h.physics_material rfl rfl) rfl ?_
  refine .segTo ⟨s.name, s.position, s.size, s.rot_and_tra0, s.rot_and_tra1, s.rot_and_tra2, s.rot_and_tra3, s.rot_and_tra4, s.rot_and_tra5, s.rot_and_tra6, s.rot_and_tra7, s.rot_and_tra8, s.image, s.normal_map, s.sides, s.material, s.side_color, s.is_visible, s.draw_textures_inside, s.hit_event, s.threshold, s.elasticity, s.elasticity_falloff, s.friction, s.scatter, s.edge_factor_ui, s.collision_reduction_factor, s.is_collidable, s.is_toy, s.use_3d_mesh, s.static_rendering, s.disable_lighting_top_old, s.disable_lighting_top, s.disable_lighting_below, s.is_reflection_enabled, s.backfaces_enabled, s.physics_material, s.overwrite_physics, Primitive.init.display_texture, Primitive.init.object_space_normal_map, Primitive.init.min_aa_bound, Primitive.init.max_aa_bound, Primitive.init.mesh_file_name, Primitive.init.num_vertices, Primitive.init.compressed_vertices_len, Primitive.init.compressed_vertices_data, Primitive.init.num_indices, Primitive.init.compressed_indices_len, Primitive.init.compressed_indices_data, Primitive.init.compressed_animation_vertices_len, Primitive.init.compressed_animation_vertices_data, Primitive.init.depth_bias, Primitive.init.add_blend, Primitive.init.use_depth_mask, Primitive.init.alpha, Primitive.init.color, Primitive.init.light_map, Primitive.init.reflection_probe, Primitive.init.reflection_strength, Primitive.init.refraction_probe, Primitive.init.refraction_thickness, Primitive.init.shared⟩
    (bool_rt.opt (fun v (s : Primitive) => { s with overwrite_physics := v }) (fun _ _ => trivial) rfl rfl) rfl ?_
  refine .segTo ⟨s.name, s.position, s.size, s.rot_and_tra0, s.rot_and_tra1, s.rot_and_tra2, s.rot_and_tra3, s.rot_and_tra4, s.rot_and_tra5, s.rot_and_tra6, s.rot_and_tra7, s.rot_and_tra8, s.image, s.normal_map, s.sides, s.material, s.side_color, s.is_visible, s.draw_textures_inside, s.hit_event, s.threshold, s.elasticity, s.elasticity_falloff, s.friction, s.scatter, s.edge_factor_ui, s.collision_reduction_factor, s.is_collidable, s.is_toy, s.use_3d_mesh, s.static_rendering, s.disable_lighting_top_old, s.disable_lighting_top, s.disable_lighting_below, s.is_reflection_enabled, s.backfaces_enabled, s.physics_material, s.overwrite_physics, s.display_texture, Primitive.init.object_space_normal_map, Primitive.init.min_aa_bound, Primitive.init.max_aa_bound, Primitive.init.mesh_file_name, Primitive.init.num_vertices, Primitive.init.compressed_vertices_len, Primitive.init.compressed_vertices_data, Primitive.init.num_indices, Primitive.init.compressed_indices_len, Primitive.init.compressed_indices_data, Primitive.init.compressed_animation_vertices_len, Primitive.init.compressed_animation_vertices_data, Primitive.init.depth_bias, Primitive.init.add_blend, Primitive.init.use_depth_mask, Primitive.init.alpha, Primitive.init.color, Primitive.init.light_map, Primitive.init.reflection_probe, Primitive.init.reflection_strength, Primitive.init.refraction_probe, Primitive.init.refraction_thickness, Primitive.init.shared⟩
    (bool_rt.opt (fun v (s : Primitive) => { s with display_texture := v }) (fun _ _ => trivial) rfl rfl) rfl ?_
  refine .segTo ⟨s.name, s.position, s.size, s.rot_and_tra0, s.rot_and_tra1, s.rot_and_tra2, s.rot_and_tra3, s.rot_and_tra4, s.rot_and_tra5, s.rot_and_tra6, s.rot_and_tra7, s.rot_and_tra8, s.image, s.normal_map, s.sides, s.material, s.side_color, s.is_visible, s.draw_textures_inside, s.hit_event, s.threshold, s.elasticity, s.elasticity_falloff, s.friction, s.scatter, s.edge_factor_ui, s.collision_reduction_factor, s.is_collidable, s.is_toy, s.use_3d_mesh, s.static_rendering, s.disable_lighting_top_old, s.disable_lighting_top, s.disable_lighting_below, s.is_reflection_enabled, s.backfaces_enabled, s.physics_material, s.overwrite_physics, s.display_texture, s.object_space_normal_map, Primitive.init.min_aa_bound, Primitive.init.max_aa_bound, Primitive.init.mesh_file_name, Primitive.init.num_vertices, Primitive.init.compressed_vertices_len, Primitive.init.compressed_vertices_data, Primitive.init.num_indices, Primitive.init.compressed_indices_len, Primitive.init.compressed_indices_data, Primitive.init.compressed_animation_vertices_len, Primitive.init.compressed_animation_vertices_data, Primitive.init.depth_bias, Primitive.init.add_blend, Primitive.init.use_depth_mask, Primitive.init.alpha, Primitive.init.color, Primitive.init.light_map, Primitive.init.reflection_probe, Primitive.init.reflection_strength, Primitive.init.refraction_probe, Primitive.init.refraction_thickness, Primitive.init.shared⟩
    (bool_rt.opt (fun v (s : Primitive) => { s with object_space_normal_map := v }) (fun _ _ => trivial) rfl rfl) rfl ?_
  refine .segTo ⟨s.name, s.position, s.size, s.rot_and_tra0, s.rot_and_tra1, s.rot_and_tra2, s.rot_and_tra3, s.rot_and_tra4, s.rot_and_tra5, s.rot_and_tra6, s.rot_and_tra7, s.rot_and_tra8, s.image, s.normal_map, s.sides, s.material, s.side_color, s.is_visible, s.draw_textures_inside, s.hit_event, s.threshold, s.elasticity, s.elasticity_falloff, s.friction, s.scatter, s.edge_factor_ui, s.collision_reduction_factor, s.is_collidable, s.is_toy, s.use_3d_mesh, s.static_rendering, s.disable_lighting_top_old, s.disable_lighting_top, s.disable_lighting_below, s.is_reflection_enabled, s.backfaces_enabled, s.physics_material, s.overwrite_physics, s.display_texture, s.object_space_normal_map, s.min_aa_bound, Primitive.init.max_aa_bound, Primitive.init.mesh_file_name, Primitive.init.num_vertices, Primitive.init.compressed_vertices_len, Primitive.init.compressed_vertices_data, Primitive.init.num_indices, Primitive.init.compressed_indices_len, Primitive.init.compressed_indices_data, Primitive.init.compressed_animation_vertices_len, Primitive.init.compressed_animation_vertices_data, Primitive.init.depth_bias, Primitive.init.add_blend, Primitive.init.use_depth_mask, Primitive.init.alpha, Primitive.init.color, Primitive.init.light_map, Primitive.init.reflection_probe, Primitive.init.reflection_strength, Primitive.init.refraction_probe, Primitive.init.refraction_thickness, Primitive.init.shared⟩
    (vertex3du_rt.opt (fun v (s : Primitive) => { s with min_aa_bound := v }) (fun _ _ => trivial) rfl rfl) rfl ?_
  refine .segTo ⟨s.name, s.position, s.size, s.rot_and_tra0, s.rot_and_tra1, s.rot_and_tra2, s.rot_and_tra3, s.rot_and_tra4, s.rot_and_tra5, s.rot_and_tra6, s.rot_and_tra7, s.rot_and_tra8, s.image, s.normal_map, s.sides, s.material, s.side_color, s.is_visible, s.draw_textures_inside, s.hit_event, s.threshold, s.elasticity, s.elasticity_falloff, s.friction, s.scatter, s.edge_factor_ui, s.collision_reduction_factor, s.is_collidable, s.is_toy, s.use_3d_mesh, s.static_rendering, s.disable_lighting_top_old, s.disable_lighting_top, s.disable_lighting_below, s.is_reflection_enabled, s.backfaces_enabled, s.physics_material, s.overwrite_physics, s.display_texture, s.object_space_normal_map, s.min_aa_bound, s.max_aa_bound, Primitive.init.mesh_file_name, Primitive.init.num_vertices, Primitive.init.compressed_vertices_len, Primitive.init.compressed_vertices_data, Primitive.init.num_indices, Primitive.init.compressed_indices_len, Primitive.init.compressed_indices_data, Primitive.init.compressed_animation_vertices_len, Primitive.init.compressed_animation_vertices_data, Primitive.init.depth_bias, Primitive.init.add_blend, Primitive.init.use_depth_mask, Primitive.init.alpha, Primitive.init.color, Primitive.init.light_map, Primitive.init.reflection_probe, Primitive.init.reflection_strength, Primitive.init.refraction_probe, Primitive.init.refraction_thickness, Primitive.init.shared⟩
    (vertex3du_rt.opt (fun v (s : Primitive) => { s with max_aa_bound := v }) (fun _ _ => trivial) rfl rfl) rfl ?_
  refine .segTo ⟨s.name, s.position, s.size, s.rot_and_tra0, s.rot_and_tra1, s.rot_and_tra2, s.rot_and_tra3, s.rot_and_tra4, s.rot_and_tra5, s.rot_and_tra6, s.rot_and_tra7, s.rot_and_tra8, s.image, s.normal_map, s.sides, s.material, s.side_color, s.is_visible, s.draw_textures_inside, s.hit_event, s.threshold, s.elasticity, s.elasticity_falloff, s.friction, s.scatter, s.edge_factor_ui, s.collision_reduction_factor, s.is_collidable, s.is_toy, s.use_3d_mesh, s.static_rendering, s.disable_lighting_top_old, s.disable_lighting_top, s.disable_lighting_below, s.is_reflection_enabled, s.backfaces_enabled, s.physics_material, s.overwrite_physics, s.display_texture, s.object_space_normal_map, s.min_aa_bound, s.max_aa_bound, s.mesh_file_name, Primitive.init.num_vertices, Primitive.init.compressed_vertices_len, Primitive.init.compressed_vertices_data, Primitive.init.num_indices, Primitive.init.compressed_indices_len, Primitive.init.compressed_indices_data, Primitive.init.compressed_animation_vertices_len, Primitive.init.compressed_animation_vertices_data, Primitive.init.depth_bias, Primitive.init.add_blend, Primitive.init.use_depth_mask, Primitive.init.alpha, Primitive.init.color, Primitive.init.light_map, Primitive.init.reflection_probe, Primitive.init.reflection_strength, Primitive.init.refraction_probe, Primitive.init.refraction_thickness, Primitive.init.shared⟩
    (string_rt.opt (fun v (s : Primitive) => { s with mesh_file_name := v }) h.mesh_file_name rfl rfl) rfl ?_
  refine .segTo ⟨s.name, s.position, s.size, s.rot_and_tra0, s.rot_and_tra1, s.rot_and_tra2, s.rot_and_tra3, s.rot_and_tra4, s.rot_and_tra5, s.rot_and_tra6, s.rot_and_tra7, s.rot_and_tra8, s.image, s.normal_map, s.sides, s.material, s.side_color, s.is_visible, s.draw_textures_inside, s.hit_event, s.threshold, s.elasticity, s.elasticity_falloff, s.friction, s.scatter, s.edge_factor_ui, s.collision_reduction_factor, s.is_collidable, s.is_toy, s.use_3d_mesh, s.static_rendering, s.disable_lighting_top_old, s.disable_lighting_top, s.disable_lighting_below, s.is_reflection_enabled, s.backfaces_enabled, s.physics_material, s.overwrite_physics, s.display_texture, s.object_space_normal_map, s.min_aa_bound, s.max_aa_bound, s.mesh_file_name, s.num_vertices, Primitive.init.compressed_vertices_len, Primitive.init.compressed_vertices_data, Primitive.init.num_indices, Primitive.init.compressed_indices_len, Primitive.init.compressed_indices_data, Primitive.init.compressed_animation_vertices_len, Primitive.init.compressed_animation_vertices_data, Primitive.init.depth_bias, Primitive.init.add_blend, Primitive.init.use_depth_mask, Primitive.init.alpha, Primitive.init.color, Primitive.init.light_map, Primitive.init.reflection_probe, Primitive.init.reflection_strength, Primitive.init.refraction_probe, Primitive.init.refraction_thickness, Primitive.init.shared⟩
    (u32_rt.opt (fun v (s : Primitive) => { s with num_vertices := v }) (fun _ _ => trivial) rfl rfl) rfl ?_
  refine .segTo ⟨s.name, s.position, s.size, s.rot_and_tra0, s.rot_and_tra1, s.rot_and_tra2, s.rot_and_tra3, s.rot_and_tra4, s.rot_and_tra5, s.rot_and_tra6, s.rot_and_tra7, s.rot_and_tra8, s.image, s.normal_map, s.sides, s.material, s.side_color, s.is_visible, s.draw_textures_inside, s.hit_event, s.threshold, s.elasticity, s.elasticity_falloff, s.friction, s.scatter, s.edge_factor_ui, s.collision_reduction_factor, s.is_collidable, s.is_toy, s.use_3d_mesh, s.static_rendering, s.disable_lighting_top_old, s.disable_lighting_top, s.disable_lighting_below, s.is_reflection_enabled, s.backfaces_enabled, s.physics_material, s.overwrite_physics, s.display_texture, s.object_space_normal_map, s.min_aa_bound, s.max_aa_bound, s.mesh_file_name, s.num_vertices, s.compressed_vertices_len, Primitive.init.compressed_vertices_data, Primitive.init.num_indices, Primitive.init.compressed_indices_len, Primitive.init.compressed_indices_data, Primitive.init.compressed_animation_vertices_len, Primitive.init.compressed_animation_vertices_data, Primitive.init.depth_bias, Primitive.init.add_blend, Primitive.init.use_depth_mask, Primitive.init.alpha, Primitive.init.color, Primitive.init.light_map, Primitive.init.reflection_probe, Primitive.init.reflection_strength, Primitive.init.refraction_probe, Primitive.init.refraction_thickness, Primitive.init.shared⟩
    (u32_rt.opt (fun v (s : Primitive) => { s with compressed_vertices_len := v }) (fun _ _ => trivial) rfl rfl) rfl ?_
  refine .segTo ⟨s.name, s.position, s.size, s.rot_and_tra0, s.rot_and_tra1, s.rot_and_tra2, s.rot_and_tra3, s.rot_and_tra4, s.rot_and_tra5, s.rot_and_tra6, s.rot_and_tra7, s.rot_and_tra8, s.image, s.normal_map, s.sides, s.material, s.side_color, s.is_visible, s.draw_textures_inside, s.hit_event, s.threshold, s.elasticity, s.elasticity_falloff, s.friction, s.scatter, s.edge_factor_ui, s.collision_reduction_factor, s.is_collidable, s.is_toy, s.use_3d_mesh, s.static_rendering, s.disable_lighting_top_old, s.disable_lighting_top, s.disable_lighting_below, s.is_reflection_enabled, s.backfaces_enabled, s.physics_material, s.overwrite_physics, s.display_texture, s.object_space_normal_map, s.min_aa_bound, s.max_aa_bound, s.mesh_file_name, s.num_vertices, s.compressed_vertices_len, s.compressed_vertices_data, Primitive.init.num_indices, Primitive.init.compressed_indices_len, Primitive.init.compressed_indices_data, Primitive.init.compressed_animation_vertices_len, Primitive.init.compressed_animation_vertices_data, Primitive.init.depth_bias, Primitive.init.add_blend, Primitive.init.use_depth_mask, Primitive.init.alpha, Primitive.init.color, Primitive.init.light_map, Primitive.init.reflection_probe, Primitive.init.reflection_strength, Primitive.init.refraction_probe, Primitive.init.refraction_thickness, Primitive.init.shared⟩
    (data_rt.opt (fun v (s : Primitive) => { s with compressed_vertices_data := v }) h.compressed_vertices_data rfl rfl) rfl ?_
  refine .segTo ⟨s.name, s.position, s.size, s.rot_and_tra0, s.rot_and_tra1, s.rot_and_tra2, s.rot_and_tra3, s.rot_and_tra4, s.rot_and_tra5, s.rot_and_tra6, s.rot_and_tra7, s.rot_and_tra8, s.image, s.normal_map, s.sides, s.material, s.side_color, s.is_visible, s.draw_textures_inside, s.hit_event, s.threshold, s.elasticity, s.elasticity_falloff, s.friction, s.scatter, s.edge_factor_ui, s.collision_reduction_factor, s.is_collidable, s.is_toy, s.use_3d_mesh, s.static_rendering, s.disable_lighting_top_old, s.disable_lighting_top, s.disable_lighting_below, s.is_reflection_enabled, s.backfaces_enabled, s.physics_material, s.overwrite_physics, s.display_texture, s.object_space_normal_map, s.min_aa_bound, s.max_aa_bound, s.mesh_file_name, s.num_vertices, s.compressed_vertices_len, s.compressed_vertices_data, s.num_indices, Primitive.init.compressed_indices_len, Primitive.init.compressed_indices_data, Primitive.init.compressed_animation_vertices_len, Primitive.init.compressed_animation_vertices_data, Primitive.init.depth_bias, Primitive.init.add_blend, Primitive.init.use_depth_mask, Primitive.init.alpha, Primitive.init.color, Primitive.init.light_map, Primitive.init.reflection_probe, Primitive.init.reflection_strength, Primitive.init.refraction_probe, Primitive.init.refraction_thickness, Primitive.init.shared⟩
    (u32_rt.opt (fun v (s : Primitive) => { s with num_indices := v }) (fun _ _ => trivial) rfl rfl) rfl ?_
  refine .segTo ⟨s.name, s.position, s.size, s.rot_and_tra0, s.rot_and_tra1, s.rot_and_tra2, s.rot_and_tra3, s.rot_and_tra4, s.rot_and_tra5, s.rot_and_tra6, s.rot_and_tra7, s.rot_and_tra8, s.image, s.normal_map, s.sides, s.material, s.side_color, s.is_visible, s.draw_textures_inside, s.hit_event, s.threshold, s.elasticity, s.elasticity_falloff, s.friction, s.scatter, s.edge_factor_ui, s.collision_reduction_factor, s.is_collidable, s.is_toy, s.use_3d_mesh, s.static_rendering, s.disable_lighting_top_old, s.disable_lighting_top, s.disable_lighting_below, s.is_reflection_enabled, s.backfaces_enabled, s.physics_material, s.overwrite_physics, s.display_texture, s.object_space_normal_map, s.min_aa_bound, s.max_aa_bound, s.mesh_file_name, s.num_vertices, s.compressed_vertices_len, s.compressed_vertices_data, s.num_indices, s.compressed_indices_len, Primitive.init.compressed_indices_data, Primitive.init.compressed_animation_vertices_len, Primitive.init.compressed_animation_vertices_data, Primitive.init.depth_bias, Primitive.init.add_blend, Primitive.init.use_depth_mask, Primitive.init.alpha, Primitive.init.color, Primitive.init.light_map, Primitive.init.reflection_probe, Primitive.init.reflection_strength, Primitive.init.refraction_probe, Primitive.init.refraction_thickness, Primitive.init.shared⟩
    (u32_rt.opt (fun v (s : Primitive) => { s with compressed_indices_len := v }) (fun _ _ => trivial) rfl rfl) rfl ?_
  refine .segTo ⟨s.name, s.position, s.size, s.rot_and_tra0, s.rot_and_tra1, s.rot_and_tra2, s.rot_and_tra3, s.rot_and_tra4, s.rot_and_tra5, s.rot_and_tra6, s.rot_and_tra7, s.rot_and_tra8, s.image, s.normal_map, s.sides, s.material, s.side_color, s.is_visible, s.draw_textures_inside, s.hit_event, s.threshold, s.elasticity, s.elasticity_falloff, s.friction, s.scatter, s.edge_factor_ui, s.collision_reduction_factor, s.is_collidable, s.is_toy, s.use_3d_mesh, s.static_rendering, s.disable_lighting_top_old, s.disable_lighting_top, s.disable_lighting_below, s.is_reflection_enabled, s.backfaces_enabled, s.physics_material, s.overwrite_physics, s.display_texture, s.object_space_normal_map, s.min_aa_bound, s.max_aa_bound, s.mesh_file_name, s.num_vertices, s.compressed_vertices_len, s.compressed_vertices_data, s.num_indices, s.compressed_indices_len, s.compressed_indices_data, Primitive.init.compressed_animation_vertices_len, Primitive.init.compressed_animation_vertices_data, Primitive.init.depth_bias, Primitive.init.add_blend, Primitive.init.use_depth_mask, Primitive.init.alpha, Primitive.init.color, Primitive.init.light_map, Primitive.init.reflection_probe, Primitive.init.reflection_strength, Primitive.init.refraction_probe, Primitive.init.refraction_thickness, Primitive.init.shared⟩
    (data_rt.opt (fun v (s : Primitive) => { s with compressed_indices_data := v }) h.compressed_indices_data rfl rfl) rfl ?_
  refine .segTo ⟨s.name, s.position, s.size, s.rot_and_tra0, s.rot_and_tra1, s.rot_and_tra2, s.rot_and_tra3, s.rot_and_tra4, s.rot_and_tra5, s.rot_and_tra6, s.rot_and_tra7, s.rot_and_tra8, s.image, s.normal_map, s.sides, s.material, s.side_color, s.is_visible, s.draw_textures_inside, s.hit_event, s.threshold, s.elasticity, s.elasticity_falloff, s.friction, s.scatter, s.edge_factor_ui, s.collision_reduction_factor, s.is_collidable, s.is_toy, s.use_3d_mesh, s.static_rendering, s.disable_lighting_top_old, s.disable_lighting_top, s.disable_lighting_below, s.is_reflection_enabled, s.backfaces_enabled, s.physics_material, s.overwrite_physics, s.display_texture, s.object_space_normal_map, s.min_aa_bound, s.max_aa_bound, s.mesh_file_name, s.num_vertices, s.compressed_vertices_len, s.compressed_vertices_data, s.num_indices, s.compressed_indices_len, s.compressed_indices_data, s.compressed_animation_vertices_len, s.compressed_animation_vertices_data, Primitive.init.depth_bias, Primitive.init.add_blend, Primitive.init.use_depth_mask, Primitive.init.alpha, Primitive.init.color, Primitive.init.light_map, Primitive.init.reflection_probe, Primitive.init.reflection_strength, Primitive.init.refraction_probe, Primitive.init.refraction_thickness, Primitive.init.shared⟩
    (Primitive.anim_reads h.animation rfl rfl) rfl ?_
  refine .segTo ⟨s.name, s.position, s.size, s.rot_and_tra0, s.rot_and_tra1, s.rot_and_tra2, s.rot_and_tra3, s.rot_and_tra4, s.rot_and_tra5, s.rot_and_tra6, s.rot_and_tra7, s.rot_and_tra8, s.image, s.normal_map, s.sides, s.material, s.side_color, s.is_visible, s.draw_textures_inside, s.hit_event, s.threshold, s.elasticity, s.elasticity_falloff, s.friction, s.scatter, s.edge_factor_ui, s.collision_reduction_factor, s.is_collidable, s.is_toy, s.use_3d_mesh, s.static_rendering, s.disable_lighting_top_old, s.disable_lighting_top, s.disable_lighting_below, s.is_reflection_enabled, s.backfaces_enabled, s.physics_material, s.overwrite_physics, s.display_texture, s.object_space_normal_map, s.min_aa_bound, s.max_aa_bound, s.mesh_file_name, s.num_vertices, s.compressed_vertices_len, s.compressed_vertices_data, s.num_indices, s.compressed_indices_len, s.compressed_indices_data, s.compressed_animation_vertices_len, s.compressed_animation_vertices_data, s.depth_bias, Primitive.init.add_blend, Primitive.init.use_depth_mask, Primitive.init.alpha, Primitive.init.color, Primitive.init.light_map, Primitive.init.reflection_probe, Primitive.init.reflection_strength, Primitive.init.refraction_probe, Primitive.init.refraction_thickness, Primitive.init.shared⟩
    (f32_rt.req trivial rfl) rfl ?_
  refine .segTo ⟨s.name, s.position, s.size, s.rot_and_tra0, s.rot_and_tra1, s.rot_and_tra2, s.rot_and_tra3, s.rot_and_tra4, s.rot_and_tra5, s.rot_and_tra6, s.rot_and_tra7, s.rot_and_tra8, s.image, s.normal_map, s.sides, s.material, s.side_color, s.is_visible, s.draw_textures_inside, s.hit_event, s.threshold, s.elasticity, s.elasticity_falloff, s.friction, s.scatter, s.edge_factor_ui, s.collision_reduction_factor, s.is_collidable, s.is_toy, s.use_3d_mesh, s.static_rendering, s.disable_lighting_top_old, s.disable_lighting_top, s.disable_lighting_below, s.is_reflection_enabled, s.backfaces_enabled, s.physics_material, s.overwrite_physics, s.display_texture, s.object_space_normal_map, s.min_aa_bound, s.max_aa_bound, s.mesh_file_name, s.num_vertices, s.compressed_vertices_len, s.compressed_vertices_data, s.num_indices, s.compressed_indices_len, s.compressed_indices_data, s.compressed_animation_vertices_len, s.compressed_animation_vertices_data, s.depth_bias, s.add_blend, Primitive.init.use_depth_mask, Primitive.init.alpha, Primitive.init.color, Primitive.init.light_map, Primitive.init.reflection_probe, Primitive.init.reflection_strength, Primitive.init.refraction_probe, Primitive.init.refraction_thickness, Primitive.init.shared⟩
    (bool_rt.opt (fun v (s : Primitive) => { s with add_blend := v }) (fun _ _ => trivial) rfl rfl) rfl ?_
  refine .segTo ⟨s.name, s.position, s.size, s.rot_and_tra0, s.rot_and_tra1, s.rot_and_tra2, s.rot_and_tra3, s.rot_and_tra4, s.rot_and_tra5, s.rot_and_tra6, s.rot_and_tra7, s.rot_and_tra8, s.image, s.normal_map, s.sides, s.material, s.side_color, s.is_visible, s.draw_textures_inside, s.hit_event, s.threshold, s.elasticity, s.elasticity_falloff, s.friction, s.scatter, s.edge_factor_ui, s.collision_reduction_factor, s.is_collidable, s.is_toy, s.use_3d_mesh, s.static_rendering, s.disable_lighting_top_old, s.disable_lighting_top, s.disable_lighting_below, s.is_reflection_enabled, s.backfaces_enabled, s.physics_material, s.overwrite_physics, s.display_texture, s.object_space_normal_map, s.min_aa_bound, s.max_aa_bound, s.mesh_file_name, s.num_vertices, s.compressed_vertices_len, s.compressed_vertices_data, s.num_indices, s.compressed_indices_len, s.compressed_indices_data, s.compressed_animation_vertices_len, s.compressed_animation_vertices_data, s.depth_bias, s.add_blend, s.use_depth_mask, Primitive.init.alpha, Primitive.init.color, Primitive.init.light_map, Primitive.init.reflection_probe, Primitive.init.reflection_strength, Primitive.init.refraction_probe, Primitive.init.refraction_thickness, Primitive.init.shared⟩
    (bool_rt.opt (fun v (s : Primitive) => { s with use_depth_mask := v }) (fun _ _ => trivial) rfl rfl) rfl ?_
  refine .segTo ⟨s.name, s.position, s.size, s.rot_and_tra0, s.rot_and_tra1, s.rot_and_tra2, s.rot_and_tra3, s.rot_and_tra4, s.rot_and_tra5, s.rot_and_tra6, s.rot_and_tra7, s.rot_and_tra8, s.image, s.normal_map, s.sides, s.material, s.side_color, s.is_visible, s.draw_textures_inside, s.hit_event, s.threshold, s.elasticity, s.elasticity_falloff, s.friction, s.scatter, s.edge_factor_ui, s.collision_reduction_factor, s.is_collidable, s.is_toy, s.use_3d_mesh, s.static_rendering, s.disable_lighting_top_old, s.disable_lighting_top, s.disable_lighting_below, s.is_reflection_enabled, s.backfaces_enabled, s.physics_material, s.overwrite_physics, s.display_texture, s.object_space_normal_map, s.min_aa_bound, s.max_aa_bound, s.mesh_file_name, s.num_vertices, s.compressed_vertices_len, s.compressed_vertices_data, s.num_indices, s.compressed_indices_len, s.compressed_indices_data, s.compressed_animation_vertices_len, s.compressed_animation_vertices_data, s.depth_bias, s.add_blend, s.use_depth_mask, s.alpha, Primitive.init.color, Primitive.init.light_map, Primitive.init.reflection_probe, Primitive.init.reflection_strength, Primitive.init.refraction_probe, Primitive.init.refraction_thickness, Primitive.init.shared⟩
    (f32_rt.opt (fun v (s : Primitive) => { s with alpha := v }) (fun _ _ => trivial) rfl rfl) rfl ?_
  refine .segTo ⟨s.name, s.position, s.size, s.rot_and_tra0, s.rot_and_tra1, s.rot_and_tra2, s.rot_and_tra3, s.rot_and_tra4, s.rot_and_tra5, s.rot_and_tra6, s.rot_and_tra7, s.rot_and_tra8, s.image, s.normal_map, s.sides, s.material, s.side_color, s.is_visible, s.draw_textures_inside, s.hit_event, s.threshold, s.elasticity, s.elasticity_falloff, s.friction, s.scatter, s.edge_factor_ui, s.collision_reduction_factor, s.is_collidable, s.is_toy, s.use_3d_mesh, s.static_rendering, s.disable_lighting_top_old, s.disable_lighting_top, s.disable_lighting_below, s.is_reflection_enabled, s.backfaces_enabled, s.physics_material, s.overwrite_physics, s.display_texture, s.object_space_normal_map, s.min_aa_bound, s.max_aa_bound, s.mesh_file_name, s.num_vertices, s.compressed_vertices_len, s.compressed_vertices_data, s.num_indices, s.compressed_indices_len, s.compressed_indices_data, s.compressed_animation_vertices_len, s.compressed_animation_vertices_data, s.depth_bias, s.add_blend, s.use_depth_mask, s.alpha, s.color, Primitive.init.light_map, Primitive.init.reflection_probe, Primitive.init.reflection_strength, Primitive.init.refraction_probe, Primitive.init.refraction_thickness, Primitive.init.shared⟩
    (color_rt.opt (fun v (s : Primitive) => { s with color := v }) (fun _ _ => trivial) rfl rfl) rfl ?_
  refine .segTo ⟨s.name, s.position, s.size, s.rot_and_tra0, s.rot_and_tra1, s.rot_and_tra2, s.rot_and_tra3, s.rot_and_tra4, s.rot_and_tra5, s.rot_and_tra6, s.rot_and_tra7, s.rot_and_tra8, s.image, s.normal_map, s.sides, s.material, s.side_color, s.is_visible, s.draw_textures_inside, s.hit_event, s.threshold, s.elasticity, s.elasticity_falloff, s.friction, s.scatter, s.edge_factor_ui, s.collision_reduction_factor, s.is_collidable, s.is_toy, s.use_3d_mesh, s.static_rendering, s.disable_lighting_top_old, s.disable_lighting_top, s.disable_lighting_below, s.is_reflection_enabled, s.backfaces_enabled, s.physics_material, s.overwrite_physics, s.display_texture, s.object_space_normal_map, s.min_aa_bound, s.max_aa_bound, s.mesh_file_name, s.num_vertices, s.compressed_vertices_len, s.compressed_vertices_data, s.num_indices, s.compressed_indices_len, s.compressed_indices_data, s.compressed_animation_vertices_len, s.compressed_animation_vertices_data, s.depth_bias, s.add_blend, s.use_depth_mask, s.alpha, s.color, s.light_map, Primitive.init.reflection_probe, Primitive.init.reflection_strength, Primitive.init.refraction_probe, Primitive.init.refraction_thickness, Primitive.init.shared⟩
    (string_rt.opt (fun v (s : Primitive) => { s with light_map := v }) h.light_map rfl rfl) rfl ?_
  refine .segTo ⟨s.name, s.position, s.size, s.rot_and_tra0, s.rot_and_tra1, s.rot_and_tra2, s.rot_and_tra3, s.rot_and_tra4, s.rot_and_tra5, s.rot_and_tra6, s.rot_and_tra7, s.rot_and_tra8, s.image, s.normal_map, s.sides, s.material, s.side_color, s.is_visible, s.draw_textures_inside, s.hit_event, s.threshold, s.elasticity, s.elasticity_falloff, s.friction, s.scatter, s.edge_factor_ui, s.collision_reduction_factor, s.is_collidable, s.is_toy, s.use_3d_mesh, s.static_rendering, s.disable_lighting_top_old, s.disable_lighting_top, s.disable_lighting_below, s.is_reflection_enabled, s.backfaces_enabled, s.physics_material, s.overwrite_physics, s.display_texture, s.object_space_normal_map, s.min_aa_bound, s.max_aa_bound, s.mesh_file_name, s.num_vertices, s.compressed_vertices_len, s.compressed_vertices_data, s.num_indices, s.compressed_indices_len, s.compressed_indices_data, s.compressed_animation_vertices_len, s.compressed_animation_vertices_data, s.depth_bias, s.add_blend, s.use_depth_mask, s.alpha, s.color, s.light_map, s.reflection_probe, Primitive.init.reflection_strength, Primitive.init.refraction_probe, Primitive.init.refraction_thickness, Primitive.init.shared⟩
    (string_rt.opt (fun v (s : Primitive) => { s with reflection_probe := v }) h.reflection_probe rfl rfl) rfl ?_
  refine .segTo ⟨s.name, s.position, s.size, s.rot_and_tra0, s.rot_and_tra1, s.rot_and_tra2, s.rot_and_tra3, s.rot_and_tra4, s.rot_and_tra5, s.rot_and_tra6, s.rot_and_tra7, s.rot_and_tra8, s.image, s.normal_map, s.sides, s.material, s.side_color, s.is_visible, s.draw_textures_inside, s.hit_event, s.threshold, s.elasticity, s.elasticity_falloff, s.friction, s.scatter, s.edge_factor_ui, s.collision_reduction_factor, s.is_collidable, s.is_toy, s.use_3d_mesh, s.static_rendering, s.disable_lighting_top_old, s.disable_lighting_top, s.disable_lighting_below, s.is_reflection_enabled, s.backfaces_enabled, s.physics_material, s.overwrite_physics, s.display_texture, s.object_space_normal_map, s.min_aa_bound, s.max_aa_bound, s.mesh_file_name, s.num_vertices, s.compressed_vertices_len, s.compressed_vertices_data, s.num_indices, s.compressed_indices_len, s.compressed_indices_data, s.compressed_animation_vertices_len, s.compressed_animation_vertices_data, s.depth_bias, s.add_blend, s.use_depth_mask, s.alpha, s.color, s.light_map, s.reflection_probe, s.reflection_strength, Primitive.init.refraction_probe, Primitive.init.refraction_thickness, Primitive.init.shared⟩
    (f32_rt.opt (fun v (s : Primitive) => { s with reflection_strength := v }) (fun _ _ => trivial) rfl rfl) rfl ?_
  refine .segTo ⟨s.name, s.position, s.size, s.rot_and_tra0, s.rot_and_tra1, s.rot_and_tra2, s.rot_and_tra3, s.rot_and_tra4, s.rot_and_tra5, s.rot_and_tra6, s.rot_and_tra7, s.rot_and_tra8, s.image, s.normal_map, s.sides, s.material, s.side_color, s.is_visible, s.draw_textures_inside, s.hit_event, s.threshold, s.elasticity, s.elasticity_falloff, s.friction, s.scatter, s.edge_factor_ui, s.collision_reduction_factor, s.is_collidable, s.is_toy, s.use_3d_mesh, s.static_rendering, s.disable_lighting_top_old, s.disable_lighting_top, s.disable_lighting_below, s.is_reflection_enabled, s.backfaces_enabled, s.physics_material, s.overwrite_physics, s.display_texture, s.object_space_normal_map, s.min_aa_bound, s.max_aa_bound, s.mesh_file_name, s.num_vertices, s.compressed_vertices_len, s.compressed_vertices_data, s.num_indices, s.compressed_indices_len, s.compressed_indices_data, s.compressed_animation_vertices_len, s.compressed_animation_vertices_data, s.depth_bias, s.add_blend, s.use_depth_mask, s.alpha, s.color, s.light_map, s.reflection_probe, s.reflection_strength, s.refraction_probe, Primitive.init.refraction_thickness, Primitive.init.shared⟩
    (string_rt.opt (fun v (s : Primitive) => { s with refraction_probe := v }) h.refraction_probe rfl rfl) rfl ?_
  refine .segTo ⟨s.name, s.position, s.size, s.rot_and_tra0, s.rot_and_tra1, s.rot_and_tra2, s.rot_and_tra3, s.rot_and_tra4, s.rot_and_tra5, s.rot_and_tra6, s.rot_and_tra7, s.rot_and_tra8, s.image, s.normal_map, s.sides, s.material, s.side_color, s.is_visible, s.draw_textures_inside, s.hit_event, s.threshold, s.elasticity, s.elasticity_falloff, s.friction, s.scatter, s.edge_factor_ui, s.collision_reduction_factor, s.is_collidable, s.is_toy, s.use_3d_mesh, s.static_rendering, s.disable_lighting_top_old, s.disable_lighting_top, s.disable_lighting_below, s.is_reflection_enabled, s.backfaces_enabled, s.physics_material, s.overwrite_physics, s.display_texture, s.object_space_normal_map, s.min_aa_bound, s.max_aa_bound, s.mesh_file_name, s.num_vertices, s.compressed_vertices_len, s.compressed_vertices_data, s.num_indices, s.compressed_indices_len, s.compressed_indices_data, s.compressed_animation_vertices_len, s.compressed_animation_vertices_data, s.depth_bias, s.add_blend, s.use_depth_mask, s.alpha, s.color, s.light_map, s.reflection_probe, s.reflection_strength, s.refraction_probe, s.refraction_thickness, Primitive.init.shared⟩
    (f32_rt.opt (fun v (s : Primitive) => { s with refraction_thickness := v }) (fun _ _ => trivial) rfl rfl) rfl ?_
  refine .segTo ⟨s.name, s.position, s.size, s.rot_and_tra0, s.rot_and_tra1, s.rot_and_tra2, s.rot_and_tra3, s.rot_and_tra4, s.rot_and_tra5, s.rot_and_tra6, s.rot_and_tra7, s.rot_and_tra8, s.image, s.normal_map, s.sides, s.material, s.side_color, s.is_visible, s.draw_textures_inside, s.hit_event, s.threshold, s.elasticity, s.elasticity_falloff, s.friction, s.scatter, s.edge_factor_ui, s.collision_reduction_factor, s.is_collidable, s.is_toy, s.use_3d_mesh, s.static_rendering, s.disable_lighting_top_old, s.disable_lighting_top, s.disable_lighting_below, s.is_reflection_enabled, s.backfaces_enabled, s.physics_material, s.overwrite_physics, s.display_texture, s.object_space_normal_map, s.min_aa_bound, s.max_aa_bound, s.mesh_file_name, s.num_vertices, s.compressed_vertices_len, s.compressed_vertices_data, s.num_indices, s.compressed_indices_len, s.compressed_indices_data, s.compressed_animation_vertices_len, s.compressed_animation_vertices_data, s.depth_bias, s.add_blend, s.use_depth_mask, s.alpha, s.color, s.light_map, s.reflection_probe, s.reflection_strength, s.refraction_probe, s.refraction_thickness, s.shared⟩
    (shared_reads (L := Primitive.sharedL) ⟨fun _ _ => rfl, fun _ _ _ => rfl, fun _ => rfl⟩ h.shared rfl rfl rfl rfl rfl rfl) rfl ?_
  exact .done rfl

/-- what the reader guarantees: as `Primitive.WF`, but the animation frames need not come in pairs -/
structure Primitive.RInv (s : Primitive) : Prop where
  image : Text s.image
  normal_map : OptP Text s.normal_map
  name : WText s.name
  material : Text s.material
  disable_lighting_top_old : OptP Level8 s.disable_lighting_top_old
  physics_material : OptP Text s.physics_material
  mesh_file_name : OptP Text s.mesh_file_name
  compressed_vertices_data : OptP RecordData s.compressed_vertices_data
  compressed_indices_data : OptP RecordData s.compressed_indices_data
  animation : OptP (fun l => l ≠ []) s.compressed_animation_vertices_len
  animation_data : OptP (fun l => l ≠ [] ∧ ∀ d ∈ l, RecordData d) s.compressed_animation_vertices_data
  light_map : OptP Text s.light_map
  reflection_probe : OptP Text s.reflection_probe
  refraction_probe : OptP Text s.refraction_probe
  shared : s.shared.WF

theorem Primitive.arms_inv : ArmsInv Primitive.RInv Primitive.arms := by
  unfold Primitive.arms
  exact (.append (.cons (.fld GP.any fun _ _ h _ => ⟨h.image, h.normal_map, h.name, h.material, h.disable_lighting_top_old, h.physics_material, h.mesh_file_name, h.compressed_vertices_data, h.compressed_indices_data, h.animation, h.animation_data, h.light_map, h.reflection_probe, h.refraction_probe, h.shared⟩) <|
    .cons (.fld GP.any fun _ _ h _ => ⟨h.image, h.normal_map, h.name, h.material, h.disable_lighting_top_old, h.physics_material, h.mesh_file_name, h.compressed_vertices_data, h.compressed_indices_data, h.animation, h.animation_data, h.light_map, h.reflection_probe, h.refraction_probe, h.shared⟩) <|
    .cons (.fld GP.any fun _ _ h _ => ⟨h.image, h.normal_map, h.name, h.material, h.disable_lighting_top_old, h.physics_material, h.mesh_file_name, h.compressed_vertices_data, h.compressed_indices_data, h.animation, h.animation_data, h.light_map, h.reflection_probe, h.refraction_probe, h.shared⟩) <|
    .cons (.fld GP.any fun _ _ h _ => ⟨h.image, h.normal_map, h.name, h.material, h.disable_lighting_top_old, h.physics_material, h.mesh_file_name, h.compressed_vertices_data, h.compressed_indices_data, h.animation, h.animation_data, h.light_map, h.reflection_probe, h.refraction_probe, h.shared⟩) <|
    .cons (.fld GP.any fun _ _ h _ => ⟨h.image, h.normal_map, h.name, h.material, h.disable_lighting_top_old, h.physics_material, h.mesh_file_name, h.compressed_vertices_data, h.compressed_indices_data, h.animation, h.animation_data, h.light_map, h.reflection_probe, h.refraction_probe, h.shared⟩) <|
    .cons (.fld GP.any fun _ _ h _ => ⟨h.image, h.normal_map, h.name, h.material, h.disable_lighting_top_old, h.physics_material, h.mesh_file_name, h.compressed_vertices_data, h.compressed_indices_data, h.animation, h.animation_data, h.light_map, h.reflection_probe, h.refraction_probe, h.shared⟩) <|
    .cons (.fld GP.any fun _ _ h _ => ⟨h.image, h.normal_map, h.name, h.material, h.disable_lighting_top_old, h.physics_material, h.mesh_file_name, h.compressed_vertices_data, h.compressed_indices_data, h.animation, h.animation_data, h.light_map, h.reflection_probe, h.refraction_probe, h.shared⟩) <|
    .cons (.fld GP.any fun _ _ h _ => ⟨h.image, h.normal_map, h.name, h.material, h.disable_lighting_top_old, h.physics_material, h.mesh_file_name, h.compressed_vertices_data, h.compressed_indices_data, h.animation, h.animation_data, h.light_map, h.reflection_probe, h.refraction_probe, h.shared⟩) <|
    .cons (.fld GP.any fun _ _ h _ => ⟨h.image, h.normal_map, h.name, h.material, h.disable_lighting_top_old, h.physics_material, h.mesh_file_name, h.compressed_vertices_data, h.compressed_indices_data, h.animation, h.animation_data, h.light_map, h.reflection_probe, h.refraction_probe, h.shared⟩) <|
    .cons (.fld GP.any fun _ _ h _ => ⟨h.image, h.normal_map, h.name, h.material, h.disable_lighting_top_old, h.physics_material, h.mesh_file_name, h.compressed_vertices_data, h.compressed_indices_data, h.animation, h.animation_data, h.light_map, h.reflection_probe, h.refraction_probe, h.shared⟩) <|
    .cons (.fld GP.any fun _ _ h _ => ⟨h.image, h.normal_map, h.name, h.material, h.disable_lighting_top_old, h.physics_material, h.mesh_file_name, h.compressed_vertices_data, h.compressed_indices_data, h.animation, h.animation_data, h.light_map, h.reflection_probe, h.refraction_probe, h.shared⟩) <|
    .cons (.fld string_gp fun _ _ h hv => ⟨hv, h.normal_map, h.name, h.material, h.disable_lighting_top_old, h.physics_material, h.mesh_file_name, h.compressed_vertices_data, h.compressed_indices_data, h.animation, h.animation_data, h.light_map, h.reflection_probe, h.refraction_probe, h.shared⟩) <|
    .cons (.fld string_gp fun _ _ h hv => ⟨h.image, .some hv, h.name, h.material, h.disable_lighting_top_old, h.physics_material, h.mesh_file_name, h.compressed_vertices_data, h.compressed_indices_data, h.animation, h.animation_data, h.light_map, h.reflection_probe, h.refraction_probe, h.shared⟩) <|
    .cons (.fld GP.any fun _ _ h _ => ⟨h.image, h.normal_map, h.name, h.material, h.disable_lighting_top_old, h.physics_material, h.mesh_file_name, h.compressed_vertices_data, h.compressed_indices_data, h.animation, h.animation_data, h.light_map, h.reflection_probe, h.refraction_probe, h.shared⟩) <|
    .cons (.fld wide_gp fun _ _ h hv => ⟨h.image, h.normal_map, hv, h.material, h.disable_lighting_top_old, h.physics_material, h.mesh_file_name, h.compressed_vertices_data, h.compressed_indices_data, h.animation, h.animation_data, h.light_map, h.reflection_probe, h.refraction_probe, h.shared⟩) <|
    .cons (.fld string_gp fun _ _ h hv => ⟨h.image, h.normal_map, h.name, hv, h.disable_lighting_top_old, h.physics_material, h.mesh_file_name, h.compressed_vertices_data, h.compressed_indices_data, h.animation, h.animation_data, h.light_map, h.reflection_probe, h.refraction_probe, h.shared⟩) <|
    .cons (.fld GP.any fun _ _ h _ => ⟨h.image, h.normal_map, h.name, h.material, h.disable_lighting_top_old, h.physics_material, h.mesh_file_name, h.compressed_vertices_data, h.compressed_indices_data, h.animation, h.animation_data, h.light_map, h.reflection_probe, h.refraction_probe, h.shared⟩) <|
    .cons (.fld GP.any fun _ _ h _ => ⟨h.image, h.normal_map, h.name, h.material, h.disable_lighting_top_old, h.physics_material, h.mesh_file_name, h.compressed_vertices_data, h.compressed_indices_data, h.animation, h.animation_data, h.light_map, h.reflection_probe, h.refraction_probe, h.shared⟩) <|
    .cons (.fld GP.any fun _ _ h _ => ⟨h.image, h.normal_map, h.name, h.material, h.disable_lighting_top_old, h.physics_material, h.mesh_file_name, h.compressed_vertices_data, h.compressed_indices_data, h.animation, h.animation_data, h.light_map, h.reflection_probe, h.refraction_probe, h.shared⟩) <|
    .cons (.fld GP.any fun _ _ h _ => ⟨h.image, h.normal_map, h.name, h.material, h.disable_lighting_top_old, h.physics_material, h.mesh_file_name, h.compressed_vertices_data, h.compressed_indices_data, h.animation, h.animation_data, h.light_map, h.reflection_probe, h.refraction_probe, h.shared⟩) <|
    .cons (.fld GP.any fun _ _ h _ => ⟨h.image, h.normal_map, h.name, h.material, h.disable_lighting_top_old, h.physics_material, h.mesh_file_name, h.compressed_vertices_data, h.compressed_indices_data, h.animation, h.animation_data, h.light_map, h.reflection_probe, h.refraction_probe, h.shared⟩) <|
    .cons (.fld GP.any fun _ _ h _ => ⟨h.image, h.normal_map, h.name, h.material, h.disable_lighting_top_old, h.physics_material, h.mesh_file_name, h.compressed_vertices_data, h.compressed_indices_data, h.animation, h.animation_data, h.light_map, h.reflection_probe, h.refraction_probe, h.shared⟩) <|
    .cons (.fld GP.any fun _ _ h _ => ⟨h.image, h.normal_map, h.name, h.material, h.disable_lighting_top_old, h.physics_material, h.mesh_file_name, h.compressed_vertices_data, h.compressed_indices_data, h.animation, h.animation_data, h.light_map, h.reflection_probe, h.refraction_probe, h.shared⟩) <|
    .cons (.fld GP.any fun _ _ h _ => ⟨h.image, h.normal_map, h.name, h.material, h.disable_lighting_top_old, h.physics_material, h.mesh_file_name, h.compressed_vertices_data, h.compressed_indices_data, h.animation, h.animation_data, h.light_map, h.reflection_probe, h.refraction_probe, h.shared⟩) <|
    .cons (.fld GP.any fun _ _ h _ => ⟨h.image, h.normal_map, h.name, h.material, h.disable_lighting_top_old, h.physics_material, h.mesh_file_name, h.compressed_vertices_data, h.compressed_indices_data, h.animation, h.animation_data, h.light_map, h.reflection_probe, h.refraction_probe, h.shared⟩) <|
    .cons (.fld GP.any fun _ _ h _ => ⟨h.image, h.normal_map, h.name, h.material, h.disable_lighting_top_old, h.physics_material, h.mesh_file_name, h.compressed_vertices_data, h.compressed_indices_data, h.animation, h.animation_data, h.light_map, h.reflection_probe, h.refraction_probe, h.shared⟩) <|
    .cons (.fld GP.any fun _ _ h _ => ⟨h.image, h.normal_map, h.name, h.material, h.disable_lighting_top_old, h.physics_material, h.mesh_file_name, h.compressed_vertices_data, h.compressed_indices_data, h.animation, h.animation_data, h.light_map, h.reflection_probe, h.refraction_probe, h.shared⟩) <|
    .cons (.fld GP.any fun _ _ h _ => ⟨h.image, h.normal_map, h.name, h.material, h.disable_lighting_top_old, h.physics_material, h.mesh_file_name, h.compressed_vertices_data, h.compressed_indices_data, h.animation, h.animation_data, h.light_map, h.reflection_probe, h.refraction_probe, h.shared⟩) <|
    .cons (.fld GP.any fun _ _ h _ => ⟨h.image, h.normal_map, h.name, h.material, h.disable_lighting_top_old, h.physics_material, h.mesh_file_name, h.compressed_vertices_data, h.compressed_indices_data, h.animation, h.animation_data, h.light_map, h.reflection_probe, h.refraction_probe, h.shared⟩) <|
    .cons (.fld GP.any fun _ _ h _ => ⟨h.image, h.normal_map, h.name, h.material, h.disable_lighting_top_old, h.physics_material, h.mesh_file_name, h.compressed_vertices_data, h.compressed_indices_data, h.animation, h.animation_data, h.light_map, h.reflection_probe, h.refraction_probe, h.shared⟩) <|
    .cons (.fld GP.any fun _ _ h _ => ⟨h.image, h.normal_map, h.name, h.material, h.disable_lighting_top_old, h.physics_material, h.mesh_file_name, h.compressed_vertices_data, h.compressed_indices_data, h.animation, h.animation_data, h.light_map, h.reflection_probe, h.refraction_probe, h.shared⟩) <|
    .cons (.fld quant8_gp fun _ _ h hv => ⟨h.image, h.normal_map, h.name, h.material, .some hv, h.physics_material, h.mesh_file_name, h.compressed_vertices_data, h.compressed_indices_data, h.animation, h.animation_data, h.light_map, h.reflection_probe, h.refraction_probe, h.shared⟩) <|
    .cons (.fld GP.any fun _ _ h _ => ⟨h.image, h.normal_map, h.name, h.material, h.disable_lighting_top_old, h.physics_material, h.mesh_file_name, h.compressed_vertices_data, h.compressed_indices_data, h.animation, h.animation_data, h.light_map, h.reflection_probe, h.refraction_probe, h.shared⟩) <|
    .cons (.fld GP.any fun _ _ h _ => ⟨h.image, h.normal_map, h.name, h.material, h.disable_lighting_top_old, h.physics_material, h.mesh_file_name, h.compressed_vertices_data, h.compressed_indices_data, h.animation, h.animation_data, h.light_map, h.reflection_probe, h.refraction_probe, h.shared⟩) <|
    .cons (.fld GP.any fun _ _ h _ => ⟨h.image, h.normal_map, h.name, h.material, h.disable_lighting_top_old, h.physics_material, h.mesh_file_name, h.compressed_vertices_data, h.compressed_indices_data, h.animation, h.animation_data, h.light_map, h.reflection_probe, h.refraction_probe, h.shared⟩) <|
    .cons (.fld GP.any fun _ _ h _ => ⟨h.image, h.normal_map, h.name, h.material, h.disable_lighting_top_old, h.physics_material, h.mesh_file_name, h.compressed_vertices_data, h.compressed_indices_data, h.animation, h.animation_data, h.light_map, h.reflection_probe, h.refraction_probe, h.shared⟩) <|
    .cons (.fld string_gp fun _ _ h hv => ⟨h.image, h.normal_map, h.name, h.material, h.disable_lighting_top_old, .some hv, h.mesh_file_name, h.compressed_vertices_data, h.compressed_indices_data, h.animation, h.animation_data, h.light_map, h.reflection_probe, h.refraction_probe, h.shared⟩) <|
    .cons (.fld GP.any fun _ _ h _ => ⟨h.image, h.normal_map, h.name, h.material, h.disable_lighting_top_old, h.physics_material, h.mesh_file_name, h.compressed_vertices_data, h.compressed_indices_data, h.animation, h.animation_data, h.light_map, h.reflection_probe, h.refraction_probe, h.shared⟩) <|
    .cons (.fld GP.any fun _ _ h _ => ⟨h.image, h.normal_map, h.name, h.material, h.disable_lighting_top_old, h.physics_material, h.mesh_file_name, h.compressed_vertices_data, h.compressed_indices_data, h.animation, h.animation_data, h.light_map, h.reflection_probe, h.refraction_probe, h.shared⟩) <|
    .cons (.fld GP.any fun _ _ h _ => ⟨h.image, h.normal_map, h.name, h.material, h.disable_lighting_top_old, h.physics_material, h.mesh_file_name, h.compressed_vertices_data, h.compressed_indices_data, h.animation, h.animation_data, h.light_map, h.reflection_probe, h.refraction_probe, h.shared⟩) <|
    .cons (.fld GP.any fun _ _ h _ => ⟨h.image, h.normal_map, h.name, h.material, h.disable_lighting_top_old, h.physics_material, h.mesh_file_name, h.compressed_vertices_data, h.compressed_indices_data, h.animation, h.animation_data, h.light_map, h.reflection_probe, h.refraction_probe, h.shared⟩) <|
    .cons (.fld GP.any fun _ _ h _ => ⟨h.image, h.normal_map, h.name, h.material, h.disable_lighting_top_old, h.physics_material, h.mesh_file_name, h.compressed_vertices_data, h.compressed_indices_data, h.animation, h.animation_data, h.light_map, h.reflection_probe, h.refraction_probe, h.shared⟩) <|
    .cons (.fld string_gp fun _ _ h hv => ⟨h.image, h.normal_map, h.name, h.material, h.disable_lighting_top_old, h.physics_material, .some hv, h.compressed_vertices_data, h.compressed_indices_data, h.animation, h.animation_data, h.light_map, h.reflection_probe, h.refraction_probe, h.shared⟩) <|
    .cons (.fld GP.any fun _ _ h _ => ⟨h.image, h.normal_map, h.name, h.material, h.disable_lighting_top_old, h.physics_material, h.mesh_file_name, h.compressed_vertices_data, h.compressed_indices_data, h.animation, h.animation_data, h.light_map, h.reflection_probe, h.refraction_probe, h.shared⟩) <|
    .cons (.fld GP.any fun _ _ h _ => ⟨h.image, h.normal_map, h.name, h.material, h.disable_lighting_top_old, h.physics_material, h.mesh_file_name, h.compressed_vertices_data, h.compressed_indices_data, h.animation, h.animation_data, h.light_map, h.reflection_probe, h.refraction_probe, h.shared⟩) <|
    .cons (.fld data_gp fun _ _ h hv => ⟨h.image, h.normal_map, h.name, h.material, h.disable_lighting_top_old, h.physics_material, h.mesh_file_name, .some hv, h.compressed_indices_data, h.animation, h.animation_data, h.light_map, h.reflection_probe, h.refraction_probe, h.shared⟩) <|
    .cons (.fld GP.any fun _ _ h _ => ⟨h.image, h.normal_map, h.name, h.material, h.disable_lighting_top_old, h.physics_material, h.mesh_file_name, h.compressed_vertices_data, h.compressed_indices_data, h.animation, h.animation_data, h.light_map, h.reflection_probe, h.refraction_probe, h.shared⟩) <|
    .cons (.fld GP.any fun _ _ h _ => ⟨h.image, h.normal_map, h.name, h.material, h.disable_lighting_top_old, h.physics_material, h.mesh_file_name, h.compressed_vertices_data, h.compressed_indices_data, h.animation, h.animation_data, h.light_map, h.reflection_probe, h.refraction_probe, h.shared⟩) <|
    .cons (.fld data_gp fun _ _ h hv => ⟨h.image, h.normal_map, h.name, h.material, h.disable_lighting_top_old, h.physics_material, h.mesh_file_name, h.compressed_vertices_data, .some hv, h.animation, h.animation_data, h.light_map, h.reflection_probe, h.refraction_probe, h.shared⟩) <|
    .cons (.fld GP.any fun _ _ h _ => ⟨h.image, h.normal_map, h.name, h.material, h.disable_lighting_top_old, h.physics_material, h.mesh_file_name, h.compressed_vertices_data, h.compressed_indices_data, (push_ne _ _), h.animation_data, h.light_map, h.reflection_probe, h.refraction_probe, h.shared⟩) <|
    .cons (.fld data_gp fun _ _ h hv => ⟨h.image, h.normal_map, h.name, h.material, h.disable_lighting_top_old, h.physics_material, h.mesh_file_name, h.compressed_vertices_data, h.compressed_indices_data, h.animation, (push_data h.animation_data hv), h.light_map, h.reflection_probe, h.refraction_probe, h.shared⟩) <|
    .cons (.fld GP.any fun _ _ h _ => ⟨h.image, h.normal_map, h.name, h.material, h.disable_lighting_top_old, h.physics_material, h.mesh_file_name, h.compressed_vertices_data, h.compressed_indices_data, h.animation, h.animation_data, h.light_map, h.reflection_probe, h.refraction_probe, h.shared⟩) <|
    .cons (.fld GP.any fun _ _ h _ => ⟨h.image, h.normal_map, h.name, h.material, h.disable_lighting_top_old, h.physics_material, h.mesh_file_name, h.compressed_vertices_data, h.compressed_indices_data, h.animation, h.animation_data, h.light_map, h.reflection_probe, h.refraction_probe, h.shared⟩) <|
    .cons (.fld GP.any fun _ _ h _ => ⟨h.image, h.normal_map, h.name, h.material, h.disable_lighting_top_old, h.physics_material, h.mesh_file_name, h.compressed_vertices_data, h.compressed_indices_data, h.animation, h.animation_data, h.light_map, h.reflection_probe, h.refraction_probe, h.shared⟩) <|
    .cons (.fld GP.any fun _ _ h _ => ⟨h.image, h.normal_map, h.name, h.material, h.disable_lighting_top_old, h.physics_material, h.mesh_file_name, h.compressed_vertices_data, h.compressed_indices_data, h.animation, h.animation_data, h.light_map, h.reflection_probe, h.refraction_probe, h.shared⟩) <|
    .cons (.fld GP.any fun _ _ h _ => ⟨h.image, h.normal_map, h.name, h.material, h.disable_lighting_top_old, h.physics_material, h.mesh_file_name, h.compressed_vertices_data, h.compressed_indices_data, h.animation, h.animation_data, h.light_map, h.reflection_probe, h.refraction_probe, h.shared⟩) <|
    .cons (.fld string_gp fun _ _ h hv => ⟨h.image, h.normal_map, h.name, h.material, h.disable_lighting_top_old, h.physics_material, h.mesh_file_name, h.compressed_vertices_data, h.compressed_indices_data, h.animation, h.animation_data, .some hv, h.reflection_probe, h.refraction_probe, h.shared⟩) <|
    .cons (.fld string_gp fun _ _ h hv => ⟨h.image, h.normal_map, h.name, h.material, h.disable_lighting_top_old, h.physics_material, h.mesh_file_name, h.compressed_vertices_data, h.compressed_indices_data, h.animation, h.animation_data, h.light_map, .some hv, h.refraction_probe, h.shared⟩) <|
    .cons (.fld GP.any fun _ _ h _ => ⟨h.image, h.normal_map, h.name, h.material, h.disable_lighting_top_old, h.physics_material, h.mesh_file_name, h.compressed_vertices_data, h.compressed_indices_data, h.animation, h.animation_data, h.light_map, h.reflection_probe, h.refraction_probe, h.shared⟩) <|
    .cons (.fld string_gp fun _ _ h hv => ⟨h.image, h.normal_map, h.name, h.material, h.disable_lighting_top_old, h.physics_material, h.mesh_file_name, h.compressed_vertices_data, h.compressed_indices_data, h.animation, h.animation_data, h.light_map, h.reflection_probe, .some hv, h.shared⟩) <|
    .cons (.fld GP.any fun _ _ h _ => ⟨h.image, h.normal_map, h.name, h.material, h.disable_lighting_top_old, h.physics_material, h.mesh_file_name, h.compressed_vertices_data, h.compressed_indices_data, h.animation, h.animation_data, h.light_map, h.reflection_probe, h.refraction_probe, h.shared⟩) .nil)
    (sharedArms_inv (fun _ h => h.shared) fun _ _ h ha => ⟨h.image, h.normal_map, h.name, h.material, h.disable_lighting_top_old, h.physics_material, h.mesh_file_name, h.compressed_vertices_data, h.compressed_indices_data, h.animation, h.animation_data, h.light_map, h.reflection_probe, h.refraction_probe, ha⟩))

theorem Primitive.init_wf : Primitive.RInv Primitive.init where
  image := by decide
  normal_map := .none
  name := by decide
  material := by decide
  disable_lighting_top_old := .none
  physics_material := .none
  mesh_file_name := .none
  compressed_vertices_data := .none
  compressed_indices_data := .none
  animation := .none
  animation_data := .none
  light_map := .none
  reflection_probe := .none
  refraction_probe := .none
  shared := ⟨.none, .none⟩

theorem Primitive.arms_tame : ArmsTame Primitive.arms := by
  unfold Primitive.arms
  exact (.append (.cons (fun _ => vertex3d_tame.fld) <|
    .cons (fun _ => vertex3d_tame.fld) <|
    .cons (fun _ => f32_tame.fld) <|
    .cons (fun _ => f32_tame.fld) <|
    .cons (fun _ => f32_tame.fld) <|
    .cons (fun _ => f32_tame.fld) <|
    .cons (fun _ => f32_tame.fld) <|
    .cons (fun _ => f32_tame.fld) <|
    .cons (fun _ => f32_tame.fld) <|
    .cons (fun _ => f32_tame.fld) <|
    .cons (fun _ => f32_tame.fld) <|
    .cons (fun _ => string_tame.fld) <|
    .cons (fun _ => string_tame.fld) <|
    .cons (fun _ => u32_tame.fld) <|
    .cons (fun _ => wide_tame.fld) <|
    .cons (fun _ => string_tame.fld) <|
    .cons (fun _ => color_tame.fld) <|
    .cons (fun _ => bool_tame.fld) <|
    .cons (fun _ => bool_tame.fld) <|
    .cons (fun _ => bool_tame.fld) <|
    .cons (fun _ => f32_tame.fld) <|
    .cons (fun _ => f32_tame.fld) <|
    .cons (fun _ => f32_tame.fld) <|
    .cons (fun _ => f32_tame.fld) <|
    .cons (fun _ => f32_tame.fld) <|
    .cons (fun _ => f32_tame.fld) <|
    .cons (fun _ => f32_tame.fld) <|
    .cons (fun _ => bool_tame.fld) <|
    .cons (fun _ => bool_tame.fld) <|
    .cons (fun _ => bool_tame.fld) <|
    .cons (fun _ => bool_tame.fld) <|
    .cons (fun _ => quant8_tame.fld) <|
    .cons (fun _ => f32_tame.fld) <|
    .cons (fun _ => f32_tame.fld) <|
    .cons (fun _ => bool_tame.fld) <|
    .cons (fun _ => bool_tame.fld) <|
    .cons (fun _ => string_tame.fld) <|
    .cons (fun _ => bool_tame.fld) <|
    .cons (fun _ => bool_tame.fld) <|
    .cons (fun _ => bool_tame.fld) <|
    .cons (fun _ => vertex3du_tame.fld) <|
    .cons (fun _ => vertex3du_tame.fld) <|
    .cons (fun _ => string_tame.fld) <|
    .cons (fun _ => u32_tame.fld) <|
    .cons (fun _ => u32_tame.fld) <|
    .cons (fun _ => data_tame.fld) <|
    .cons (fun _ => u32_tame.fld) <|
    .cons (fun _ => u32_tame.fld) <|
    .cons (fun _ => data_tame.fld) <|
    .cons (fun _ => u32_tame.fld) <|
    .cons (fun _ => data_tame.fld) <|
    .cons (fun _ => f32_tame.fld) <|
    .cons (fun _ => bool_tame.fld) <|
    .cons (fun _ => bool_tame.fld) <|
    .cons (fun _ => f32_tame.fld) <|
    .cons (fun _ => color_tame.fld) <|
    .cons (fun _ => string_tame.fld) <|
    .cons (fun _ => string_tame.fld) <|
    .cons (fun _ => f32_tame.fld) <|
    .cons (fun _ => string_tame.fld) <|
    .cons (fun _ => f32_tame.fld) .nil) (sharedArms_tame _))

end Vpin
