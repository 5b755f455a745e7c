/-! Generated by tools/gen_flags.py from spec/*.xml, src/block.rs and src/class.rs: for each
flag word its flags with their masks. -/

namespace Dxf

def flagWords : List (String × List (String × Nat)) := [
  -- spec/EntitiesSpec.xml
  ("Face3D.edge_flags", [("is_first_edge_invisible", 1), ("is_second_edge_invisible", 2), ("is_third_edge_invisible", 4), ("is_fourth_edge_invisible", 8)]),
  -- spec/EntitiesSpec.xml
  ("AttributeDefinition.text_generation_flags", [("is_text_backwards", 2), ("is_text_upside_down", 4)]),
  -- spec/EntitiesSpec.xml
  ("AttributeDefinition.flags", [("is_invisible", 1), ("is_constant", 2), ("is_input_verification_required", 4), ("is_attribute_present", 8)]),
  -- spec/EntitiesSpec.xml
  ("Attribute.flags", [("is_invisible", 1), ("is_constant", 2), ("is_input_verification_required", 4), ("is_attribute_present", 8)]),
  -- spec/EntitiesSpec.xml
  ("Attribute.text_generation_flags", [("is_text_backwards", 2), ("is_text_upside_down", 4)]),
  -- spec/EntitiesSpec.xml
  ("Image.display_options_flags", [("show_image", 1), ("show_image_when_not_alligned", 2), ("use_clipping_boundary", 4), ("use_transparency", 8)]),
  -- spec/EntitiesSpec.xml
  ("LwPolyline.flags", [("is_closed", 1), ("is_pline_gen", 128)]),
  -- spec/EntitiesSpec.xml
  ("MLine.flags", [("has_at_least_one_vertex", 1), ("is_closed", 2), ("suppress_start_caps", 4), ("suppress_end_caps", 8)]),
  -- spec/EntitiesSpec.xml
  ("Polyline.flags", [("is_closed", 1), ("curve_fit_vertices_added", 2), ("spline_fit_vertices_added", 4), ("is_3d_polyline", 8), ("is_3d_polygon_mesh", 16), ("is_polygon_mesh_closed_in_n_direction", 32), ("is_polyface_mesh", 64), ("is_line_type_pattern_generated_continuously", 128)]),
  -- spec/EntitiesSpec.xml
  ("RText.type_flags", [("is_expression", 1), ("is_inline_mtext_sequences_enabled", 2)]),
  -- spec/EntitiesSpec.xml
  ("Spline.flags", [("is_closed", 1), ("is_periodic", 2), ("is_rational", 4), ("is_planar", 8), ("is_linear", 16)]),
  -- spec/EntitiesSpec.xml
  ("Text.text_generation_flags", [("is_text_backwards", 2), ("is_text_upside_down", 4)]),
  -- spec/EntitiesSpec.xml
  ("DgnUnderlay.flags", [("is_clipping_on", 1), ("is_underlay_on", 2), ("is_monochrome", 4), ("adjust_for_background", 8), ("is_clip_inside_mode", 16)]),
  -- spec/EntitiesSpec.xml
  ("DwfUnderlay.flags", [("is_clipping_on", 1), ("is_underlay_on", 2), ("is_monochrome", 4), ("adjust_for_background", 8), ("is_clip_inside_mode", 16)]),
  -- spec/EntitiesSpec.xml
  ("PdfUnderlay.flags", [("is_clipping_on", 1), ("is_underlay_on", 2), ("is_monochrome", 4), ("adjust_for_background", 8), ("is_clip_inside_mode", 16)]),
  -- spec/EntitiesSpec.xml
  ("Vertex.flags", [("is_extra_created_by_curve_fit", 1), ("is_curve_fit_tangent_defined", 2), ("is_spline_vertex_created_by_spline_fitting", 8), ("is_spline_frame_control_point", 16), ("is_3d_polyline_vertex", 32), ("is_3d_polygon_mesh", 64), ("is_polyface_mesh_vertex", 128)]),
  -- spec/EntitiesSpec.xml
  ("Wipeout.display_options_flags", [("show_image", 1), ("show_image_when_not_alligned", 2), ("use_clipping_boundary", 4), ("use_transparency", 8)]),
  -- spec/ObjectsSpec.xml
  ("DimensionAssoc.associativity_flags", [("is_first_point_reference", 1), ("is_second_point_reference", 2), ("is_third_point_reference", 4), ("is_fourth_point_reference", 8)]),
  -- spec/ObjectsSpec.xml
  ("Layout.layout_flags", [("is_ps_lt_scale", 1), ("is_lim_check", 2)]),
  -- spec/ObjectsSpec.xml
  ("MLineStyle.__flags", [("fill_on", 1), ("display_miters", 2), ("start_square_end_cap", 16), ("start_inner_arcs_cap", 32), ("start_round_cap", 64), ("end_square_cap", 256), ("end_inner_arcs_cap", 512), ("end_round_cap", 1024)]),
  -- spec/ObjectsSpec.xml
  ("PlotSettings.plot_layout_flags", [("plot_viewport_borders", 1), ("show_plot_styles", 2), ("plot_centered", 4), ("plot_hidden", 8), ("use_standard_scale", 16), ("plot_plot_styles", 32), ("scale_line_weights", 64), ("print_line_weights", 128), ("draw_viewports_first", 512), ("model_type", 1024), ("update_paper", 2048), ("zoom_to_paper_on_update", 4096), ("initializing", 8192), ("prev_plot_init", 16384)]),
  -- spec/HeaderVariablesSpec.xml
  ("Header.object_snap_flags", [("end_point_snap", 1), ("mid_point_snap", 2), ("center_snap", 4), ("node_snap", 8), ("quadrant_snap", 16), ("intersection_snap", 32), ("insertion_snap", 64), ("perpendicular_snap", 128), ("tangent_snap", 256), ("nearest_snap", 512), ("apparent_intersection_snap", 2048), ("extension_snap", 4096), ("parallel_snap", 8192)]),
  -- spec/HeaderVariablesSpec.xml
  ("Header.object_sorting_methods_flags", [("sort_objects_for_object_selection", 1), ("sort_objects_for_object_snap", 2), ("sort_objects_for_redraw", 4), ("sort_objects_for_mslide", 8), ("sort_objects_for_regen", 16), ("sort_objects_for_plotting", 32), ("sort_objects_for_post_script_output", 64)]),
  -- spec/HeaderVariablesSpec.xml
  ("Header.loft_flags", [("no_twist", 1), ("align_direction", 2), ("simplify", 4), ("close", 8)]),
  -- src/block.rs
  ("Block.flags", [("is_anonymous", 1), ("has_non_consistent_attribute_definitions", 2), ("is_xref", 4), ("is_xref_overlay", 8), ("is_externally_dependent", 16), ("is_referenced_external_reference", 32), ("is_resolved_external_reference", 64)]),
  -- src/class.rs
  ("Class.proxy_capability_flags", [("is_erase_allowed", 1), ("is_transform_allowed", 2), ("is_color_change_allowed", 4), ("is_layer_change_allowed", 8), ("is_line_type_change_allowed", 16), ("is_line_type_scale_change_allowed", 32), ("is_visibility_change_allowed", 64), ("is_clone_allowed", 128), ("is_lineweight_change_allowed", 256), ("is_plot_style_name_change_allowed", 512), ("is_R13_format_proxy", 32768)])
]

end Dxf
