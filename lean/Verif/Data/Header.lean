import Verif.Model.Header
import Verif.Data.Enums

/-! Generated from spec/HeaderVariablesSpec.xml by tools/gen_specs.py; do not edit. -/

set_option maxRecDepth 4000

namespace Dxf

/-- Fields of `Header`.  The defaults of the dates (the time of the call) and of the two
random UUIDs are placeholders; see `Header.Fresh`. -/
def Header.decls : List Decl := [
  /- 0 version -/ ⟨.version, (.r12 : Version)⟩,
  /- 1 maintenance_version -/ ⟨.i16, (0#16 : BitVec 16)⟩,
  /- 2 drawing_code_page -/ ⟨.str, (str!"ANSI_1252" : Str)⟩,
  /- 3 last_saved_by -/ ⟨.str, ([] : Str)⟩,
  /- 4 required_versions -/ ⟨.i64, (0#64 : BitVec 64)⟩,
  /- 5 insertion_base -/ ⟨.point, (⟨(⟨0x0000000000000000#64⟩ : F64), (⟨0x0000000000000000#64⟩ : F64), (⟨0x0000000000000000#64⟩ : F64)⟩ : Point)⟩,
  /- 6 minimum_drawing_extents -/ ⟨.point, (⟨(⟨0x0000000000000000#64⟩ : F64), (⟨0x0000000000000000#64⟩ : F64), (⟨0x0000000000000000#64⟩ : F64)⟩ : Point)⟩,
  /- 7 maximum_drawing_extents -/ ⟨.point, (⟨(⟨0x0000000000000000#64⟩ : F64), (⟨0x0000000000000000#64⟩ : F64), (⟨0x0000000000000000#64⟩ : F64)⟩ : Point)⟩,
  /- 8 minimum_drawing_limits -/ ⟨.point, (⟨(⟨0x0000000000000000#64⟩ : F64), (⟨0x0000000000000000#64⟩ : F64), (⟨0x0000000000000000#64⟩ : F64)⟩ : Point)⟩,
  /- 9 maximum_drawing_limits -/ ⟨.point, (⟨(⟨0x4028000000000000#64⟩ : F64), (⟨0x4022000000000000#64⟩ : F64), (⟨0x0000000000000000#64⟩ : F64)⟩ : Point)⟩,
  /- 10 draw_orthogonal_lines -/ ⟨.bool, (false : Bool)⟩,
  /- 11 use_regen_mode -/ ⟨.bool, (true : Bool)⟩,
  /- 12 fill_mode_on -/ ⟨.bool, (true : Bool)⟩,
  /- 13 use_quick_text_mode -/ ⟨.bool, (false : Bool)⟩,
  /- 14 mirror_text -/ ⟨.bool, (false : Bool)⟩,
  /- 15 drag_mode -/ ⟨.enum E.dragMode, (⟨2, by decide⟩ : Fin (List.length E.dragMode))⟩,
  /- 16 line_type_scale -/ ⟨.f64, (⟨0x3ff0000000000000#64⟩ : F64)⟩,
  /- 17 object_snap_flags -/ ⟨.i32, (37#32 : BitVec 32)⟩,
  /- 18 attribute_visibility -/ ⟨.enum E.attributeVisibility, (⟨1, by decide⟩ : Fin (List.length E.attributeVisibility))⟩,
  /- 19 default_text_height -/ ⟨.f64, (⟨0x3fc999999999999a#64⟩ : F64)⟩,
  /- 20 trace_width -/ ⟨.f64, (⟨0x3fa999999999999a#64⟩ : F64)⟩,
  /- 21 text_style -/ ⟨.str, (str!"STANDARD" : Str)⟩,
  /- 22 current_layer -/ ⟨.str, (str!"0" : Str)⟩,
  /- 23 current_entity_line_type -/ ⟨.str, (str!"BYLAYER" : Str)⟩,
  /- 24 current_entity_color -/ ⟨.i16, (256#16 : I16)⟩,
  /- 25 current_entity_line_type_scale -/ ⟨.f64, (⟨0x3ff0000000000000#64⟩ : F64)⟩,
  /- 26 retain_deleted_objects -/ ⟨.bool, (true : Bool)⟩,
  /- 27 display_silhouette_curves_in_wireframe_mode -/ ⟨.bool, (false : Bool)⟩,
  /- 28 solid_visual_style_pointer -/ ⟨.handle, (0#64 : Handle)⟩,
  /- 29 dimensioning_scale_factor -/ ⟨.f64, (⟨0x3ff0000000000000#64⟩ : F64)⟩,
  /- 30 dimensioning_arrow_size -/ ⟨.f64, (⟨0x3fc70a3d70a3d70a#64⟩ : F64)⟩,
  /- 31 dimension_extension_line_offset -/ ⟨.f64, (⟨0x3fb0000000000000#64⟩ : F64)⟩,
  /- 32 dimension_line_increment -/ ⟨.f64, (⟨0x3fd851eb851eb852#64⟩ : F64)⟩,
  /- 33 dimension_distance_rounding_value -/ ⟨.f64, (⟨0x0000000000000000#64⟩ : F64)⟩,
  /- 34 dimension_line_extension -/ ⟨.f64, (⟨0x0000000000000000#64⟩ : F64)⟩,
  /- 35 dimension_extension_line_extension -/ ⟨.f64, (⟨0x3fc70a3d70a3d70a#64⟩ : F64)⟩,
  /- 36 dimension_plus_tolerance -/ ⟨.f64, (⟨0x0000000000000000#64⟩ : F64)⟩,
  /- 37 dimension_minus_tolerance -/ ⟨.f64, (⟨0x0000000000000000#64⟩ : F64)⟩,
  /- 38 dimensioning_text_height -/ ⟨.f64, (⟨0x3fc70a3d70a3d70a#64⟩ : F64)⟩,
  /- 39 center_mark_size -/ ⟨.f64, (⟨0x3fb70a3d70a3d70a#64⟩ : F64)⟩,
  /- 40 dimensioning_tick_size -/ ⟨.f64, (⟨0x0000000000000000#64⟩ : F64)⟩,
  /- 41 generate_dimension_tolerances -/ ⟨.bool, (false : Bool)⟩,
  /- 42 generate_dimension_limits -/ ⟨.bool, (false : Bool)⟩,
  /- 43 dimension_text_inside_horizontal -/ ⟨.bool, (true : Bool)⟩,
  /- 44 dimension_text_outside_horizontal -/ ⟨.bool, (true : Bool)⟩,
  /- 45 suppress_first_dimension_extension_line -/ ⟨.bool, (false : Bool)⟩,
  /- 46 suppress_second_dimension_extension_line -/ ⟨.bool, (false : Bool)⟩,
  /- 47 text_above_dimension_line -/ ⟨.bool, (false : Bool)⟩,
  /- 48 dimension_unit_zero_suppression -/ ⟨.enum E.unitZeroSuppression, (⟨0, by decide⟩ : Fin (List.length E.unitZeroSuppression))⟩,
  /- 49 arrow_block_name -/ ⟨.str, ([] : Str)⟩,
  /- 50 create_associative_dimensioning -/ ⟨.bool, (true : Bool)⟩,
  /- 51 recompute_dimensions_while_dragging -/ ⟨.bool, (true : Bool)⟩,
  /- 52 dimensioning_suffix -/ ⟨.str, ([] : Str)⟩,
  /- 53 alternate_dimensioning_suffix -/ ⟨.str, ([] : Str)⟩,
  /- 54 use_alternate_dimensioning -/ ⟨.bool, (false : Bool)⟩,
  /- 55 alternate_dimensioning_decimal_places -/ ⟨.i16, (2#16 : BitVec 16)⟩,
  /- 56 alternate_dimensioning_scale_factor -/ ⟨.f64, (⟨0x4039666666666666#64⟩ : F64)⟩,
  /- 57 dimension_linear_measurements_scale_factor -/ ⟨.f64, (⟨0x3ff0000000000000#64⟩ : F64)⟩,
  /- 58 force_dimension_line_extensions_outside_if_text_is -/ ⟨.bool, (false : Bool)⟩,
  /- 59 dimension_vertical_text_position -/ ⟨.f64, (⟨0x0000000000000000#64⟩ : F64)⟩,
  /- 60 force_dimension_text_inside_extensions -/ ⟨.bool, (false : Bool)⟩,
  /- 61 suppress_outside_extension_dimension_lines -/ ⟨.bool, (false : Bool)⟩,
  /- 62 use_separate_arrow_blocks_for_dimensions -/ ⟨.bool, (false : Bool)⟩,
  /- 63 first_arrow_block_name -/ ⟨.str, ([] : Str)⟩,
  /- 64 second_arrow_block_name -/ ⟨.str, ([] : Str)⟩,
  /- 65 dimension_style_name -/ ⟨.str, (str!"STANDARD" : Str)⟩,
  /- 66 dimension_line_color -/ ⟨.i16, (0#16 : I16)⟩,
  /- 67 dimension_extension_line_color -/ ⟨.i16, (0#16 : I16)⟩,
  /- 68 dimension_text_color -/ ⟨.i16, (0#16 : I16)⟩,
  /- 69 dimension_tolerance_display_scale_factor -/ ⟨.f64, (⟨0x3ff0000000000000#64⟩ : F64)⟩,
  /- 70 dimension_line_gap -/ ⟨.f64, (⟨0x3fb70a3d70a3d70a#64⟩ : F64)⟩,
  /- 71 dimension_text_justification -/ ⟨.enum E.dimensionTextJustification, (⟨0, by decide⟩ : Fin (List.length E.dimensionTextJustification))⟩,
  /- 72 dimension_tolerance_vertical_justification -/ ⟨.enum E.justification, (⟨1, by decide⟩ : Fin (List.length E.justification))⟩,
  /- 73 dimension_tolerance_zero_suppression -/ ⟨.enum E.unitZeroSuppression, (⟨0, by decide⟩ : Fin (List.length E.unitZeroSuppression))⟩,
  /- 74 alternate_dimensioning_zero_supression -/ ⟨.enum E.unitZeroSuppression, (⟨0, by decide⟩ : Fin (List.length E.unitZeroSuppression))⟩,
  /- 75 alternate_dimensioning_tolerance_zero_supression -/ ⟨.enum E.unitZeroSuppression, (⟨0, by decide⟩ : Fin (List.length E.unitZeroSuppression))⟩,
  /- 76 dimension_text_and_arrow_placement -/ ⟨.enum E.dimensionFit, (⟨0, by decide⟩ : Fin (List.length E.dimensionFit))⟩,
  /- 77 dimension_cursor_controls_text_position -/ ⟨.bool, (false : Bool)⟩,
  /- 78 dimension_unit_format -/ ⟨.enum E.unitFormat, (⟨1, by decide⟩ : Fin (List.length E.unitFormat))⟩,
  /- 79 dimension_unit_tolerance_decimal_places -/ ⟨.i16, (4#16 : BitVec 16)⟩,
  /- 80 dimension_tolerance_decimal_places -/ ⟨.i16, (4#16 : BitVec 16)⟩,
  /- 81 alternate_dimensioning_units -/ ⟨.enum E.unitFormat, (⟨1, by decide⟩ : Fin (List.length E.unitFormat))⟩,
  /- 82 alternate_dimensioning_tolerance_decimal_places -/ ⟨.i16, (2#16 : BitVec 16)⟩,
  /- 83 dimension_text_style -/ ⟨.str, (str!"STANDARD" : Str)⟩,
  /- 84 dimensioning_angle_format -/ ⟨.enum E.angleFormat, (⟨0, by decide⟩ : Fin (List.length E.angleFormat))⟩,
  /- 85 angular_dimension_precision -/ ⟨.i16, (0#16 : BitVec 16)⟩,
  /- 86 alternate_dimensioning_unit_rounding -/ ⟨.f64, (⟨0x0000000000000000#64⟩ : F64)⟩,
  /- 87 dimension_angle_zero_suppression -/ ⟨.enum E.unitZeroSuppression, (⟨0, by decide⟩ : Fin (List.length E.unitZeroSuppression))⟩,
  /- 88 dimension_decimal_separator_char -/ ⟨.chr, ('.' : Char)⟩,
  /- 89 dimension_text_height_scale_factor -/ ⟨.enum E.dimensionFractionFormat, (⟨0, by decide⟩ : Fin (List.length E.dimensionFractionFormat))⟩,
  /- 90 dimension_leader_block_name -/ ⟨.str, ([] : Str)⟩,
  /- 91 dimension_non_angular_units -/ ⟨.enum E.nonAngularUnits, (⟨1, by decide⟩ : Fin (List.length E.nonAngularUnits))⟩,
  /- 92 dimension_line_weight -/ ⟨.i16, (BitVec.ofInt 16 (-2) : I16)⟩,
  /- 93 dimension_extension_line_weight -/ ⟨.i16, (BitVec.ofInt 16 (-2) : I16)⟩,
  /- 94 dimension_text_movement_rule -/ ⟨.enum E.dimensionTextMovementRule, (⟨0, by decide⟩ : Fin (List.length E.dimensionTextMovementRule))⟩,
  /- 95 dimension_line_fixed_length -/ ⟨.f64, (⟨0x3ff0000000000000#64⟩ : F64)⟩,
  /- 96 dimension_line_fixed_length_on -/ ⟨.bool, (false : Bool)⟩,
  /- 97 dimension_transverse_segment_angle_in_jogged_radius -/ ⟨.f64, (⟨0x3fe921fb54442d18#64⟩ : F64)⟩,
  /- 98 dimension_text_background_color_mode -/ ⟨.enum E.dimensionTextBackgroundColorMode, (⟨0, by decide⟩ : Fin (List.length E.dimensionTextBackgroundColorMode))⟩,
  /- 99 dxf_dimension_text_background_custom_color -/ ⟨.i16, (0#16 : I16)⟩,
  /- 100 dimension_arc_symbol_display_mode -/ ⟨.enum E.dimensionArcSymbolDisplayMode, (⟨0, by decide⟩ : Fin (List.length E.dimensionArcSymbolDisplayMode))⟩,
  /- 101 dimension_line_type -/ ⟨.str, (str!"BYLAYER" : Str)⟩,
  /- 102 dimension_first_extension_line_type -/ ⟨.str, ([] : Str)⟩,
  /- 103 dimension_second_extension_line_type -/ ⟨.str, ([] : Str)⟩,
  /- 104 dimension_text_direction -/ ⟨.enum E.textDirection, (⟨0, by decide⟩ : Fin (List.length E.textDirection))⟩,
  /- 105 unit_format -/ ⟨.enum E.unitFormat, (⟨1, by decide⟩ : Fin (List.length E.unitFormat))⟩,
  /- 106 unit_precision -/ ⟨.i16, (4#16 : BitVec 16)⟩,
  /- 107 sketch_record_increment -/ ⟨.f64, (⟨0x3fb999999999999a#64⟩ : F64)⟩,
  /- 108 fillet_radius -/ ⟨.f64, (⟨0x0000000000000000#64⟩ : F64)⟩,
  /- 109 angle_unit_format -/ ⟨.enum E.angleFormat, (⟨0, by decide⟩ : Fin (List.length E.angleFormat))⟩,
  /- 110 angle_unit_precision -/ ⟨.i16, (0#16 : BitVec 16)⟩,
  /- 111 file_name -/ ⟨.str, (str!"." : Str)⟩,
  /- 112 elevation -/ ⟨.f64, (⟨0x0000000000000000#64⟩ : F64)⟩,
  /- 113 paperspace_elevation -/ ⟨.f64, (⟨0x0000000000000000#64⟩ : F64)⟩,
  /- 114 thickness -/ ⟨.f64, (⟨0x0000000000000000#64⟩ : F64)⟩,
  /- 115 use_limits_checking -/ ⟨.bool, (false : Bool)⟩,
  /- 116 blip_mode -/ ⟨.bool, (false : Bool)⟩,
  /- 117 first_chamfer_distance -/ ⟨.f64, (⟨0x0000000000000000#64⟩ : F64)⟩,
  /- 118 second_chamfer_distance -/ ⟨.f64, (⟨0x0000000000000000#64⟩ : F64)⟩,
  /- 119 chamfer_length -/ ⟨.f64, (⟨0x0000000000000000#64⟩ : F64)⟩,
  /- 120 chamfer_angle -/ ⟨.f64, (⟨0x0000000000000000#64⟩ : F64)⟩,
  /- 121 polyline_sketch_mode -/ ⟨.enum E.polySketchMode, (⟨0, by decide⟩ : Fin (List.length E.polySketchMode))⟩,
  /- 122 creation_date -/ ⟨.date, (0 : Date)⟩,
  /- 123 creation_date_universal -/ ⟨.date, (0 : Date)⟩,
  /- 124 update_date -/ ⟨.date, (0 : Date)⟩,
  /- 125 update_date_universal -/ ⟨.date, (0 : Date)⟩,
  /- 126 time_in_drawing -/ ⟨.dur, (⟨0#64, 0⟩ : Dur)⟩,
  /- 127 user_elapsed_timer -/ ⟨.dur, (⟨0#64, 0⟩ : Dur)⟩,
  /- 128 user_timer_on -/ ⟨.bool, (true : Bool)⟩,
  /- 129 angle_zero_direction -/ ⟨.f64, (⟨0x0000000000000000#64⟩ : F64)⟩,
  /- 130 angle_direction -/ ⟨.enum E.angleDirection, (⟨0, by decide⟩ : Fin (List.length E.angleDirection))⟩,
  /- 131 point_display_mode -/ ⟨.i32, (0#32 : BitVec 32)⟩,
  /- 132 point_display_size -/ ⟨.f64, (⟨0x0000000000000000#64⟩ : F64)⟩,
  /- 133 default_polyline_width -/ ⟨.f64, (⟨0x0000000000000000#64⟩ : F64)⟩,
  /- 134 coordinate_display -/ ⟨.enum E.coordinateDisplay, (⟨1, by decide⟩ : Fin (List.length E.coordinateDisplay))⟩,
  /- 135 display_spline_polygon_control -/ ⟨.bool, (false : Bool)⟩,
  /- 136 pedit_spline_curve_type -/ ⟨.enum E.polylineCurvedAndSmoothSurfaceType, (⟨2, by decide⟩ : Fin (List.length E.polylineCurvedAndSmoothSurfaceType))⟩,
  /- 137 line_segments_per_spline_patch -/ ⟨.i16, (8#16 : BitVec 16)⟩,
  /- 138 show_attribute_entry_dialogs -/ ⟨.bool, (true : Bool)⟩,
  /- 139 prompt_for_attribute_on_insert -/ ⟨.bool, (true : Bool)⟩,
  /- 140 handles_enabled -/ ⟨.bool, (true : Bool)⟩,
  /- 141 next_available_handle -/ ⟨.handle, (1#64 : Handle)⟩,
  /- 142 mesh_tabulations_in_first_direction -/ ⟨.i16, (6#16 : BitVec 16)⟩,
  /- 143 mesh_tabulations_in_second_direction -/ ⟨.i16, (6#16 : BitVec 16)⟩,
  /- 144 pedit_smooth_surface_type -/ ⟨.enum E.polylineCurvedAndSmoothSurfaceType, (⟨2, by decide⟩ : Fin (List.length E.polylineCurvedAndSmoothSurfaceType))⟩,
  /- 145 pedit_smooth_m_densith -/ ⟨.i16, (6#16 : BitVec 16)⟩,
  /- 146 pedit_smooth_n_densith -/ ⟨.i16, (6#16 : BitVec 16)⟩,
  /- 147 ucs_definition_name -/ ⟨.str, ([] : Str)⟩,
  /- 148 ucs_name -/ ⟨.str, ([] : Str)⟩,
  /- 149 ucs_origin -/ ⟨.point, (⟨(⟨0x0000000000000000#64⟩ : F64), (⟨0x0000000000000000#64⟩ : F64), (⟨0x0000000000000000#64⟩ : F64)⟩ : Point)⟩,
  /- 150 ucs_x_axis -/ ⟨.point, (⟨(⟨0x3ff0000000000000#64⟩ : F64), (⟨0x0000000000000000#64⟩ : F64), (⟨0x0000000000000000#64⟩ : F64)⟩ : Point)⟩,
  /- 151 ucs_y_axis -/ ⟨.point, (⟨(⟨0x0000000000000000#64⟩ : F64), (⟨0x3ff0000000000000#64⟩ : F64), (⟨0x0000000000000000#64⟩ : F64)⟩ : Point)⟩,
  /- 152 ortho_ucs_reference -/ ⟨.str, ([] : Str)⟩,
  /- 153 orthgraphic_view_type -/ ⟨.enum E.orthographicViewType, (⟨0, by decide⟩ : Fin (List.length E.orthographicViewType))⟩,
  /- 154 ucs_origin_top -/ ⟨.point, (⟨(⟨0x0000000000000000#64⟩ : F64), (⟨0x0000000000000000#64⟩ : F64), (⟨0x0000000000000000#64⟩ : F64)⟩ : Point)⟩,
  /- 155 ucs_origin_bottom -/ ⟨.point, (⟨(⟨0x0000000000000000#64⟩ : F64), (⟨0x0000000000000000#64⟩ : F64), (⟨0x0000000000000000#64⟩ : F64)⟩ : Point)⟩,
  /- 156 ucs_origin_left -/ ⟨.point, (⟨(⟨0x0000000000000000#64⟩ : F64), (⟨0x0000000000000000#64⟩ : F64), (⟨0x0000000000000000#64⟩ : F64)⟩ : Point)⟩,
  /- 157 ucs_origin_right -/ ⟨.point, (⟨(⟨0x0000000000000000#64⟩ : F64), (⟨0x0000000000000000#64⟩ : F64), (⟨0x0000000000000000#64⟩ : F64)⟩ : Point)⟩,
  /- 158 ucs_origin_front -/ ⟨.point, (⟨(⟨0x0000000000000000#64⟩ : F64), (⟨0x0000000000000000#64⟩ : F64), (⟨0x0000000000000000#64⟩ : F64)⟩ : Point)⟩,
  /- 159 ucs_origin_back -/ ⟨.point, (⟨(⟨0x0000000000000000#64⟩ : F64), (⟨0x0000000000000000#64⟩ : F64), (⟨0x0000000000000000#64⟩ : F64)⟩ : Point)⟩,
  /- 160 paperspace_ucs_definition_name -/ ⟨.str, ([] : Str)⟩,
  /- 161 paperspace_ucs_name -/ ⟨.str, ([] : Str)⟩,
  /- 162 paperspace_ucs_origin -/ ⟨.point, (⟨(⟨0x0000000000000000#64⟩ : F64), (⟨0x0000000000000000#64⟩ : F64), (⟨0x0000000000000000#64⟩ : F64)⟩ : Point)⟩,
  /- 163 paperspace_x_axis -/ ⟨.point, (⟨(⟨0x3ff0000000000000#64⟩ : F64), (⟨0x0000000000000000#64⟩ : F64), (⟨0x0000000000000000#64⟩ : F64)⟩ : Point)⟩,
  /- 164 paperspace_y_axis -/ ⟨.point, (⟨(⟨0x0000000000000000#64⟩ : F64), (⟨0x3ff0000000000000#64⟩ : F64), (⟨0x0000000000000000#64⟩ : F64)⟩ : Point)⟩,
  /- 165 paperspace_ortho_ucs_reference -/ ⟨.str, ([] : Str)⟩,
  /- 166 paperspace_orthographic_view_type -/ ⟨.enum E.orthographicViewType, (⟨0, by decide⟩ : Fin (List.length E.orthographicViewType))⟩,
  /- 167 paperspace_ucs_origin_top -/ ⟨.point, (⟨(⟨0x0000000000000000#64⟩ : F64), (⟨0x0000000000000000#64⟩ : F64), (⟨0x0000000000000000#64⟩ : F64)⟩ : Point)⟩,
  /- 168 paperspace_ucs_origin_bottom -/ ⟨.point, (⟨(⟨0x0000000000000000#64⟩ : F64), (⟨0x0000000000000000#64⟩ : F64), (⟨0x0000000000000000#64⟩ : F64)⟩ : Point)⟩,
  /- 169 paperspace_ucs_origin_left -/ ⟨.point, (⟨(⟨0x0000000000000000#64⟩ : F64), (⟨0x0000000000000000#64⟩ : F64), (⟨0x0000000000000000#64⟩ : F64)⟩ : Point)⟩,
  /- 170 paperspace_ucs_origin_right -/ ⟨.point, (⟨(⟨0x0000000000000000#64⟩ : F64), (⟨0x0000000000000000#64⟩ : F64), (⟨0x0000000000000000#64⟩ : F64)⟩ : Point)⟩,
  /- 171 paperspace_ucs_origin_front -/ ⟨.point, (⟨(⟨0x0000000000000000#64⟩ : F64), (⟨0x0000000000000000#64⟩ : F64), (⟨0x0000000000000000#64⟩ : F64)⟩ : Point)⟩,
  /- 172 paperspace_ucs_origin_back -/ ⟨.point, (⟨(⟨0x0000000000000000#64⟩ : F64), (⟨0x0000000000000000#64⟩ : F64), (⟨0x0000000000000000#64⟩ : F64)⟩ : Point)⟩,
  /- 173 user_int1 -/ ⟨.i16, (0#16 : BitVec 16)⟩,
  /- 174 user_int2 -/ ⟨.i16, (0#16 : BitVec 16)⟩,
  /- 175 user_int3 -/ ⟨.i16, (0#16 : BitVec 16)⟩,
  /- 176 user_int4 -/ ⟨.i16, (0#16 : BitVec 16)⟩,
  /- 177 user_int5 -/ ⟨.i16, (0#16 : BitVec 16)⟩,
  /- 178 user_real1 -/ ⟨.f64, (⟨0x0000000000000000#64⟩ : F64)⟩,
  /- 179 user_real2 -/ ⟨.f64, (⟨0x0000000000000000#64⟩ : F64)⟩,
  /- 180 user_real3 -/ ⟨.f64, (⟨0x0000000000000000#64⟩ : F64)⟩,
  /- 181 user_real4 -/ ⟨.f64, (⟨0x0000000000000000#64⟩ : F64)⟩,
  /- 182 user_real5 -/ ⟨.f64, (⟨0x0000000000000000#64⟩ : F64)⟩,
  /- 183 set_ucs_to_wcs_in_d_view_or_v_point -/ ⟨.bool, (true : Bool)⟩,
  /- 184 edge_shading -/ ⟨.enum E.shadeEdgeMode, (⟨3, by decide⟩ : Fin (List.length E.shadeEdgeMode))⟩,
  /- 185 percent_ambient_to_diffuse -/ ⟨.i16, (70#16 : BitVec 16)⟩,
  /- 186 previous_release_tile_compatability -/ ⟨.bool, (true : Bool)⟩,
  /- 187 maximum_active_viewports -/ ⟨.i16, (64#16 : BitVec 16)⟩,
  /- 188 paperspace_insertion_base -/ ⟨.point, (⟨(⟨0x0000000000000000#64⟩ : F64), (⟨0x0000000000000000#64⟩ : F64), (⟨0x0000000000000000#64⟩ : F64)⟩ : Point)⟩,
  /- 189 limit_checking_in_paperspace -/ ⟨.bool, (false : Bool)⟩,
  /- 190 paperspace_minimum_drawing_extents -/ ⟨.point, (⟨(⟨0x4415af1d78b58c40#64⟩ : F64), (⟨0x4415af1d78b58c40#64⟩ : F64), (⟨0x4415af1d78b58c40#64⟩ : F64)⟩ : Point)⟩,
  /- 191 paperspace_maximum_drawing_extents -/ ⟨.point, (⟨(⟨0xc415af1d78b58c40#64⟩ : F64), (⟨0xc415af1d78b58c40#64⟩ : F64), (⟨0xc415af1d78b58c40#64⟩ : F64)⟩ : Point)⟩,
  /- 192 paperspace_minimum_drawing_limits -/ ⟨.point, (⟨(⟨0x0000000000000000#64⟩ : F64), (⟨0x0000000000000000#64⟩ : F64), (⟨0x0000000000000000#64⟩ : F64)⟩ : Point)⟩,
  /- 193 paperspace_maximum_drawing_limits -/ ⟨.point, (⟨(⟨0x4028000000000000#64⟩ : F64), (⟨0x4022000000000000#64⟩ : F64), (⟨0x0000000000000000#64⟩ : F64)⟩ : Point)⟩,
  /- 194 display_fractions_in_input -/ ⟨.bool, (false : Bool)⟩,
  /- 195 retain_x_ref_dependent_visibility_settings -/ ⟨.bool, (true : Bool)⟩,
  /- 196 is_polyline_continuous_around_verticies -/ ⟨.bool, (false : Bool)⟩,
  /- 197 scale_line_types_in_paperspace -/ ⟨.bool, (true : Bool)⟩,
  /- 198 spacial_index_max_depth -/ ⟨.i16, (3020#16 : BitVec 16)⟩,
  /- 199 pick_style -/ ⟨.enum E.pickStyle, (⟨1, by decide⟩ : Fin (List.length E.pickStyle))⟩,
  /- 200 current_multiline_style -/ ⟨.str, (str!"STANDARD" : Str)⟩,
  /- 201 current_multiline_justification -/ ⟨.enum E.justification, (⟨0, by decide⟩ : Fin (List.length E.justification))⟩,
  /- 202 current_multiline_scale -/ ⟨.f64, (⟨0x3ff0000000000000#64⟩ : F64)⟩,
  /- 203 save_proxy_graphics -/ ⟨.bool, (true : Bool)⟩,
  /- 204 drawing_units -/ ⟨.enum E.drawingUnits, (⟨0, by decide⟩ : Fin (List.length E.drawingUnits))⟩,
  /- 205 new_object_line_weight -/ ⟨.i16, (BitVec.ofInt 16 (-1) : I16)⟩,
  /- 206 end_cap_setting -/ ⟨.enum E.endCapSetting, (⟨0, by decide⟩ : Fin (List.length E.endCapSetting))⟩,
  /- 207 lineweight_joint_setting -/ ⟨.enum E.joinStyle, (⟨0, by decide⟩ : Fin (List.length E.joinStyle))⟩,
  /- 208 display_linewieght_in_model_and_layout_tab -/ ⟨.bool, (false : Bool)⟩,
  /- 209 default_drawing_units -/ ⟨.enum E.units, (⟨0, by decide⟩ : Fin (List.length E.units))⟩,
  /- 210 hyperlink_base -/ ⟨.str, ([] : Str)⟩,
  /- 211 stylesheet -/ ⟨.str, ([] : Str)⟩,
  /- 212 can_use_in_place_reference_editing -/ ⟨.bool, (true : Bool)⟩,
  /- 213 new_object_plot_style_handle -/ ⟨.handle, (0#64 : Handle)⟩,
  /- 214 new_object_plot_style -/ ⟨.enum E.plotStyle, (⟨0, by decide⟩ : Fin (List.length E.plotStyle))⟩,
  /- 215 uses_color_dependent_plot_style_tables -/ ⟨.bool, (true : Bool)⟩,
  /- 216 fingerprint_guid -/ ⟨.uuid, (0#128 : Uuid)⟩,
  /- 217 version_guid -/ ⟨.uuid, (0#128 : Uuid)⟩,
  /- 218 use_acad2000_symbol_table_naming -/ ⟨.bool, (true : Bool)⟩,
  /- 219 viewport_view_scale_factor -/ ⟨.f64, (⟨0x0000000000000000#64⟩ : F64)⟩,
  /- 220 ole_startup -/ ⟨.bool, (false : Bool)⟩,
  /- 221 object_sorting_methods_flags -/ ⟨.i32, (127#32 : BitVec 32)⟩,
  /- 222 layer_and_spatial_index_save_mode -/ ⟨.enum E.layerAndSpatialIndexSaveMode, (⟨0, by decide⟩ : Fin (List.length E.layerAndSpatialIndexSaveMode))⟩,
  /- 223 hide_text_objects_when_producint_hidden_view -/ ⟨.bool, (false : Bool)⟩,
  /- 224 is_x_ref_clipping_boundary_visible -/ ⟨.enum E.xrefClippingBoundaryVisibility, (⟨2, by decide⟩ : Fin (List.length E.xrefClippingBoundaryVisibility))⟩,
  /- 225 halo_gap_percent -/ ⟨.f64, (⟨0x0000000000000000#64⟩ : F64)⟩,
  /- 226 obscured_line_color -/ ⟨.i16, (257#16 : I16)⟩,
  /- 227 obscured_line_type_style -/ ⟨.enum E.lineTypeStyle, (⟨0, by decide⟩ : Fin (List.length E.lineTypeStyle))⟩,
  /- 228 display_intersection_polylines -/ ⟨.bool, (false : Bool)⟩,
  /- 229 intersection_polyline_color -/ ⟨.i16, (257#16 : I16)⟩,
  /- 230 dimension_object_associativity -/ ⟨.enum E.dimensionAssociativity, (⟨1, by decide⟩ : Fin (List.length E.dimensionAssociativity))⟩,
  /- 231 project_name -/ ⟨.str, ([] : Str)⟩,
  /- 232 use_camera_display -/ ⟨.bool, (false : Bool)⟩,
  /- 233 lens_length -/ ⟨.f64, (⟨0x4049000000000000#64⟩ : F64)⟩,
  /- 234 camera_height -/ ⟨.f64, (⟨0x0000000000000000#64⟩ : F64)⟩,
  /- 235 steps_per_second_in_walk_or_fly_mode -/ ⟨.f64, (⟨0x4000000000000000#64⟩ : F64)⟩,
  /- 236 step_size_in_walk_or_fly_mode -/ ⟨.f64, (⟨0x4018000000000000#64⟩ : F64)⟩,
  /- 237 dwf_3d_precision -/ ⟨.enum E.dwf3DPrecision, (⟨1, by decide⟩ : Fin (List.length E.dwf3DPrecision))⟩,
  /- 238 last_poly_solid_width -/ ⟨.f64, (⟨0x3fd0000000000000#64⟩ : F64)⟩,
  /- 239 last_poly_solid_height -/ ⟨.f64, (⟨0x4010000000000000#64⟩ : F64)⟩,
  /- 240 loft_operation_first_draft_angle -/ ⟨.f64, (⟨0x3ff921fb54442d18#64⟩ : F64)⟩,
  /- 241 loft_operation_second_draft_angle -/ ⟨.f64, (⟨0x3ff921fb54442d18#64⟩ : F64)⟩,
  /- 242 loft_operation_first_magnitude -/ ⟨.f64, (⟨0x0000000000000000#64⟩ : F64)⟩,
  /- 243 loft_operation_second_magnitude -/ ⟨.f64, (⟨0x0000000000000000#64⟩ : F64)⟩,
  /- 244 loft_flags -/ ⟨.i32, (7#32 : BitVec 32)⟩,
  /- 245 lofted_object_normal_mode -/ ⟨.enum E.loftedObjectNormalMode, (⟨1, by decide⟩ : Fin (List.length E.loftedObjectNormalMode))⟩,
  /- 246 latitude -/ ⟨.f64, (⟨0x4042e5c28f5c28f6#64⟩ : F64)⟩,
  /- 247 longitude -/ ⟨.f64, (⟨0xc05e99374bc6a7f0#64⟩ : F64)⟩,
  /- 248 angle_between_y_axis_and_north -/ ⟨.f64, (⟨0x0000000000000000#64⟩ : F64)⟩,
  /- 249 time_zone -/ ⟨.enum E.drawingTimeZone, (⟨4, by decide⟩ : Fin (List.length E.drawingTimeZone))⟩,
  /- 250 use_light_glyph_display -/ ⟨.bool, (true : Bool)⟩,
  /- 251 use_tile_mode_light_sync -/ ⟨.bool, (true : Bool)⟩,
  /- 252 current_material_handle -/ ⟨.handle, (0#64 : Handle)⟩,
  /- 253 new_solids_contain_history -/ ⟨.bool, (false : Bool)⟩,
  /- 254 solid_history_mode -/ ⟨.enum E.solidHistoryMode, (⟨1, by decide⟩ : Fin (List.length E.solidHistoryMode))⟩,
  /- 255 dwf_underlay_frame_mode -/ ⟨.enum E.underlayFrameMode, (⟨2, by decide⟩ : Fin (List.length E.underlayFrameMode))⟩,
  /- 256 dgn_underlay_frame_mode -/ ⟨.enum E.underlayFrameMode, (⟨0, by decide⟩ : Fin (List.length E.underlayFrameMode))⟩,
  /- 257 use_real_world_scale -/ ⟨.bool, (true : Bool)⟩,
  /- 258 interference_object_color -/ ⟨.i16, (1#16 : I16)⟩,
  /- 259 interference_object_visual_style_pointer -/ ⟨.handle, (0#64 : Handle)⟩,
  /- 260 interference_view_port_visual_style_pointer -/ ⟨.handle, (0#64 : Handle)⟩,
  /- 261 shadow_mode -/ ⟨.enum E.shadowMode, (⟨0, by decide⟩ : Fin (List.length E.shadowMode))⟩,
  /- 262 shadow_plane_z_offset -/ ⟨.f64, (⟨0x0000000000000000#64⟩ : F64)⟩,
  /- 263 axis_on -/ ⟨.bool, (false : Bool)⟩,
  /- 264 axis_tick_spacing -/ ⟨.point, (⟨(⟨0x0000000000000000#64⟩ : F64), (⟨0x0000000000000000#64⟩ : F64), (⟨0x0000000000000000#64⟩ : F64)⟩ : Point)⟩,
  /- 265 fast_zoom -/ ⟨.bool, (true : Bool)⟩,
  /- 266 grid_on -/ ⟨.bool, (false : Bool)⟩,
  /- 267 grid_spacing -/ ⟨.point, (⟨(⟨0x3ff0000000000000#64⟩ : F64), (⟨0x3ff0000000000000#64⟩ : F64), (⟨0x0000000000000000#64⟩ : F64)⟩ : Point)⟩,
  /- 268 snap_rotation_angle -/ ⟨.f64, (⟨0x0000000000000000#64⟩ : F64)⟩,
  /- 269 snap_base_point -/ ⟨.point, (⟨(⟨0x0000000000000000#64⟩ : F64), (⟨0x0000000000000000#64⟩ : F64), (⟨0x0000000000000000#64⟩ : F64)⟩ : Point)⟩,
  /- 270 snap_isometric_plane -/ ⟨.enum E.snapIsometricPlane, (⟨0, by decide⟩ : Fin (List.length E.snapIsometricPlane))⟩,
  /- 271 snap_on -/ ⟨.bool, (false : Bool)⟩,
  /- 272 snap_style -/ ⟨.enum E.snapStyle, (⟨0, by decide⟩ : Fin (List.length E.snapStyle))⟩,
  /- 273 snap_spacing -/ ⟨.point, (⟨(⟨0x3ff0000000000000#64⟩ : F64), (⟨0x3ff0000000000000#64⟩ : F64), (⟨0x0000000000000000#64⟩ : F64)⟩ : Point)⟩,
  /- 274 view_center -/ ⟨.point, (⟨(⟨0x0000000000000000#64⟩ : F64), (⟨0x0000000000000000#64⟩ : F64), (⟨0x0000000000000000#64⟩ : F64)⟩ : Point)⟩,
  /- 275 view_direction -/ ⟨.point, (⟨(⟨0x0000000000000000#64⟩ : F64), (⟨0x0000000000000000#64⟩ : F64), (⟨0x3ff0000000000000#64⟩ : F64)⟩ : Point)⟩,
  /- 276 view_height -/ ⟨.f64, (⟨0x3ff0000000000000#64⟩ : F64)⟩]

/-- The fields whose default value depends on the time of the call or on chance. -/
def Header.nondet : List Nat := [122, 123, 124, 125, 216, 217]

/-- The arms of `set_header_value`. -/
def Header.vars : List (HVar Header.decls) := [
  ⟨str!"$ACADVER", true, [⟨1, .on 0 (.set .version)⟩]⟩,
  ⟨str!"$ACADMAINTVER", false, [⟨70, .on 1 (.set .i16)⟩, ⟨90, .on 1 (.set .i16OfI32)⟩]⟩,
  ⟨str!"$DWGCODEPAGE", true, [⟨3, .on 2 (.set .str)⟩]⟩,
  ⟨str!"$LASTSAVEDBY", true, [⟨1, .on 3 (.set .str)⟩]⟩,
  ⟨str!"$REQUIREDVERSIONS", true, [⟨160, .on 4 (.set .i64)⟩]⟩,
  ⟨str!"$INSBASE", false, [⟨10, .on 5 (.axis .x)⟩, ⟨20, .on 5 (.axis .y)⟩, ⟨30, .on 5 (.axis .z)⟩]⟩,
  ⟨str!"$EXTMIN", false, [⟨10, .on 6 (.axis .x)⟩, ⟨20, .on 6 (.axis .y)⟩, ⟨30, .on 6 (.axis .z)⟩]⟩,
  ⟨str!"$EXTMAX", false, [⟨10, .on 7 (.axis .x)⟩, ⟨20, .on 7 (.axis .y)⟩, ⟨30, .on 7 (.axis .z)⟩]⟩,
  ⟨str!"$LIMMIN", false, [⟨10, .on 8 (.axis .x)⟩, ⟨20, .on 8 (.axis .y)⟩, ⟨30, .on 8 (.axis .z)⟩]⟩,
  ⟨str!"$LIMMAX", false, [⟨10, .on 9 (.axis .x)⟩, ⟨20, .on 9 (.axis .y)⟩, ⟨30, .on 9 (.axis .z)⟩]⟩,
  ⟨str!"$ORTHOMODE", true, [⟨70, .on 10 (.set .asBool)⟩]⟩,
  ⟨str!"$REGENMODE", true, [⟨70, .on 11 (.set .asBool)⟩]⟩,
  ⟨str!"$FILLMODE", true, [⟨70, .on 12 (.set .asBool)⟩]⟩,
  ⟨str!"$QTEXTMODE", true, [⟨70, .on 13 (.set .asBool)⟩]⟩,
  ⟨str!"$MIRRTEXT", true, [⟨70, .on 14 (.set .asBool)⟩]⟩,
  ⟨str!"$DRAGMODE", true, [⟨70, .on 15 (.set (.enumI16 E.dragMode ⟨2, by decide⟩))⟩]⟩,
  ⟨str!"$LTSCALE", true, [⟨40, .on 16 (.set .f64)⟩]⟩,
  ⟨str!"$OSMODE", true, [⟨70, .on 17 (.set .i32OfI16)⟩]⟩,
  ⟨str!"$ATTMODE", true, [⟨70, .on 18 (.set (.enumI16 E.attributeVisibility ⟨1, by decide⟩))⟩]⟩,
  ⟨str!"$TEXTSIZE", true, [⟨40, .on 19 (.set .f64)⟩]⟩,
  ⟨str!"$TRACEWID", true, [⟨40, .on 20 (.set .f64)⟩]⟩,
  ⟨str!"$TEXTSTYLE", true, [⟨7, .on 21 (.set .str)⟩]⟩,
  ⟨str!"$CLAYER", true, [⟨8, .on 22 (.set .str)⟩]⟩,
  ⟨str!"$CELTYPE", true, [⟨6, .on 23 (.set .str)⟩]⟩,
  ⟨str!"$CECOLOR", true, [⟨62, .on 24 (.set .i16)⟩]⟩,
  ⟨str!"$CELTSCALE", true, [⟨40, .on 25 (.set .f64)⟩]⟩,
  ⟨str!"$DELOBJ", true, [⟨70, .on 26 (.set .asBool)⟩]⟩,
  ⟨str!"$DISPSILH", true, [⟨70, .on 27 (.set .asBool)⟩]⟩,
  ⟨str!"$DRAGVS", true, [⟨349, .on 28 (.set .handle)⟩]⟩,
  ⟨str!"$DIMSCALE", true, [⟨40, .on 29 (.set .f64)⟩]⟩,
  ⟨str!"$DIMASZ", true, [⟨40, .on 30 (.set .f64)⟩]⟩,
  ⟨str!"$DIMEXO", true, [⟨40, .on 31 (.set .f64)⟩]⟩,
  ⟨str!"$DIMDLI", true, [⟨40, .on 32 (.set .f64)⟩]⟩,
  ⟨str!"$DIMRND", true, [⟨40, .on 33 (.set .f64)⟩]⟩,
  ⟨str!"$DIMDLE", true, [⟨40, .on 34 (.set .f64)⟩]⟩,
  ⟨str!"$DIMEXE", true, [⟨40, .on 35 (.set .f64)⟩]⟩,
  ⟨str!"$DIMTP", true, [⟨40, .on 36 (.set .f64)⟩]⟩,
  ⟨str!"$DIMTM", true, [⟨40, .on 37 (.set .f64)⟩]⟩,
  ⟨str!"$DIMTXT", true, [⟨40, .on 38 (.set .f64)⟩]⟩,
  ⟨str!"$DIMCEN", true, [⟨40, .on 39 (.set .f64)⟩]⟩,
  ⟨str!"$DIMTSZ", true, [⟨40, .on 40 (.set .f64)⟩]⟩,
  ⟨str!"$DIMTOL", true, [⟨70, .on 41 (.set .asBool)⟩]⟩,
  ⟨str!"$DIMLIM", true, [⟨70, .on 42 (.set .asBool)⟩]⟩,
  ⟨str!"$DIMTIH", true, [⟨70, .on 43 (.set .asBool)⟩]⟩,
  ⟨str!"$DIMTOH", true, [⟨70, .on 44 (.set .asBool)⟩]⟩,
  ⟨str!"$DIMSE1", true, [⟨70, .on 45 (.set .asBool)⟩]⟩,
  ⟨str!"$DIMSE2", true, [⟨70, .on 46 (.set .asBool)⟩]⟩,
  ⟨str!"$DIMTAD", true, [⟨70, .on 47 (.set .asBool)⟩]⟩,
  ⟨str!"$DIMZIN", true, [⟨70, .on 48 (.set (.enumI16 E.unitZeroSuppression ⟨0, by decide⟩))⟩]⟩,
  ⟨str!"$DIMBLK", true, [⟨1, .on 49 (.set .str)⟩]⟩,
  ⟨str!"$DIMASO", true, [⟨70, .on 50 (.set .asBool)⟩]⟩,
  ⟨str!"$DIMSHO", true, [⟨70, .on 51 (.set .asBool)⟩]⟩,
  ⟨str!"$DIMPOST", true, [⟨1, .on 52 (.set .str)⟩]⟩,
  ⟨str!"$DIMAPOST", true, [⟨1, .on 53 (.set .str)⟩]⟩,
  ⟨str!"$DIMALT", true, [⟨70, .on 54 (.set .asBool)⟩]⟩,
  ⟨str!"$DIMALTD", true, [⟨70, .on 55 (.set .i16)⟩]⟩,
  ⟨str!"$DIMALTF", true, [⟨40, .on 56 (.set .f64)⟩]⟩,
  ⟨str!"$DIMLFAC", true, [⟨40, .on 57 (.set .f64)⟩]⟩,
  ⟨str!"$DIMTOFL", true, [⟨70, .on 58 (.set .asBool)⟩]⟩,
  ⟨str!"$DIMTVP", true, [⟨40, .on 59 (.set .f64)⟩]⟩,
  ⟨str!"$DIMTIX", true, [⟨70, .on 60 (.set .asBool)⟩]⟩,
  ⟨str!"$DIMSOXD", true, [⟨70, .on 61 (.set .asBool)⟩]⟩,
  ⟨str!"$DIMSAH", true, [⟨70, .on 62 (.set .asBool)⟩]⟩,
  ⟨str!"$DIMBLK1", true, [⟨1, .on 63 (.set .str)⟩]⟩,
  ⟨str!"$DIMBLK2", true, [⟨1, .on 64 (.set .str)⟩]⟩,
  ⟨str!"$DIMSTYLE", true, [⟨2, .on 65 (.set .str)⟩]⟩,
  ⟨str!"$DIMCLRD", true, [⟨70, .on 66 (.set .i16)⟩]⟩,
  ⟨str!"$DIMCLRE", true, [⟨70, .on 67 (.set .i16)⟩]⟩,
  ⟨str!"$DIMCLRT", true, [⟨70, .on 68 (.set .i16)⟩]⟩,
  ⟨str!"$DIMTFAC", true, [⟨40, .on 69 (.set .f64)⟩]⟩,
  ⟨str!"$DIMGAP", true, [⟨40, .on 70 (.set .f64)⟩]⟩,
  ⟨str!"$DIMJUST", true, [⟨70, .on 71 (.set (.enumI16 E.dimensionTextJustification ⟨0, by decide⟩))⟩]⟩,
  ⟨str!"$DIMTOLJ", true, [⟨70, .on 72 (.set (.enumI16 E.justification ⟨1, by decide⟩))⟩]⟩,
  ⟨str!"$DIMTZIN", true, [⟨70, .on 73 (.set (.enumI16 E.unitZeroSuppression ⟨0, by decide⟩))⟩]⟩,
  ⟨str!"$DIMALTZ", true, [⟨70, .on 74 (.set (.enumI16 E.unitZeroSuppression ⟨0, by decide⟩))⟩]⟩,
  ⟨str!"$DIMALTTZ", true, [⟨70, .on 75 (.set (.enumI16 E.unitZeroSuppression ⟨0, by decide⟩))⟩]⟩,
  ⟨str!"$DIMFIT", true, [⟨70, .on 76 (.set (.enumI16 E.dimensionFit ⟨0, by decide⟩))⟩]⟩,
  ⟨str!"$DIMUPT", true, [⟨70, .on 77 (.set .asBool)⟩]⟩,
  ⟨str!"$DIMUNIT", true, [⟨70, .on 78 (.set (.enumI16 E.unitFormat ⟨1, by decide⟩))⟩]⟩,
  ⟨str!"$DIMDEC", true, [⟨70, .on 79 (.set .i16)⟩]⟩,
  ⟨str!"$DIMTDEC", true, [⟨70, .on 80 (.set .i16)⟩]⟩,
  ⟨str!"$DIMALTU", true, [⟨70, .on 81 (.set (.enumI16 E.unitFormat ⟨1, by decide⟩))⟩]⟩,
  ⟨str!"$DIMALTTD", true, [⟨70, .on 82 (.set .i16)⟩]⟩,
  ⟨str!"$DIMTXSTY", true, [⟨7, .on 83 (.set .str)⟩]⟩,
  ⟨str!"$DIMAUNIT", true, [⟨70, .on 84 (.set (.enumI16 E.angleFormat ⟨0, by decide⟩))⟩]⟩,
  ⟨str!"$DIMADEC", true, [⟨70, .on 85 (.set .i16)⟩]⟩,
  ⟨str!"$DIMALTRND", true, [⟨40, .on 86 (.set .f64)⟩]⟩,
  ⟨str!"$DIMAZIN", true, [⟨70, .on 87 (.set (.enumI16 E.unitZeroSuppression ⟨0, by decide⟩))⟩]⟩,
  ⟨str!"$DIMDSEP", true, [⟨70, .on 88 (.set .chr)⟩]⟩,
  ⟨str!"$DIMFRAC", true, [⟨70, .on 89 (.set (.enumI16 E.dimensionFractionFormat ⟨0, by decide⟩))⟩]⟩,
  ⟨str!"$DIMLDRBLK", true, [⟨1, .on 90 (.set .str)⟩]⟩,
  ⟨str!"$DIMLUNIT", true, [⟨70, .on 91 (.set (.enumI16 E.nonAngularUnits ⟨1, by decide⟩))⟩]⟩,
  ⟨str!"$DIMLWD", true, [⟨70, .on 92 (.set .i16)⟩]⟩,
  ⟨str!"$DIMLWE", true, [⟨70, .on 93 (.set .i16)⟩]⟩,
  ⟨str!"$DIMTMOVE", true, [⟨70, .on 94 (.set (.enumI16 E.dimensionTextMovementRule ⟨0, by decide⟩))⟩]⟩,
  ⟨str!"$DIMFXL", true, [⟨40, .on 95 (.set .f64)⟩]⟩,
  ⟨str!"$DIMFXLON", true, [⟨70, .on 96 (.set .asBool)⟩]⟩,
  ⟨str!"$DIMJOGANG", true, [⟨40, .on 97 (.set .f64)⟩]⟩,
  ⟨str!"$DIMTFILL", true, [⟨70, .on 98 (.set (.enumI16 E.dimensionTextBackgroundColorMode ⟨0, by decide⟩))⟩]⟩,
  ⟨str!"$DIMTFILLCLR", true, [⟨70, .on 99 (.set .i16)⟩]⟩,
  ⟨str!"$DIMARCSYM", true, [⟨70, .on 100 (.set (.enumI16 E.dimensionArcSymbolDisplayMode ⟨0, by decide⟩))⟩]⟩,
  ⟨str!"$DIMLTYPE", true, [⟨6, .on 101 (.set .str)⟩]⟩,
  ⟨str!"$DIMLTEX1", true, [⟨6, .on 102 (.set .str)⟩]⟩,
  ⟨str!"$DIMLTEX2", true, [⟨6, .on 103 (.set .str)⟩]⟩,
  ⟨str!"$DIMTXTDIRECTION", true, [⟨70, .on 104 (.set (.enumI16 E.textDirection ⟨0, by decide⟩))⟩]⟩,
  ⟨str!"$LUNITS", true, [⟨70, .on 105 (.set (.enumI16 E.unitFormat ⟨1, by decide⟩))⟩]⟩,
  ⟨str!"$LUPREC", true, [⟨70, .on 106 (.set .i16)⟩]⟩,
  ⟨str!"$SKETCHINC", true, [⟨40, .on 107 (.set .f64)⟩]⟩,
  ⟨str!"$FILLETRAD", true, [⟨40, .on 108 (.set .f64)⟩]⟩,
  ⟨str!"$AUNITS", true, [⟨70, .on 109 (.set (.enumI16 E.angleFormat ⟨0, by decide⟩))⟩]⟩,
  ⟨str!"$AUPREC", true, [⟨70, .on 110 (.set .i16)⟩]⟩,
  ⟨str!"$MENU", true, [⟨1, .on 111 (.set .str)⟩]⟩,
  ⟨str!"$ELEVATION", true, [⟨40, .on 112 (.set .f64)⟩]⟩,
  ⟨str!"$PELEVATION", true, [⟨40, .on 113 (.set .f64)⟩]⟩,
  ⟨str!"$THICKNESS", true, [⟨40, .on 114 (.set .f64)⟩]⟩,
  ⟨str!"$LIMCHECK", true, [⟨70, .on 115 (.set .asBool)⟩]⟩,
  ⟨str!"$BLIPMODE", true, [⟨70, .on 116 (.set .asBool)⟩]⟩,
  ⟨str!"$CHAMFERA", true, [⟨40, .on 117 (.set .f64)⟩]⟩,
  ⟨str!"$CHAMFERB", true, [⟨40, .on 118 (.set .f64)⟩]⟩,
  ⟨str!"$CHAMFERC", true, [⟨40, .on 119 (.set .f64)⟩]⟩,
  ⟨str!"$CHAMFERD", true, [⟨40, .on 120 (.set .f64)⟩]⟩,
  ⟨str!"$SKPOLY", true, [⟨70, .on 121 (.set (.enumI16 E.polySketchMode ⟨0, by decide⟩))⟩]⟩,
  ⟨str!"$TDCREATE", true, [⟨40, .on 122 (.set .date)⟩]⟩,
  ⟨str!"$TDUCREATE", true, [⟨40, .on 123 (.set .date)⟩]⟩,
  ⟨str!"$TDUPDATE", true, [⟨40, .on 124 (.set .date)⟩]⟩,
  ⟨str!"$TDUUPDATE", true, [⟨40, .on 125 (.set .date)⟩]⟩,
  ⟨str!"$TDINDWG", true, [⟨40, .on 126 (.set .dur)⟩]⟩,
  ⟨str!"$TDUSRTIMER", true, [⟨40, .on 127 (.set .dur)⟩]⟩,
  ⟨str!"$USRTIMER", true, [⟨70, .on 128 (.set .asBool)⟩]⟩,
  ⟨str!"$ANGBASE", true, [⟨50, .on 129 (.set .f64)⟩]⟩,
  ⟨str!"$ANGDIR", true, [⟨70, .on 130 (.set (.enumI16 E.angleDirection ⟨0, by decide⟩))⟩]⟩,
  ⟨str!"$PDMODE", true, [⟨70, .on 131 (.set .i32OfI16)⟩]⟩,
  ⟨str!"$PDSIZE", true, [⟨40, .on 132 (.set .f64)⟩]⟩,
  ⟨str!"$PLINEWID", true, [⟨40, .on 133 (.set .f64)⟩]⟩,
  ⟨str!"$COORDS", true, [⟨70, .on 134 (.set (.enumI16 E.coordinateDisplay ⟨1, by decide⟩))⟩]⟩,
  ⟨str!"$SPLFRAME", true, [⟨70, .on 135 (.set .asBool)⟩]⟩,
  ⟨str!"$SPLINETYPE", true, [⟨70, .on 136 (.set (.enumI16 E.polylineCurvedAndSmoothSurfaceType ⟨2, by decide⟩))⟩]⟩,
  ⟨str!"$SPLINESEGS", true, [⟨70, .on 137 (.set .i16)⟩]⟩,
  ⟨str!"$ATTDIA", true, [⟨70, .on 138 (.set .asBool)⟩]⟩,
  ⟨str!"$ATTREQ", true, [⟨70, .on 139 (.set .asBool)⟩]⟩,
  ⟨str!"$HANDLING", true, [⟨70, .on 140 (.set .asBool)⟩]⟩,
  ⟨str!"$HANDSEED", true, [⟨5, .on 141 (.set .handle)⟩]⟩,
  ⟨str!"$SURFTAB1", true, [⟨70, .on 142 (.set .i16)⟩]⟩,
  ⟨str!"$SURFTAB2", true, [⟨70, .on 143 (.set .i16)⟩]⟩,
  ⟨str!"$SURFTYPE", true, [⟨70, .on 144 (.set (.enumI16 E.polylineCurvedAndSmoothSurfaceType ⟨2, by decide⟩))⟩]⟩,
  ⟨str!"$SURFU", true, [⟨70, .on 145 (.set .i16)⟩]⟩,
  ⟨str!"$SURFV", true, [⟨70, .on 146 (.set .i16)⟩]⟩,
  ⟨str!"$UCSBASE", true, [⟨2, .on 147 (.set .str)⟩]⟩,
  ⟨str!"$UCSNAME", true, [⟨2, .on 148 (.set .str)⟩]⟩,
  ⟨str!"$UCSORG", false, [⟨10, .on 149 (.axis .x)⟩, ⟨20, .on 149 (.axis .y)⟩, ⟨30, .on 149 (.axis .z)⟩]⟩,
  ⟨str!"$UCSXDIR", false, [⟨10, .on 150 (.axis .x)⟩, ⟨20, .on 150 (.axis .y)⟩, ⟨30, .on 150 (.axis .z)⟩]⟩,
  ⟨str!"$UCSYDIR", false, [⟨10, .on 151 (.axis .x)⟩, ⟨20, .on 151 (.axis .y)⟩, ⟨30, .on 151 (.axis .z)⟩]⟩,
  ⟨str!"$UCSORTHOREF", true, [⟨2, .on 152 (.set .str)⟩]⟩,
  ⟨str!"$UCSORTHOVIEW", true, [⟨70, .on 153 (.set (.enumI16 E.orthographicViewType ⟨0, by decide⟩))⟩]⟩,
  ⟨str!"$UCSORGTOP", false, [⟨10, .on 154 (.axis .x)⟩, ⟨20, .on 154 (.axis .y)⟩, ⟨30, .on 154 (.axis .z)⟩]⟩,
  ⟨str!"$UCSORGBOTTOM", false, [⟨10, .on 155 (.axis .x)⟩, ⟨20, .on 155 (.axis .y)⟩, ⟨30, .on 155 (.axis .z)⟩]⟩,
  ⟨str!"$UCSORGLEFT", false, [⟨10, .on 156 (.axis .x)⟩, ⟨20, .on 156 (.axis .y)⟩, ⟨30, .on 156 (.axis .z)⟩]⟩,
  ⟨str!"$UCSORGRIGHT", false, [⟨10, .on 157 (.axis .x)⟩, ⟨20, .on 157 (.axis .y)⟩, ⟨30, .on 157 (.axis .z)⟩]⟩,
  ⟨str!"$UCSORGFRONT", false, [⟨10, .on 158 (.axis .x)⟩, ⟨20, .on 158 (.axis .y)⟩, ⟨30, .on 158 (.axis .z)⟩]⟩,
  ⟨str!"$UCSORGBACK", false, [⟨10, .on 159 (.axis .x)⟩, ⟨20, .on 159 (.axis .y)⟩, ⟨30, .on 159 (.axis .z)⟩]⟩,
  ⟨str!"$PUCSBASE", true, [⟨2, .on 160 (.set .str)⟩]⟩,
  ⟨str!"$PUCSNAME", true, [⟨2, .on 161 (.set .str)⟩]⟩,
  ⟨str!"$PUCSORG", false, [⟨10, .on 162 (.axis .x)⟩, ⟨20, .on 162 (.axis .y)⟩, ⟨30, .on 162 (.axis .z)⟩]⟩,
  ⟨str!"$PUCSXDIR", false, [⟨10, .on 163 (.axis .x)⟩, ⟨20, .on 163 (.axis .y)⟩, ⟨30, .on 163 (.axis .z)⟩]⟩,
  ⟨str!"$PUCSYDIR", false, [⟨10, .on 164 (.axis .x)⟩, ⟨20, .on 164 (.axis .y)⟩, ⟨30, .on 164 (.axis .z)⟩]⟩,
  ⟨str!"$PUCSORTHOREF", true, [⟨2, .on 165 (.set .str)⟩]⟩,
  ⟨str!"$PUCSORTHOVIEW", true, [⟨70, .on 166 (.set (.enumI16 E.orthographicViewType ⟨0, by decide⟩))⟩]⟩,
  ⟨str!"$PUCSORGTOP", false, [⟨10, .on 167 (.axis .x)⟩, ⟨20, .on 167 (.axis .y)⟩, ⟨30, .on 167 (.axis .z)⟩]⟩,
  ⟨str!"$PUCSORGBOTTOM", false, [⟨10, .on 168 (.axis .x)⟩, ⟨20, .on 168 (.axis .y)⟩, ⟨30, .on 168 (.axis .z)⟩]⟩,
  ⟨str!"$PUCSORGLEFT", false, [⟨10, .on 169 (.axis .x)⟩, ⟨20, .on 169 (.axis .y)⟩, ⟨30, .on 169 (.axis .z)⟩]⟩,
  ⟨str!"$PUCSORGRIGHT", false, [⟨10, .on 170 (.axis .x)⟩, ⟨20, .on 170 (.axis .y)⟩, ⟨30, .on 170 (.axis .z)⟩]⟩,
  ⟨str!"$PUCSORGFRONT", false, [⟨10, .on 171 (.axis .x)⟩, ⟨20, .on 171 (.axis .y)⟩, ⟨30, .on 171 (.axis .z)⟩]⟩,
  ⟨str!"$PUCSORGBACK", false, [⟨10, .on 172 (.axis .x)⟩, ⟨20, .on 172 (.axis .y)⟩, ⟨30, .on 172 (.axis .z)⟩]⟩,
  ⟨str!"$USERI1", true, [⟨70, .on 173 (.set .i16)⟩]⟩,
  ⟨str!"$USERI2", true, [⟨70, .on 174 (.set .i16)⟩]⟩,
  ⟨str!"$USERI3", true, [⟨70, .on 175 (.set .i16)⟩]⟩,
  ⟨str!"$USERI4", true, [⟨70, .on 176 (.set .i16)⟩]⟩,
  ⟨str!"$USERI5", true, [⟨70, .on 177 (.set .i16)⟩]⟩,
  ⟨str!"$USERR1", true, [⟨40, .on 178 (.set .f64)⟩]⟩,
  ⟨str!"$USERR2", true, [⟨40, .on 179 (.set .f64)⟩]⟩,
  ⟨str!"$USERR3", true, [⟨40, .on 180 (.set .f64)⟩]⟩,
  ⟨str!"$USERR4", true, [⟨40, .on 181 (.set .f64)⟩]⟩,
  ⟨str!"$USERR5", true, [⟨40, .on 182 (.set .f64)⟩]⟩,
  ⟨str!"$WORLDVIEW", true, [⟨70, .on 183 (.set .asBool)⟩]⟩,
  ⟨str!"$SHADEDGE", true, [⟨70, .on 184 (.set (.enumI16 E.shadeEdgeMode ⟨3, by decide⟩))⟩]⟩,
  ⟨str!"$SHADEDIF", true, [⟨70, .on 185 (.set .i16)⟩]⟩,
  ⟨str!"$TILEMODE", true, [⟨70, .on 186 (.set .asBool)⟩]⟩,
  ⟨str!"$MAXACTVP", true, [⟨70, .on 187 (.set .i16)⟩]⟩,
  ⟨str!"$PINSBASE", false, [⟨10, .on 188 (.axis .x)⟩, ⟨20, .on 188 (.axis .y)⟩, ⟨30, .on 188 (.axis .z)⟩]⟩,
  ⟨str!"$PLIMCHECK", true, [⟨70, .on 189 (.set .asBool)⟩]⟩,
  ⟨str!"$PEXTMIN", false, [⟨10, .on 190 (.axis .x)⟩, ⟨20, .on 190 (.axis .y)⟩, ⟨30, .on 190 (.axis .z)⟩]⟩,
  ⟨str!"$PEXTMAX", false, [⟨10, .on 191 (.axis .x)⟩, ⟨20, .on 191 (.axis .y)⟩, ⟨30, .on 191 (.axis .z)⟩]⟩,
  ⟨str!"$PLIMMIN", false, [⟨10, .on 192 (.axis .x)⟩, ⟨20, .on 192 (.axis .y)⟩, ⟨30, .on 192 (.axis .z)⟩]⟩,
  ⟨str!"$PLIMMAX", false, [⟨10, .on 193 (.axis .x)⟩, ⟨20, .on 193 (.axis .y)⟩, ⟨30, .on 193 (.axis .z)⟩]⟩,
  ⟨str!"$UNITMODE", true, [⟨70, .on 194 (.set .asBool)⟩]⟩,
  ⟨str!"$VISRETAIN", true, [⟨70, .on 195 (.set .asBool)⟩]⟩,
  ⟨str!"$PLINEGEN", true, [⟨70, .on 196 (.set .asBool)⟩]⟩,
  ⟨str!"$PSLTSCALE", true, [⟨70, .on 197 (.set .asBool)⟩]⟩,
  ⟨str!"$TREEDEPTH", true, [⟨70, .on 198 (.set .i16)⟩]⟩,
  ⟨str!"$PICKSTYLE", true, [⟨70, .on 199 (.set (.enumI16 E.pickStyle ⟨1, by decide⟩))⟩]⟩,
  ⟨str!"$CMLSTYLE", false, [⟨7, .on 200 (.set .str)⟩, ⟨2, .on 200 (.set .str)⟩]⟩,
  ⟨str!"$CMLJUST", true, [⟨70, .on 201 (.set (.enumI16 E.justification ⟨0, by decide⟩))⟩]⟩,
  ⟨str!"$CMLSCALE", true, [⟨40, .on 202 (.set .f64)⟩]⟩,
  ⟨str!"$PROXYGRAPHICS", true, [⟨70, .on 203 (.set .asBool)⟩]⟩,
  ⟨str!"$MEASUREMENT", true, [⟨70, .on 204 (.set (.enumI16 E.drawingUnits ⟨0, by decide⟩))⟩]⟩,
  ⟨str!"$CELWEIGHT", true, [⟨370, .on 205 (.set .i16)⟩]⟩,
  ⟨str!"$ENDCAPS", true, [⟨280, .on 206 (.set (.enumI16 E.endCapSetting ⟨0, by decide⟩))⟩]⟩,
  ⟨str!"$JOINSTYLE", true, [⟨280, .on 207 (.set (.enumI16 E.joinStyle ⟨0, by decide⟩))⟩]⟩,
  ⟨str!"$LWDISPLAY", true, [⟨290, .on 208 (.set .bool)⟩]⟩,
  ⟨str!"$INSUNITS", true, [⟨70, .on 209 (.set (.enumI16 E.units ⟨0, by decide⟩))⟩]⟩,
  ⟨str!"$HYPERLINKBASE", true, [⟨1, .on 210 (.set .str)⟩]⟩,
  ⟨str!"$STYLESHEET", true, [⟨1, .on 211 (.set .str)⟩]⟩,
  ⟨str!"$XEDIT", true, [⟨290, .on 212 (.set .bool)⟩]⟩,
  ⟨str!"$CEPSNID", true, [⟨390, .on 213 (.set .handle)⟩]⟩,
  ⟨str!"$CEPSNTYPE", true, [⟨380, .on 214 (.set (.enumI16 E.plotStyle ⟨0, by decide⟩))⟩]⟩,
  ⟨str!"$PSTYLEMODE", true, [⟨290, .on 215 (.set .bool)⟩]⟩,
  ⟨str!"$FINGERPRINTGUID", true, [⟨2, .on 216 (.set .uuid)⟩]⟩,
  ⟨str!"$VERSIONGUID", true, [⟨2, .on 217 (.set .uuid)⟩]⟩,
  ⟨str!"$EXTNAMES", true, [⟨290, .on 218 (.set .bool)⟩]⟩,
  ⟨str!"$PSVPSCALE", true, [⟨40, .on 219 (.set .f64)⟩]⟩,
  ⟨str!"$OLESTARTUP", true, [⟨290, .on 220 (.set .bool)⟩]⟩,
  ⟨str!"$SORTENTS", true, [⟨280, .on 221 (.set .i32OfI16)⟩]⟩,
  ⟨str!"$INDEXCTL", true, [⟨280, .on 222 (.set (.enumI16 E.layerAndSpatialIndexSaveMode ⟨0, by decide⟩))⟩]⟩,
  ⟨str!"$HIDETEXT", false, [⟨280, .on 223 (.set .asBool)⟩, ⟨290, .on 223 (.set .bool)⟩]⟩,
  ⟨str!"$XCLIPFRAME", false, [⟨290, .on 224 (.set (.enumBool E.xrefClippingBoundaryVisibility ⟨0, by decide⟩))⟩, ⟨280, .on 224 (.set (.enumI16 E.xrefClippingBoundaryVisibility ⟨2, by decide⟩))⟩]⟩,
  ⟨str!"$HALOGAP", true, [⟨280, .on 225 (.set .f64OfI16)⟩]⟩,
  ⟨str!"$OBSCOLOR", true, [⟨70, .on 226 (.set .i16)⟩]⟩,
  ⟨str!"$OBSLTYPE", true, [⟨280, .on 227 (.set (.enumI16 E.lineTypeStyle ⟨0, by decide⟩))⟩]⟩,
  ⟨str!"$INTERSECTIONDISPLAY", false, [⟨280, .on 228 (.set .asBool)⟩, ⟨290, .on 228 (.set .bool)⟩]⟩,
  ⟨str!"$INTERSECTIONCOLOR", true, [⟨70, .on 229 (.set .i16)⟩]⟩,
  ⟨str!"$DIMASSOC", true, [⟨280, .on 230 (.set (.enumI16 E.dimensionAssociativity ⟨1, by decide⟩))⟩]⟩,
  ⟨str!"$PROJECTNAME", true, [⟨1, .on 231 (.set .str)⟩]⟩,
  ⟨str!"$CAMERADISPLAY", true, [⟨290, .on 232 (.set .bool)⟩]⟩,
  ⟨str!"$LENSLENGTH", true, [⟨40, .on 233 (.set .f64)⟩]⟩,
  ⟨str!"$CAMERAHEIGHT", true, [⟨40, .on 234 (.set .f64)⟩]⟩,
  ⟨str!"$STEPSPERSEC", true, [⟨40, .on 235 (.set .f64)⟩]⟩,
  ⟨str!"$STEPSIZE", true, [⟨40, .on 236 (.set .f64)⟩]⟩,
  ⟨str!"$3DDWFPREC", true, [⟨40, .on 237 (.set (.enumF64 E.dwf3DPrecision ⟨1, by decide⟩))⟩]⟩,
  ⟨str!"$PSOLWIDTH", true, [⟨40, .on 238 (.set .f64)⟩]⟩,
  ⟨str!"$PSOLHEIGHT", true, [⟨40, .on 239 (.set .f64)⟩]⟩,
  ⟨str!"$LOFTANG1", true, [⟨40, .on 240 (.set .f64)⟩]⟩,
  ⟨str!"$LOFTANG2", true, [⟨40, .on 241 (.set .f64)⟩]⟩,
  ⟨str!"$LOFTMAG1", true, [⟨40, .on 242 (.set .f64)⟩]⟩,
  ⟨str!"$LOFTMAG2", true, [⟨40, .on 243 (.set .f64)⟩]⟩,
  ⟨str!"$LOFTPARAM", true, [⟨70, .on 244 (.set .i32OfI16)⟩]⟩,
  ⟨str!"$LOFTNORMALS", true, [⟨280, .on 245 (.set (.enumI16 E.loftedObjectNormalMode ⟨1, by decide⟩))⟩]⟩,
  ⟨str!"$LATITUDE", true, [⟨40, .on 246 (.set .f64)⟩]⟩,
  ⟨str!"$LONGITUDE", true, [⟨40, .on 247 (.set .f64)⟩]⟩,
  ⟨str!"$NORTHDIRECTION", true, [⟨40, .on 248 (.set .f64)⟩]⟩,
  ⟨str!"$TIMEZONE", true, [⟨70, .on 249 (.set (.enumI16 E.drawingTimeZone ⟨4, by decide⟩))⟩]⟩,
  ⟨str!"$LIGHTGLYPHDISPLAY", true, [⟨280, .on 250 (.set .asBool)⟩]⟩,
  ⟨str!"$TILEMODELIGHTSYNCH", true, [⟨280, .on 251 (.set .asBool)⟩]⟩,
  ⟨str!"$CMATERIAL", true, [⟨347, .on 252 (.set .handle)⟩]⟩,
  ⟨str!"$SOLIDHIST", true, [⟨280, .on 253 (.set .asBool)⟩]⟩,
  ⟨str!"$SHOWHIST", true, [⟨280, .on 254 (.set (.enumI16 E.solidHistoryMode ⟨1, by decide⟩))⟩]⟩,
  ⟨str!"$DWFFRAME", true, [⟨280, .on 255 (.set (.enumI16 E.underlayFrameMode ⟨2, by decide⟩))⟩]⟩,
  ⟨str!"$DGNFRAME", true, [⟨280, .on 256 (.set (.enumI16 E.underlayFrameMode ⟨0, by decide⟩))⟩]⟩,
  ⟨str!"$REALWORLDSCALE", true, [⟨290, .on 257 (.set .bool)⟩]⟩,
  ⟨str!"$INTERFERECOLOR", true, [⟨62, .on 258 (.set .i16)⟩]⟩,
  ⟨str!"$INTERFEREOBJVS", true, [⟨345, .on 259 (.set .handle)⟩]⟩,
  ⟨str!"$INTERFEREVPVS", true, [⟨346, .on 260 (.set .handle)⟩]⟩,
  ⟨str!"$CSHADOW", true, [⟨280, .on 261 (.set (.enumI16 E.shadowMode ⟨0, by decide⟩))⟩]⟩,
  ⟨str!"$SHADOWPLANELOCATION", true, [⟨40, .on 262 (.set .f64)⟩]⟩,
  ⟨str!"$AXISMODE", true, [⟨70, .on 263 (.set .asBool)⟩]⟩,
  ⟨str!"$AXISUNIT", false, [⟨10, .on 264 (.axis .x)⟩, ⟨20, .on 264 (.axis .y)⟩, ⟨30, .on 264 (.axis .z)⟩]⟩,
  ⟨str!"$FASTZOOM", true, [⟨70, .on 265 (.set .asBool)⟩]⟩,
  ⟨str!"$GRIDMODE", true, [⟨70, .on 266 (.set .asBool)⟩]⟩,
  ⟨str!"$GRIDUNIT", false, [⟨10, .on 267 (.axis .x)⟩, ⟨20, .on 267 (.axis .y)⟩, ⟨30, .on 267 (.axis .z)⟩]⟩,
  ⟨str!"$SNAPANG", true, [⟨50, .on 268 (.set .f64)⟩]⟩,
  ⟨str!"$SNAPBASE", false, [⟨10, .on 269 (.axis .x)⟩, ⟨20, .on 269 (.axis .y)⟩, ⟨30, .on 269 (.axis .z)⟩]⟩,
  ⟨str!"$SNAPISOPAIR", true, [⟨70, .on 270 (.set (.enumI16 E.snapIsometricPlane ⟨0, by decide⟩))⟩]⟩,
  ⟨str!"$SNAPMODE", true, [⟨70, .on 271 (.set .asBool)⟩]⟩,
  ⟨str!"$SNAPSTYLE", true, [⟨70, .on 272 (.set (.enumI16 E.snapStyle ⟨0, by decide⟩))⟩]⟩,
  ⟨str!"$SNAPUNIT", false, [⟨10, .on 273 (.axis .x)⟩, ⟨20, .on 273 (.axis .y)⟩, ⟨30, .on 273 (.axis .z)⟩]⟩,
  ⟨str!"$VIEWCTR", false, [⟨10, .on 274 (.axis .x)⟩, ⟨20, .on 274 (.axis .y)⟩, ⟨30, .on 274 (.axis .z)⟩]⟩,
  ⟨str!"$VIEWDIR", false, [⟨10, .on 275 (.axis .x)⟩, ⟨20, .on 275 (.axis .y)⟩, ⟨30, .on 275 (.axis .z)⟩]⟩,
  ⟨str!"$VIEWSIZE", true, [⟨40, .on 276 (.set .f64)⟩]⟩]

/-- The statements of `add_code_pairs_internal`. -/
def Header.cmds : List (HCmd Header.decls) := [
  ⟨str!"$ACADVER", { cmd := .field 0 (.one 1 .version) }⟩,
  ⟨str!"$ACADMAINTVER", { cmd := .field 1 (.one 70 .i16), min := (some .r14) }⟩,
  ⟨str!"$DWGCODEPAGE", { cmd := .field 2 (.one 3 .str), min := (some .r13) }⟩,
  ⟨str!"$LASTSAVEDBY", { cmd := .field 3 (.one 1 .str), min := (some .r2004) }⟩,
  ⟨str!"$REQUIREDVERSIONS", { cmd := .field 4 (.one 160 .i64), min := (some .r2013) }⟩,
  ⟨str!"$INSBASE", { cmd := .field 5 (.axes [(.x, 10), (.y, 20), (.z, 30)]) }⟩,
  ⟨str!"$EXTMIN", { cmd := .field 6 (.axes [(.x, 10), (.y, 20), (.z, 30)]) }⟩,
  ⟨str!"$EXTMAX", { cmd := .field 7 (.axes [(.x, 10), (.y, 20), (.z, 30)]) }⟩,
  ⟨str!"$LIMMIN", { cmd := .field 8 (.axes [(.x, 10), (.y, 20)]) }⟩,
  ⟨str!"$LIMMAX", { cmd := .field 9 (.axes [(.x, 10), (.y, 20)]) }⟩,
  ⟨str!"$ORTHOMODE", { cmd := .field 10 (.one 70 .asI16) }⟩,
  ⟨str!"$REGENMODE", { cmd := .field 11 (.one 70 .asI16) }⟩,
  ⟨str!"$FILLMODE", { cmd := .field 12 (.one 70 .asI16) }⟩,
  ⟨str!"$QTEXTMODE", { cmd := .field 13 (.one 70 .asI16) }⟩,
  ⟨str!"$MIRRTEXT", { cmd := .field 14 (.one 70 .asI16) }⟩,
  ⟨str!"$DRAGMODE", { cmd := .field 15 (.one 70 (.enumI16 E.dragMode)), max := (some .r14) }⟩,
  ⟨str!"$LTSCALE", { cmd := .field 16 (.one 40 .f64) }⟩,
  ⟨str!"$OSMODE", { cmd := .field 17 (.one 70 .i32AsI16), max := (some .r14) }⟩,
  ⟨str!"$ATTMODE", { cmd := .field 18 (.one 70 (.enumI16 E.attributeVisibility)) }⟩,
  ⟨str!"$TEXTSIZE", { cmd := .field 19 (.one 40 .f64) }⟩,
  ⟨str!"$TRACEWID", { cmd := .field 20 (.one 40 .f64) }⟩,
  ⟨str!"$TEXTSTYLE", { cmd := .field 21 (.one 7 .str) }⟩,
  ⟨str!"$CLAYER", { cmd := .field 22 (.one 8 .str) }⟩,
  ⟨str!"$CELTYPE", { cmd := .field 23 (.one 6 .str) }⟩,
  ⟨str!"$CECOLOR", { cmd := .field 24 (.one 62 .i16) }⟩,
  ⟨str!"$CELTSCALE", { cmd := .field 25 (.one 40 .f64), min := (some .r13) }⟩,
  ⟨str!"$DELOBJ", { cmd := .field 26 (.one 70 .asI16), min := (some .r13), max := (some .r14) }⟩,
  ⟨str!"$DISPSILH", { cmd := .field 27 (.one 70 .asI16), min := (some .r13) }⟩,
  ⟨str!"$DRAGVS", { cmd := .field 28 (.one 349 .handle), min := (some .r2007), cond := fun r => !(Ty.rustEq .handle (r 28) (0#64 : Handle)) }⟩,
  ⟨str!"$DIMSCALE", { cmd := .field 29 (.one 40 .f64) }⟩,
  ⟨str!"$DIMASZ", { cmd := .field 30 (.one 40 .f64) }⟩,
  ⟨str!"$DIMEXO", { cmd := .field 31 (.one 40 .f64) }⟩,
  ⟨str!"$DIMDLI", { cmd := .field 32 (.one 40 .f64) }⟩,
  ⟨str!"$DIMRND", { cmd := .field 33 (.one 40 .f64) }⟩,
  ⟨str!"$DIMDLE", { cmd := .field 34 (.one 40 .f64) }⟩,
  ⟨str!"$DIMEXE", { cmd := .field 35 (.one 40 .f64) }⟩,
  ⟨str!"$DIMTP", { cmd := .field 36 (.one 40 .f64) }⟩,
  ⟨str!"$DIMTM", { cmd := .field 37 (.one 40 .f64) }⟩,
  ⟨str!"$DIMTXT", { cmd := .field 38 (.one 40 .f64) }⟩,
  ⟨str!"$DIMCEN", { cmd := .field 39 (.one 40 .f64) }⟩,
  ⟨str!"$DIMTSZ", { cmd := .field 40 (.one 40 .f64) }⟩,
  ⟨str!"$DIMTOL", { cmd := .field 41 (.one 70 .asI16) }⟩,
  ⟨str!"$DIMLIM", { cmd := .field 42 (.one 70 .asI16) }⟩,
  ⟨str!"$DIMTIH", { cmd := .field 43 (.one 70 .asI16) }⟩,
  ⟨str!"$DIMTOH", { cmd := .field 44 (.one 70 .asI16) }⟩,
  ⟨str!"$DIMSE1", { cmd := .field 45 (.one 70 .asI16), min := (some .r12) }⟩,
  ⟨str!"$DIMSE2", { cmd := .field 46 (.one 70 .asI16), min := (some .r12) }⟩,
  ⟨str!"$DIMTAD", { cmd := .field 47 (.one 70 .asI16) }⟩,
  ⟨str!"$DIMZIN", { cmd := .field 48 (.one 70 (.enumI16 E.unitZeroSuppression)) }⟩,
  ⟨str!"$DIMBLK", { cmd := .field 49 (.one 1 .str) }⟩,
  ⟨str!"$DIMASO", { cmd := .field 50 (.one 70 .asI16) }⟩,
  ⟨str!"$DIMSHO", { cmd := .field 51 (.one 70 .asI16) }⟩,
  ⟨str!"$DIMPOST", { cmd := .field 52 (.one 1 .str) }⟩,
  ⟨str!"$DIMAPOST", { cmd := .field 53 (.one 1 .str) }⟩,
  ⟨str!"$DIMALT", { cmd := .field 54 (.one 70 .asI16) }⟩,
  ⟨str!"$DIMALTD", { cmd := .field 55 (.one 70 .i16) }⟩,
  ⟨str!"$DIMALTF", { cmd := .field 56 (.one 40 .f64) }⟩,
  ⟨str!"$DIMLFAC", { cmd := .field 57 (.one 40 .f64) }⟩,
  ⟨str!"$DIMTOFL", { cmd := .field 58 (.one 70 .asI16) }⟩,
  ⟨str!"$DIMTVP", { cmd := .field 59 (.one 40 .f64) }⟩,
  ⟨str!"$DIMTIX", { cmd := .field 60 (.one 70 .asI16) }⟩,
  ⟨str!"$DIMSOXD", { cmd := .field 61 (.one 70 .asI16) }⟩,
  ⟨str!"$DIMSAH", { cmd := .field 62 (.one 70 .asI16) }⟩,
  ⟨str!"$DIMBLK1", { cmd := .field 63 (.one 1 .str) }⟩,
  ⟨str!"$DIMBLK2", { cmd := .field 64 (.one 1 .str) }⟩,
  ⟨str!"$DIMSTYLE", { cmd := .field 65 (.one 2 .str) }⟩,
  ⟨str!"$DIMCLRD", { cmd := .field 66 (.one 70 .i16), min := (some .r11) }⟩,
  ⟨str!"$DIMCLRE", { cmd := .field 67 (.one 70 .i16), min := (some .r11) }⟩,
  ⟨str!"$DIMCLRT", { cmd := .field 68 (.one 70 .i16), min := (some .r11) }⟩,
  ⟨str!"$DIMTFAC", { cmd := .field 69 (.one 40 .f64), min := (some .r12) }⟩,
  ⟨str!"$DIMGAP", { cmd := .field 70 (.one 40 .f64), min := (some .r11) }⟩,
  ⟨str!"$DIMJUST", { cmd := .field 71 (.one 70 (.enumI16 E.dimensionTextJustification)), min := (some .r13) }⟩,
  ⟨str!"$DIMSD1", { cmd := .field 45 (.one 70 .asI16), min := (some .r13) }⟩,
  ⟨str!"$DIMSD2", { cmd := .field 46 (.one 70 .asI16), min := (some .r13) }⟩,
  ⟨str!"$DIMTOLJ", { cmd := .field 72 (.one 70 (.enumI16 E.justification)), min := (some .r13) }⟩,
  ⟨str!"$DIMTZIN", { cmd := .field 73 (.one 70 (.enumI16 E.unitZeroSuppression)), min := (some .r13) }⟩,
  ⟨str!"$DIMALTZ", { cmd := .field 74 (.one 70 (.enumI16 E.unitZeroSuppression)), min := (some .r13) }⟩,
  ⟨str!"$DIMALTTZ", { cmd := .field 75 (.one 70 (.enumI16 E.unitZeroSuppression)), min := (some .r13) }⟩,
  ⟨str!"$DIMFIT", { cmd := .field 76 (.one 70 (.enumI16 E.dimensionFit)), min := (some .r13), max := (some .r14) }⟩,
  ⟨str!"$DIMUPT", { cmd := .field 77 (.one 70 .asI16), min := (some .r13) }⟩,
  ⟨str!"$DIMUNIT", { cmd := .field 78 (.one 70 (.enumI16 E.unitFormat)), min := (some .r13), max := (some .r14) }⟩,
  ⟨str!"$DIMDEC", { cmd := .field 79 (.one 70 .i16), min := (some .r13) }⟩,
  ⟨str!"$DIMTDEC", { cmd := .field 80 (.one 70 .i16), min := (some .r13) }⟩,
  ⟨str!"$DIMALTU", { cmd := .field 81 (.one 70 (.enumI16 E.unitFormat)), min := (some .r13) }⟩,
  ⟨str!"$DIMALTTD", { cmd := .field 82 (.one 70 .i16), min := (some .r13) }⟩,
  ⟨str!"$DIMTXSTY", { cmd := .field 83 (.one 7 .str), min := (some .r13) }⟩,
  ⟨str!"$DIMAUNIT", { cmd := .field 84 (.one 70 (.enumI16 E.angleFormat)), min := (some .r13) }⟩,
  ⟨str!"$DIMADEC", { cmd := .field 85 (.one 70 .i16), min := (some .r2000) }⟩,
  ⟨str!"$DIMALTRND", { cmd := .field 86 (.one 40 .f64), min := (some .r2000) }⟩,
  ⟨str!"$DIMAZIN", { cmd := .field 87 (.one 70 (.enumI16 E.unitZeroSuppression)), min := (some .r2000) }⟩,
  ⟨str!"$DIMDSEP", { cmd := .field 88 (.one 70 .chr), min := (some .r2000) }⟩,
  ⟨str!"$DIMATFIT", { cmd := .field 76 (.one 70 (.enumI16 E.dimensionFit)), min := (some .r2000) }⟩,
  ⟨str!"$DIMFRAC", { cmd := .field 89 (.one 70 (.enumI16 E.dimensionFractionFormat)), min := (some .r2000) }⟩,
  ⟨str!"$DIMLDRBLK", { cmd := .field 90 (.one 1 .str), min := (some .r2000) }⟩,
  ⟨str!"$DIMLUNIT", { cmd := .field 91 (.one 70 (.enumI16 E.nonAngularUnits)), min := (some .r2000) }⟩,
  ⟨str!"$DIMLWD", { cmd := .field 92 (.one 70 .i16), min := (some .r2000) }⟩,
  ⟨str!"$DIMLWE", { cmd := .field 93 (.one 70 .i16), min := (some .r2000) }⟩,
  ⟨str!"$DIMTMOVE", { cmd := .field 94 (.one 70 (.enumI16 E.dimensionTextMovementRule)), min := (some .r2000) }⟩,
  ⟨str!"$DIMFXL", { cmd := .field 95 (.one 40 .f64), min := (some .r2007) }⟩,
  ⟨str!"$DIMFXLON", { cmd := .field 96 (.one 70 .asI16), min := (some .r2007) }⟩,
  ⟨str!"$DIMJOGANG", { cmd := .field 97 (.one 40 .f64), min := (some .r2007) }⟩,
  ⟨str!"$DIMTFILL", { cmd := .field 98 (.one 70 (.enumI16 E.dimensionTextBackgroundColorMode)), min := (some .r2007) }⟩,
  ⟨str!"$DIMTFILLCLR", { cmd := .field 99 (.one 70 .i16), min := (some .r2007) }⟩,
  ⟨str!"$DIMARCSYM", { cmd := .field 100 (.one 70 (.enumI16 E.dimensionArcSymbolDisplayMode)), min := (some .r2007) }⟩,
  ⟨str!"$DIMLTYPE", { cmd := .field 101 (.one 6 .str), min := (some .r2007) }⟩,
  ⟨str!"$DIMLTEX1", { cmd := .field 102 (.one 6 .str), min := (some .r2007) }⟩,
  ⟨str!"$DIMLTEX2", { cmd := .field 103 (.one 6 .str), min := (some .r2007) }⟩,
  ⟨str!"$DIMTXTDIRECTION", { cmd := .field 104 (.one 70 (.enumI16 E.textDirection)), min := (some .r2010) }⟩,
  ⟨str!"$LUNITS", { cmd := .field 105 (.one 70 (.enumI16 E.unitFormat)) }⟩,
  ⟨str!"$LUPREC", { cmd := .field 106 (.one 70 .i16) }⟩,
  ⟨str!"$SKETCHINC", { cmd := .field 107 (.one 40 .f64) }⟩,
  ⟨str!"$FILLETRAD", { cmd := .field 108 (.one 40 .f64) }⟩,
  ⟨str!"$AUNITS", { cmd := .field 109 (.one 70 (.enumI16 E.angleFormat)) }⟩,
  ⟨str!"$AUPREC", { cmd := .field 110 (.one 70 .i16) }⟩,
  ⟨str!"$MENU", { cmd := .field 111 (.one 1 .str) }⟩,
  ⟨str!"$ELEVATION", { cmd := .field 112 (.one 40 .f64) }⟩,
  ⟨str!"$PELEVATION", { cmd := .field 113 (.one 40 .f64), min := (some .r11) }⟩,
  ⟨str!"$THICKNESS", { cmd := .field 114 (.one 40 .f64) }⟩,
  ⟨str!"$LIMCHECK", { cmd := .field 115 (.one 70 .asI16) }⟩,
  ⟨str!"$BLIPMODE", { cmd := .field 116 (.one 70 .asI16), max := (some .r14) }⟩,
  ⟨str!"$CHAMFERA", { cmd := .field 117 (.one 40 .f64) }⟩,
  ⟨str!"$CHAMFERB", { cmd := .field 118 (.one 40 .f64) }⟩,
  ⟨str!"$CHAMFERC", { cmd := .field 119 (.one 40 .f64), min := (some .r14) }⟩,
  ⟨str!"$CHAMFERD", { cmd := .field 120 (.one 40 .f64), min := (some .r14) }⟩,
  ⟨str!"$SKPOLY", { cmd := .field 121 (.one 70 (.enumI16 E.polySketchMode)) }⟩,
  ⟨str!"$TDCREATE", { cmd := .field 122 (.one 40 .date) }⟩,
  ⟨str!"$TDUCREATE", { cmd := .field 123 (.one 40 .date), min := (some .r2000) }⟩,
  ⟨str!"$TDUPDATE", { cmd := .field 124 (.one 40 .date) }⟩,
  ⟨str!"$TDUUPDATE", { cmd := .field 125 (.one 40 .date), min := (some .r2000) }⟩,
  ⟨str!"$TDINDWG", { cmd := .field 126 (.one 40 .dur) }⟩,
  ⟨str!"$TDUSRTIMER", { cmd := .field 127 (.one 40 .dur) }⟩,
  ⟨str!"$USRTIMER", { cmd := .field 128 (.one 70 .asI16) }⟩,
  ⟨str!"$ANGBASE", { cmd := .field 129 (.one 50 .f64) }⟩,
  ⟨str!"$ANGDIR", { cmd := .field 130 (.one 70 (.enumI16 E.angleDirection)) }⟩,
  ⟨str!"$PDMODE", { cmd := .field 131 (.one 70 .i32AsI16) }⟩,
  ⟨str!"$PDSIZE", { cmd := .field 132 (.one 40 .f64) }⟩,
  ⟨str!"$PLINEWID", { cmd := .field 133 (.one 40 .f64) }⟩,
  ⟨str!"$COORDS", { cmd := .field 134 (.one 70 (.enumI16 E.coordinateDisplay)), max := (some .r14) }⟩,
  ⟨str!"$SPLFRAME", { cmd := .field 135 (.one 70 .asI16), max := (some .r2013) }⟩,
  ⟨str!"$SPLINETYPE", { cmd := .field 136 (.one 70 (.enumI16 E.polylineCurvedAndSmoothSurfaceType)) }⟩,
  ⟨str!"$SPLINESEGS", { cmd := .field 137 (.one 70 .i16) }⟩,
  ⟨str!"$ATTDIA", { cmd := .field 138 (.one 70 .asI16), max := (some .r14) }⟩,
  ⟨str!"$ATTREQ", { cmd := .field 139 (.one 70 .asI16), max := (some .r14) }⟩,
  ⟨str!"$HANDLING", { cmd := .field 140 (.one 70 .asI16), max := (some .r12) }⟩,
  ⟨str!"$HANDSEED", { cmd := .field 141 (.one 5 .handle) }⟩,
  ⟨str!"$SURFTAB1", { cmd := .field 142 (.one 70 .i16) }⟩,
  ⟨str!"$SURFTAB2", { cmd := .field 143 (.one 70 .i16) }⟩,
  ⟨str!"$SURFTYPE", { cmd := .field 144 (.one 70 (.enumI16 E.polylineCurvedAndSmoothSurfaceType)) }⟩,
  ⟨str!"$SURFU", { cmd := .field 145 (.one 70 .i16) }⟩,
  ⟨str!"$SURFV", { cmd := .field 146 (.one 70 .i16) }⟩,
  ⟨str!"$UCSBASE", { cmd := .field 147 (.one 2 .str), min := (some .r2000) }⟩,
  ⟨str!"$UCSNAME", { cmd := .field 148 (.one 2 .str) }⟩,
  ⟨str!"$UCSORG", { cmd := .field 149 (.axes [(.x, 10), (.y, 20), (.z, 30)]) }⟩,
  ⟨str!"$UCSXDIR", { cmd := .field 150 (.axes [(.x, 10), (.y, 20), (.z, 30)]) }⟩,
  ⟨str!"$UCSYDIR", { cmd := .field 151 (.axes [(.x, 10), (.y, 20), (.z, 30)]) }⟩,
  ⟨str!"$UCSORTHOREF", { cmd := .field 152 (.one 2 .str), min := (some .r2000) }⟩,
  ⟨str!"$UCSORTHOVIEW", { cmd := .field 153 (.one 70 (.enumI16 E.orthographicViewType)), min := (some .r2000) }⟩,
  ⟨str!"$UCSORGTOP", { cmd := .field 154 (.axes [(.x, 10), (.y, 20), (.z, 30)]), min := (some .r2000) }⟩,
  ⟨str!"$UCSORGBOTTOM", { cmd := .field 155 (.axes [(.x, 10), (.y, 20), (.z, 30)]), min := (some .r2000) }⟩,
  ⟨str!"$UCSORGLEFT", { cmd := .field 156 (.axes [(.x, 10), (.y, 20), (.z, 30)]), min := (some .r2000) }⟩,
  ⟨str!"$UCSORGRIGHT", { cmd := .field 157 (.axes [(.x, 10), (.y, 20), (.z, 30)]), min := (some .r2000) }⟩,
  ⟨str!"$UCSORGFRONT", { cmd := .field 158 (.axes [(.x, 10), (.y, 20), (.z, 30)]), min := (some .r2000) }⟩,
  ⟨str!"$UCSORGBACK", { cmd := .field 159 (.axes [(.x, 10), (.y, 20), (.z, 30)]), min := (some .r2000) }⟩,
  ⟨str!"$PUCSBASE", { cmd := .field 160 (.one 2 .str), min := (some .r2000) }⟩,
  ⟨str!"$PUCSNAME", { cmd := .field 161 (.one 2 .str), min := (some .r11) }⟩,
  ⟨str!"$PUCSORG", { cmd := .field 162 (.axes [(.x, 10), (.y, 20), (.z, 30)]), min := (some .r11) }⟩,
  ⟨str!"$PUCSXDIR", { cmd := .field 163 (.axes [(.x, 10), (.y, 20), (.z, 30)]), min := (some .r11) }⟩,
  ⟨str!"$PUCSYDIR", { cmd := .field 164 (.axes [(.x, 10), (.y, 20), (.z, 30)]), min := (some .r11) }⟩,
  ⟨str!"$PUCSORTHOREF", { cmd := .field 165 (.one 2 .str), min := (some .r2000) }⟩,
  ⟨str!"$PUCSORTHOVIEW", { cmd := .field 166 (.one 70 (.enumI16 E.orthographicViewType)), min := (some .r2000) }⟩,
  ⟨str!"$PUCSORGTOP", { cmd := .field 167 (.axes [(.x, 10), (.y, 20), (.z, 30)]), min := (some .r2000) }⟩,
  ⟨str!"$PUCSORGBOTTOM", { cmd := .field 168 (.axes [(.x, 10), (.y, 20), (.z, 30)]), min := (some .r2000) }⟩,
  ⟨str!"$PUCSORGLEFT", { cmd := .field 169 (.axes [(.x, 10), (.y, 20), (.z, 30)]), min := (some .r2000) }⟩,
  ⟨str!"$PUCSORGRIGHT", { cmd := .field 170 (.axes [(.x, 10), (.y, 20), (.z, 30)]), min := (some .r2000) }⟩,
  ⟨str!"$PUCSORGFRONT", { cmd := .field 171 (.axes [(.x, 10), (.y, 20), (.z, 30)]), min := (some .r2000) }⟩,
  ⟨str!"$PUCSORGBACK", { cmd := .field 172 (.axes [(.x, 10), (.y, 20), (.z, 30)]), min := (some .r2000) }⟩,
  ⟨str!"$USERI1", { cmd := .field 173 (.one 70 .i16) }⟩,
  ⟨str!"$USERI2", { cmd := .field 174 (.one 70 .i16) }⟩,
  ⟨str!"$USERI3", { cmd := .field 175 (.one 70 .i16) }⟩,
  ⟨str!"$USERI4", { cmd := .field 176 (.one 70 .i16) }⟩,
  ⟨str!"$USERI5", { cmd := .field 177 (.one 70 .i16) }⟩,
  ⟨str!"$USERR1", { cmd := .field 178 (.one 40 .f64) }⟩,
  ⟨str!"$USERR2", { cmd := .field 179 (.one 40 .f64) }⟩,
  ⟨str!"$USERR3", { cmd := .field 180 (.one 40 .f64) }⟩,
  ⟨str!"$USERR4", { cmd := .field 181 (.one 40 .f64) }⟩,
  ⟨str!"$USERR5", { cmd := .field 182 (.one 40 .f64) }⟩,
  ⟨str!"$WORLDVIEW", { cmd := .field 183 (.one 70 .asI16) }⟩,
  ⟨str!"$SHADEDGE", { cmd := .field 184 (.one 70 (.enumI16 E.shadeEdgeMode)), min := (some .r11) }⟩,
  ⟨str!"$SHADEDIF", { cmd := .field 185 (.one 70 .i16), min := (some .r11) }⟩,
  ⟨str!"$TILEMODE", { cmd := .field 186 (.one 70 .asI16), min := (some .r11) }⟩,
  ⟨str!"$MAXACTVP", { cmd := .field 187 (.one 70 .i16), min := (some .r11) }⟩,
  ⟨str!"$PINSBASE", { cmd := .field 188 (.axes [(.x, 10), (.y, 20), (.z, 30)]), min := (some .r14) }⟩,
  ⟨str!"$PLIMCHECK", { cmd := .field 189 (.one 70 .asI16), min := (some .r11) }⟩,
  ⟨str!"$PEXTMIN", { cmd := .field 190 (.axes [(.x, 10), (.y, 20), (.z, 30)]), min := (some .r11) }⟩,
  ⟨str!"$PEXTMAX", { cmd := .field 191 (.axes [(.x, 10), (.y, 20), (.z, 30)]), min := (some .r11) }⟩,
  ⟨str!"$PLIMMIN", { cmd := .field 192 (.axes [(.x, 10), (.y, 20)]), min := (some .r11) }⟩,
  ⟨str!"$PLIMMAX", { cmd := .field 193 (.axes [(.x, 10), (.y, 20)]), min := (some .r11) }⟩,
  ⟨str!"$UNITMODE", { cmd := .field 194 (.one 70 .asI16), min := (some .r11) }⟩,
  ⟨str!"$VISRETAIN", { cmd := .field 195 (.one 70 .asI16), min := (some .r12) }⟩,
  ⟨str!"$PLINEGEN", { cmd := .field 196 (.one 70 .asI16), min := (some .r11) }⟩,
  ⟨str!"$PSLTSCALE", { cmd := .field 197 (.one 70 .asI16), min := (some .r11) }⟩,
  ⟨str!"$TREEDEPTH", { cmd := .field 198 (.one 70 .i16), min := (some .r14) }⟩,
  ⟨str!"$PICKSTYLE", { cmd := .field 199 (.one 70 (.enumI16 E.pickStyle)), min := (some .r13), max := (some .r14) }⟩,
  ⟨str!"$CMLSTYLE", { cmd := .field 200 (.one 7 .str), min := (some .r13), max := (some .r13) }⟩,
  ⟨str!"$CMLSTYLE", { cmd := .field 200 (.one 2 .str), min := (some .r14) }⟩,
  ⟨str!"$CMLJUST", { cmd := .field 201 (.one 70 (.enumI16 E.justification)), min := (some .r13) }⟩,
  ⟨str!"$CMLSCALE", { cmd := .field 202 (.one 40 .f64), min := (some .r13) }⟩,
  ⟨str!"$PROXYGRAPHICS", { cmd := .field 203 (.one 70 .asI16), min := (some .r14) }⟩,
  ⟨str!"$MEASUREMENT", { cmd := .field 204 (.one 70 (.enumI16 E.drawingUnits)), min := (some .r14) }⟩,
  ⟨str!"$CELWEIGHT", { cmd := .field 205 (.one 370 .i16), min := (some .r2000) }⟩,
  ⟨str!"$ENDCAPS", { cmd := .field 206 (.one 280 (.enumI16 E.endCapSetting)), min := (some .r2000) }⟩,
  ⟨str!"$JOINSTYLE", { cmd := .field 207 (.one 280 (.enumI16 E.joinStyle)), min := (some .r2000) }⟩,
  ⟨str!"$LWDISPLAY", { cmd := .field 208 (.one 290 .bool), min := (some .r2000) }⟩,
  ⟨str!"$INSUNITS", { cmd := .field 209 (.one 70 (.enumI16 E.units)), min := (some .r2000) }⟩,
  ⟨str!"$HYPERLINKBASE", { cmd := .field 210 (.one 1 .str), min := (some .r2000) }⟩,
  ⟨str!"$STYLESHEET", { cmd := .field 211 (.one 1 .str), min := (some .r2000) }⟩,
  ⟨str!"$XEDIT", { cmd := .field 212 (.one 290 .bool), min := (some .r2000) }⟩,
  ⟨str!"$CEPSNID", { cmd := .field 213 (.one 390 .handle), min := (some .r2000), cond := fun r => !(Ty.rustEq .handle (r 213) (0#64 : Handle)) }⟩,
  ⟨str!"$CEPSNTYPE", { cmd := .field 214 (.one 380 (.enumI16 E.plotStyle)), min := (some .r2000) }⟩,
  ⟨str!"$PSTYLEMODE", { cmd := .field 215 (.one 290 .bool), min := (some .r2000) }⟩,
  ⟨str!"$FINGERPRINTGUID", { cmd := .field 216 (.one 2 .uuid), min := (some .r2000) }⟩,
  ⟨str!"$VERSIONGUID", { cmd := .field 217 (.one 2 .uuid), min := (some .r2000) }⟩,
  ⟨str!"$EXTNAMES", { cmd := .field 218 (.one 290 .bool), min := (some .r2000) }⟩,
  ⟨str!"$PSVPSCALE", { cmd := .field 219 (.one 40 .f64), min := (some .r2000) }⟩,
  ⟨str!"$OLESTARTUP", { cmd := .field 220 (.one 290 .bool), min := (some .r2000) }⟩,
  ⟨str!"$SORTENTS", { cmd := .field 221 (.one 280 .i32AsI16), min := (some .r2004) }⟩,
  ⟨str!"$INDEXCTL", { cmd := .field 222 (.one 280 (.enumI16 E.layerAndSpatialIndexSaveMode)), min := (some .r2004) }⟩,
  ⟨str!"$HIDETEXT", { cmd := .field 223 (.one 280 .asI16), min := (some .r2004) }⟩,
  ⟨str!"$XCLIPFRAME", { cmd := .field 224 (.one 290 (.enumBool E.xrefClippingBoundaryVisibility)), min := (some .r2004), max := (some .r2007) }⟩,
  ⟨str!"$XCLIPFRAME", { cmd := .field 224 (.one 280 (.enumI16 E.xrefClippingBoundaryVisibility)), min := (some .r2010) }⟩,
  ⟨str!"$HALOGAP", { cmd := .field 225 (.one 280 .f64AsI16), min := (some .r2004) }⟩,
  ⟨str!"$OBSCOLOR", { cmd := .field 226 (.one 70 .i16), min := (some .r2004) }⟩,
  ⟨str!"$OBSLTYPE", { cmd := .field 227 (.one 280 (.enumI16 E.lineTypeStyle)), min := (some .r2004) }⟩,
  ⟨str!"$INTERSECTIONDISPLAY", { cmd := .field 228 (.one 280 .asI16), min := (some .r2004) }⟩,
  ⟨str!"$INTERSECTIONCOLOR", { cmd := .field 229 (.one 70 .i16), min := (some .r2004) }⟩,
  ⟨str!"$DIMASSOC", { cmd := .field 230 (.one 280 (.enumI16 E.dimensionAssociativity)), min := (some .r2004) }⟩,
  ⟨str!"$PROJECTNAME", { cmd := .field 231 (.one 1 .str), min := (some .r2004) }⟩,
  ⟨str!"$CAMERADISPLAY", { cmd := .field 232 (.one 290 .bool), min := (some .r2007) }⟩,
  ⟨str!"$LENSLENGTH", { cmd := .field 233 (.one 40 .f64), min := (some .r2007) }⟩,
  ⟨str!"$CAMERAHEIGHT", { cmd := .field 234 (.one 40 .f64), min := (some .r2007) }⟩,
  ⟨str!"$STEPSPERSEC", { cmd := .field 235 (.one 40 .f64), min := (some .r2007) }⟩,
  ⟨str!"$STEPSIZE", { cmd := .field 236 (.one 40 .f64), min := (some .r2007) }⟩,
  ⟨str!"$3DDWFPREC", { cmd := .field 237 (.one 40 (.enumF64 E.dwf3DPrecision)), min := (some .r2007) }⟩,
  ⟨str!"$PSOLWIDTH", { cmd := .field 238 (.one 40 .f64), min := (some .r2007) }⟩,
  ⟨str!"$PSOLHEIGHT", { cmd := .field 239 (.one 40 .f64), min := (some .r2007) }⟩,
  ⟨str!"$LOFTANG1", { cmd := .field 240 (.one 40 .f64), min := (some .r2007) }⟩,
  ⟨str!"$LOFTANG2", { cmd := .field 241 (.one 40 .f64), min := (some .r2007) }⟩,
  ⟨str!"$LOFTMAG1", { cmd := .field 242 (.one 40 .f64), min := (some .r2007) }⟩,
  ⟨str!"$LOFTMAG2", { cmd := .field 243 (.one 40 .f64), min := (some .r2007) }⟩,
  ⟨str!"$LOFTPARAM", { cmd := .field 244 (.one 70 .i32AsI16), min := (some .r2007) }⟩,
  ⟨str!"$LOFTNORMALS", { cmd := .field 245 (.one 280 (.enumI16 E.loftedObjectNormalMode)), min := (some .r2007) }⟩,
  ⟨str!"$LATITUDE", { cmd := .field 246 (.one 40 .f64), min := (some .r2007) }⟩,
  ⟨str!"$LONGITUDE", { cmd := .field 247 (.one 40 .f64), min := (some .r2007) }⟩,
  ⟨str!"$NORTHDIRECTION", { cmd := .field 248 (.one 40 .f64), min := (some .r2007) }⟩,
  ⟨str!"$TIMEZONE", { cmd := .field 249 (.one 70 (.enumI16 E.drawingTimeZone)), min := (some .r2007) }⟩,
  ⟨str!"$LIGHTGLYPHDISPLAY", { cmd := .field 250 (.one 280 .asI16), min := (some .r2007) }⟩,
  ⟨str!"$TILEMODELIGHTSYNCH", { cmd := .field 251 (.one 280 .asI16), min := (some .r2007) }⟩,
  ⟨str!"$CMATERIAL", { cmd := .field 252 (.one 347 .handle), min := (some .r2007), cond := fun r => !(Ty.rustEq .handle (r 252) (0#64 : Handle)) }⟩,
  ⟨str!"$SOLIDHIST", { cmd := .field 253 (.one 280 .asI16), min := (some .r2007) }⟩,
  ⟨str!"$SHOWHIST", { cmd := .field 254 (.one 280 (.enumI16 E.solidHistoryMode)), min := (some .r2007) }⟩,
  ⟨str!"$DWFFRAME", { cmd := .field 255 (.one 280 (.enumI16 E.underlayFrameMode)), min := (some .r2007) }⟩,
  ⟨str!"$DGNFRAME", { cmd := .field 256 (.one 280 (.enumI16 E.underlayFrameMode)), min := (some .r2007) }⟩,
  ⟨str!"$REALWORLDSCALE", { cmd := .field 257 (.one 290 .bool), min := (some .r2007) }⟩,
  ⟨str!"$INTERFERECOLOR", { cmd := .field 258 (.one 62 .i16), min := (some .r2007) }⟩,
  ⟨str!"$INTERFEREOBJVS", { cmd := .field 259 (.one 345 .handle), min := (some .r2007), cond := fun r => !(Ty.rustEq .handle (r 259) (0#64 : Handle)) }⟩,
  ⟨str!"$INTERFEREVPVS", { cmd := .field 260 (.one 346 .handle), min := (some .r2007), cond := fun r => !(Ty.rustEq .handle (r 260) (0#64 : Handle)) }⟩,
  ⟨str!"$CSHADOW", { cmd := .field 261 (.one 280 (.enumI16 E.shadowMode)), min := (some .r2007) }⟩,
  ⟨str!"$SHADOWPLANELOCATION", { cmd := .field 262 (.one 40 .f64), min := (some .r2007) }⟩,
  ⟨str!"$AXISMODE", { cmd := .field 263 (.one 70 .asI16), max := (some .r10) }⟩,
  ⟨str!"$AXISUNIT", { cmd := .field 264 (.axes [(.x, 10), (.y, 20)]), max := (some .r10) }⟩,
  ⟨str!"$FASTZOOM", { cmd := .field 265 (.one 70 .asI16), max := (some .r10) }⟩,
  ⟨str!"$GRIDMODE", { cmd := .field 266 (.one 70 .asI16), max := (some .r10) }⟩,
  ⟨str!"$GRIDUNIT", { cmd := .field 267 (.axes [(.x, 10), (.y, 20)]), max := (some .r10) }⟩,
  ⟨str!"$SNAPANG", { cmd := .field 268 (.one 50 .f64), max := (some .r10) }⟩,
  ⟨str!"$SNAPBASE", { cmd := .field 269 (.axes [(.x, 10), (.y, 20)]), max := (some .r10) }⟩,
  ⟨str!"$SNAPISOPAIR", { cmd := .field 270 (.one 70 (.enumI16 E.snapIsometricPlane)), max := (some .r10) }⟩,
  ⟨str!"$SNAPMODE", { cmd := .field 271 (.one 70 .asI16), max := (some .r10) }⟩,
  ⟨str!"$SNAPSTYLE", { cmd := .field 272 (.one 70 (.enumI16 E.snapStyle)), max := (some .r10) }⟩,
  ⟨str!"$SNAPUNIT", { cmd := .field 273 (.axes [(.x, 10), (.y, 20)]), max := (some .r10) }⟩,
  ⟨str!"$VIEWCTR", { cmd := .field 274 (.axes [(.x, 10), (.y, 20)]), max := (some .r10) }⟩,
  ⟨str!"$VIEWDIR", { cmd := .field 275 (.axes [(.x, 10), (.y, 20), (.z, 30)]), max := (some .r10) }⟩,
  ⟨str!"$VIEWSIZE", { cmd := .field 276 (.one 40 .f64), max := (some .r10) }⟩]

end Dxf
