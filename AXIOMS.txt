City.Props.C01_cross_anticomm: [propext]
City.Props.C01_cross_bilinear: [Quot.sound, propext]
City.Props.C01_cross_orthogonal: [Quot.sound, propext]
City.Props.C01_cross_self: [propext]
City.Props.C01_det_alternating: [propext]
City.Props.C01_det_triple: [Quot.sound, propext]
City.Props.C01_lagrange: [Quot.sound, propext]
City.Props.C01_ofList: [propext]
City.Props.C01_point_translation: [propext]
City.Props.C01_translation_compose: [propext]
City.Props.C02_collinear_zero_divisor: [Classical.choice, Quot.sound, propext]
City.Props.C02_normal_orientation: [Classical.choice, Quot.sound, propext]
City.Props.C02_normal_orthogonal: [Classical.choice, Quot.sound, propext]
City.Props.C02_normal_reverse: [Classical.choice, Quot.sound, propext]
City.Props.C02_normal_unit: [Classical.choice, Quot.sound, propext]
City.Props.C03_to_cgal: []
City.Props.C03_union_assoc: [Classical.choice, Quot.sound, propext]
City.Props.C03_union_comm: [Classical.choice, Quot.sound, propext]
City.Props.C03_union_coordinates: [Classical.choice, Quot.sound, propext]
City.Props.C03_union_coordinates_max: [Classical.choice, Quot.sound, propext]
City.Props.C03_union_empty: [Classical.choice, Quot.sound, propext]
City.Props.C03_union_idem: [propext]
City.Props.C03_union_least: [Classical.choice, Quot.sound, propext]
City.Props.C03_union_nan: [propext]
City.Props.C04_attained: [Quot.sound, propext]
City.Props.C04_empty: [propext]
City.Props.C04_mesh: [Classical.choice, Quot.sound, propext]
City.Props.C04_order_independent: [Classical.choice, Quot.sound, propext]
City.Props.C04_tight: [Classical.choice, Quot.sound, propext]
City.Props.C05_ctor: [Quot.sound, propext]
City.Props.C05_ctor_degree: [Quot.sound, propext]
City.Props.C05_ctor_triple: []
City.Props.C06_invert: [propext]
City.Props.C06_invert_involutive: [propext]
City.Props.C06_invert_ub: [propext]
City.Props.C07_rotate_boundary: [Classical.choice, Quot.sound, propext]
City.Props.C07_rotate_compose: [Classical.choice, Quot.sound, propext]
City.Props.C07_rotate_domain: [Quot.sound, propext]
City.Props.C07_rotate_eq: [Classical.choice, Quot.sound, propext]
City.Props.C07_rotate_full: [Classical.choice, Quot.sound, propext]
City.Props.C07_rotate_iter: [Classical.choice, Quot.sound, propext]
City.Props.C07_rotate_iter_degree: [Classical.choice, Quot.sound, propext]
City.Props.C08_eq_iff_rotated_partial: [Classical.choice, Quot.sound, propext]
City.Props.C08_eq_sound: [Classical.choice, Quot.sound, propext]
City.Props.C08_equivalence_partial: [Classical.choice, Quot.sound, propext]
City.Props.C08_exact: [Classical.choice, Quot.sound, propext]
City.Props.C08_ne_partial: [Classical.choice, Quot.sound, propext]
City.Props.C08_refuted: []
City.Props.C09_accepts_convex: [Classical.choice, Quot.sound, propext]
City.Props.C09_decides_turning_partial: [Classical.choice, Quot.sound, propext]
City.Props.C09_errors: [Classical.choice, Quot.sound, propext]
City.Props.C09_exact: [Classical.choice, Quot.sound, propext]
City.Props.C09_inversion_invariant: [Classical.choice, Quot.sound, propext]
City.Props.C09_once: [Classical.choice, Quot.sound, propext]
City.Props.C09_quad_exact: [Classical.choice, Quot.sound, propext]
City.Props.C09_refuted: [Classical.choice, Quot.sound, propext]
City.Props.C09_rotation_invariant: [Classical.choice, Quot.sound, propext]
City.Props.C09_translation_invariant: [Quot.sound, propext]
City.Props.C09_triangle: [Quot.sound, propext]
City.Props.C100_other_scene: [Classical.choice, Quot.sound, propext]
City.Props.C100_read_extra: [Classical.choice, Quot.sound, propext]
City.Props.C100_refuted: [Classical.choice, Quot.sound, propext]
City.Props.C101_displaced_partial: [Classical.choice, Quot.sound, propext]
City.Props.C101_footprint: [Classical.choice, Quot.sound, propext]
City.Props.C101_pixels_partial: [Classical.choice, Quot.sound, propext]
City.Props.C101_refuted: [Classical.choice, Quot.sound, propext]
City.Props.C101_roofs: [Classical.choice, Quot.sound, propext]
City.Props.C102_content: [Classical.choice, Quot.sound, propext]
City.Props.C102_directory: [Classical.choice, Quot.sound, propext]
City.Props.C102_files: [Classical.choice, Quot.sound, propext]
City.Props.C102_refused: [Classical.choice, Quot.sound, propext]
City.Props.C103_from_3ds: [Classical.choice, Quot.sound, propext]
City.Props.C103_indexes: [Classical.choice, Quot.sound, propext]
City.Props.C103_off_door: [Classical.choice, Quot.sound, propext]
City.Props.C103_only_door: [Classical.choice, Quot.sound, propext]
City.Props.C103_to_3ds: [Classical.choice, Quot.sound, propext]
City.Props.C104_footprint: [Classical.choice, Quot.sound, propext]
City.Props.C104_map_partial: [Classical.choice, Quot.sound, propext]
City.Props.C104_questions: [Classical.choice, Quot.sound, propext]
City.Props.C104_raster_partial: [Classical.choice, Quot.sound, propext]
City.Props.C104_refuted: [Classical.choice, Quot.sound, propext]
City.Props.C104_rings_partial: [Quot.sound, propext]
City.Props.C104_sum: [Classical.choice, Quot.sound, propext]
City.Props.C105_build_partial: [Classical.choice, Quot.sound, propext]
City.Props.C105_map_partial: [Classical.choice, Quot.sound, propext]
City.Props.C105_overlap_partial: [Classical.choice, Quot.sound, propext]
City.Props.C105_raster_partial: [Classical.choice, Quot.sound, propext]
City.Props.C105_refuted: [Classical.choice, Quot.sound, propext]
City.Props.C105_refuted_order: [Classical.choice, Quot.sound, propext]
City.Props.C106_apart_partial: [Classical.choice, Quot.sound, propext]
City.Props.C106_facets: [Classical.choice, Quot.sound, propext]
City.Props.C106_mesh_partial: [Classical.choice, Quot.sound, propext]
City.Props.C106_node_partial: [Classical.choice, Quot.sound, propext]
City.Props.C106_refuted: [Classical.choice, Quot.sound, propext]
City.Props.C106_under: [Classical.choice, Quot.sound, propext]
City.Props.C107_obj_partial: [Classical.choice, Quot.sound, propext]
City.Props.C107_off_partial: [Classical.choice, Quot.sound, propext]
City.Props.C107_refuted: [Classical.choice, Quot.sound, propext]
City.Props.C107_scene_partial: [Classical.choice, Quot.sound, propext]
City.Props.C108_off: [Classical.choice, Quot.sound, propext]
City.Props.C108_there_and_back: [Classical.choice, Quot.sound, propext]
City.Props.C109_elsewhere_partial: [Classical.choice, Quot.sound, propext]
City.Props.C109_format_partial: [Classical.choice, Quot.sound, propext]
City.Props.C109_order_partial: [Classical.choice, Quot.sound, propext]
City.Props.C109_refuted: [Classical.choice, Quot.sound, propext]
City.Props.C10_area: [Classical.choice, Quot.sound, propext]
City.Props.C10_edges: [Classical.choice, Quot.sound, propext]
City.Props.C10_errors: [Classical.choice, Quot.sound, propext]
City.Props.C10_fan: [Classical.choice, Quot.sound, propext]
City.Props.C10_orientation: [Classical.choice, Quot.sound, propext]
City.Props.C110_aligned_partial: [Classical.choice, Quot.sound, propext]
City.Props.C110_mesh_partial: [Classical.choice, Quot.sound, propext]
City.Props.C110_obj_partial: [Classical.choice, Quot.sound, propext]
City.Props.C110_off_partial: [Classical.choice, Quot.sound, propext]
City.Props.C110_refuted: [Classical.choice, Quot.sound, propext]
City.Props.C110_scene_partial: [Classical.choice, Quot.sound, propext]
City.Props.C110_visible_obj_partial: [Classical.choice, Quot.sound, propext]
City.Props.C110_visible_off_partial: [Classical.choice, Quot.sound, propext]
City.Props.C110_visible_partial: [Classical.choice, Quot.sound, propext]
City.Props.C110_visible_scene_partial: [Classical.choice, Quot.sound, propext]
City.Props.C111_cache_refused: [Classical.choice, Quot.sound, propext]
City.Props.C111_convert: [Classical.choice, Quot.sound, propext]
City.Props.C111_exact: [Classical.choice, Quot.sound, propext]
City.Props.C111_format_exact: [Classical.choice, Quot.sound, propext]
City.Props.C111_format_program: [Classical.choice, Quot.sound, propext]
City.Props.C111_format_refused: [Classical.choice, Quot.sound, propext]
City.Props.C111_format_values: [Classical.choice, Quot.sound, propext]
City.Props.C111_formats_program: [Classical.choice, Quot.sound, propext]
City.Props.C111_formats_values: [Classical.choice, Quot.sound, propext]
City.Props.C111_idle: [Classical.choice, Quot.sound, propext]
City.Props.C111_incomplete: [Classical.choice, Quot.sound, propext]
City.Props.C111_pictures_partial: [Classical.choice, Quot.sound, propext]
City.Props.C111_program: [Classical.choice, Quot.sound, propext]
City.Props.C111_refused: [Classical.choice, Quot.sound, propext]
City.Props.C111_refuted: [Classical.choice, Quot.sound, propext]
City.Props.C111_values: [Classical.choice, Quot.sound, propext]
City.Props.C112_mesh_partial: [Classical.choice, Quot.sound, propext]
City.Props.C112_obj_partial: [Classical.choice, Quot.sound, propext]
City.Props.C112_one_bad: [Classical.choice, Quot.sound, propext]
City.Props.C112_program_partial: [Classical.choice, Quot.sound, propext]
City.Props.C112_refuted: [Classical.choice, Quot.sound, propext]
City.Props.C113_3ds: [Classical.choice, Quot.sound, propext]
City.Props.C113_arguments: [Classical.choice, Quot.sound, propext]
City.Props.C113_bad_size: [Classical.choice, Quot.sound, propext]
City.Props.C113_format: [Classical.choice, Quot.sound, propext]
City.Props.C113_format_3ds: [Classical.choice, Quot.sound, propext]
City.Props.C113_format_message: [Classical.choice, Quot.sound, propext]
City.Props.C113_format_program: [Classical.choice, Quot.sound, propext]
City.Props.C113_format_stderr: [Classical.choice, Quot.sound, propext]
City.Props.C113_formats: [Classical.choice, Quot.sound, propext]
City.Props.C113_message: [Classical.choice, Quot.sound, propext]
City.Props.C113_program: [Classical.choice, Quot.sound, propext]
City.Props.C113_progress: [Classical.choice, Quot.sound, propext]
City.Props.C113_quoted: [Quot.sound, propext]
City.Props.C113_refuted: [Classical.choice, Quot.sound, propext]
City.Props.C113_same: [Classical.choice, Quot.sound, propext]
City.Props.C113_stderr: [Classical.choice, Quot.sound, propext]
City.Props.C114_format_help: [Classical.choice, Quot.sound, propext]
City.Props.C114_format_other: [Classical.choice, Quot.sound, propext]
City.Props.C114_format_version_partial: [Classical.choice, Quot.sound, propext]
City.Props.C114_help: [Classical.choice, Quot.sound, propext]
City.Props.C114_other: [Classical.choice, Quot.sound, propext]
City.Props.C114_refused: [Classical.choice, Quot.sound, propext]
City.Props.C114_refuted: [Classical.choice, Quot.sound, propext]
City.Props.C114_version: [Classical.choice, Quot.sound, propext]
City.Props.C115_done_partial: [Classical.choice, Quot.sound, propext]
City.Props.C115_refuted: [Classical.choice, Quot.sound, propext]
City.Props.C115_silent_partial: [Classical.choice, Quot.sound, propext]
City.Props.C115_vectors_partial: [Classical.choice, Quot.sound, propext]
City.Props.C116_heights_partial: [Classical.choice, Quot.sound, propext]
City.Props.C116_image_partial: [Classical.choice, Quot.sound, propext]
City.Props.C116_refuted: [Classical.choice, Quot.sound, propext]
City.Props.C116_same_partial: [Classical.choice, Quot.sound, propext]
City.Props.C116_visible_partial: [Classical.choice, Quot.sound, propext]
City.Props.C117_format: [Classical.choice, Quot.sound, propext]
City.Props.C117_ortho: [Classical.choice, Quot.sound, propext]
City.Props.C117_programs: [Classical.choice, Quot.sound, propext]
City.Props.C118_alone: [Classical.choice, Quot.sound, propext]
City.Props.C118_conversions: [Classical.choice, Quot.sound, propext]
City.Props.C118_directories: [Classical.choice, Quot.sound, propext]
City.Props.C118_one_directory: [Classical.choice, Quot.sound, propext]
City.Props.C118_order: [Classical.choice, Quot.sound, propext]
City.Props.C119_directory: [Classical.choice, Quot.sound, propext]
City.Props.C119_files: [Classical.choice, Quot.sound, propext]
City.Props.C119_format: [Classical.choice, Quot.sound, propext]
City.Props.C119_ortho: [Classical.choice, Quot.sound, propext]
City.Props.C119_times: [Quot.sound, propext]
City.Props.C11_offset: [Quot.sound, propext]
City.Props.C11_overide_absent: [propext]
City.Props.C11_overide_present: [propext]
City.Props.C120_alone: [Classical.choice, Quot.sound, propext]
City.Props.C120_any_time: [Classical.choice, Quot.sound, propext]
City.Props.C120_end: [Classical.choice, Quot.sound, propext]
City.Props.C120_finishes: [Classical.choice, Quot.sound, propext]
City.Props.C120_one_directory: [Classical.choice, Quot.sound, propext]
City.Props.C120_programs: [Classical.choice, Quot.sound, propext]
City.Props.C121_crashes: [Classical.choice, Quot.sound, propext]
City.Props.C121_files: [Classical.choice, Quot.sound, propext]
City.Props.C121_in_place: [Classical.choice, Quot.sound, propext]
City.Props.C121_no_litter: [Classical.choice, Quot.sound, propext]
City.Props.C121_power_failure: [Classical.choice, Quot.sound, propext]
City.Props.C121_process: [Classical.choice, Quot.sound, propext]
City.Props.C122_ascii: [Classical.choice, Quot.sound, propext]
City.Props.C122_injective: [Classical.choice, Quot.sound, propext]
City.Props.C122_lines: [Classical.choice, Quot.sound, propext]
City.Props.C122_tells: [Classical.choice, Quot.sound, propext]
City.Props.C123_obj: [Classical.choice, Quot.sound, propext]
City.Props.C123_refuted: [Classical.choice, Quot.sound, propext]
City.Props.C123_silent_partial: [Classical.choice, Quot.sound, propext]
City.Props.C124_exact: [Classical.choice, Quot.sound, propext]
City.Props.C124_found_partial: [Classical.choice, Quot.sound, propext]
City.Props.C124_refuted: [Classical.choice, Quot.sound, propext]
City.Props.C124_words: [Classical.choice, Quot.sound, propext]
City.Props.C125_assign: [Classical.choice, Quot.sound, propext]
City.Props.C125_copy: [Classical.choice, Quot.sound, propext]
City.Props.C125_failed_write: [Classical.choice, Quot.sound, propext]
City.Props.C125_owned_partial: [Classical.choice, Quot.sound, propext]
City.Props.C125_reading: [Classical.choice, Quot.sound, propext]
City.Props.C125_refuted: [Classical.choice, Quot.sound, propext]
City.Props.C125_triangles: [Classical.choice, Quot.sound, propext]
City.Props.C125_unreadable: [Classical.choice, Quot.sound, propext]
City.Props.C125_writing: [Classical.choice, Quot.sound, propext]
City.Props.C126_image_read: [Classical.choice, Quot.sound, propext]
City.Props.C126_image_write: [Classical.choice, Quot.sound, propext]
City.Props.C126_read_exact: [Classical.choice, Quot.sound, propext]
City.Props.C126_read_failed: [Classical.choice, Quot.sound, propext]
City.Props.C126_read_partial: [Classical.choice, Quot.sound, propext]
City.Props.C126_refused: [Classical.choice, Quot.sound, propext]
City.Props.C126_refuted: [Classical.choice, Quot.sound, propext]
City.Props.C126_run: [Classical.choice, Quot.sound, propext]
City.Props.C126_same: [Classical.choice, Quot.sound, propext]
City.Props.C126_write_exact: [Classical.choice, Quot.sound, propext]
City.Props.C126_write_partial: [Classical.choice, Quot.sound, propext]
City.Props.C127_again: [Classical.choice, Quot.sound, propext]
City.Props.C127_elsewhere: [Classical.choice, Quot.sound, propext]
City.Props.C127_failures: [Classical.choice, Quot.sound, propext]
City.Props.C127_in_place: [Classical.choice, Quot.sound, propext]
City.Props.C127_killed: [Classical.choice, Quot.sound, propext]
City.Props.C127_no_litter: [Classical.choice, Quot.sound, propext]
City.Props.C127_process: [Classical.choice, Quot.sound, propext]
City.Props.C127_together: [Classical.choice, Quot.sound, propext]
City.Props.C128_bounds: [Classical.choice, Quot.sound, propext]
City.Props.C128_directory_refuted: [Classical.choice, Quot.sound, propext]
City.Props.C128_format: [Classical.choice, Quot.sound, propext]
City.Props.C128_handlers: [Classical.choice, Quot.sound, propext]
City.Props.C128_missing_partial: [Classical.choice, Quot.sound, propext]
City.Props.C128_never: [Classical.choice, Quot.sound, propext]
City.Props.C128_obj_partial: [Classical.choice, Quot.sound, propext]
City.Props.C128_off_partial: [Classical.choice, Quot.sound, propext]
City.Props.C128_refuted: [Classical.choice, Quot.sound, propext]
City.Props.C128_same: [Classical.choice, Quot.sound, propext]
City.Props.C128_same_gis: [Classical.choice, Quot.sound, propext]
City.Props.C128_same_obj: [Classical.choice, Quot.sound, propext]
City.Props.C128_same_off: [Classical.choice, Quot.sound, propext]
City.Props.C128_terrain: [Classical.choice, Quot.sound, propext]
City.Props.C128_which: [Classical.choice, Quot.sound, propext]
City.Props.C12_polygons: [Quot.sound, propext]
City.Props.C12_sizes: [propext]
City.Props.C12_sum: [Quot.sound, propext]
City.Props.C13_assoc: [Quot.sound, propext]
City.Props.C13_equal: [Classical.choice, Quot.sound, propext]
City.Props.C13_identity: [propext]
City.Props.C13_names: [Quot.sound, propext]
City.Props.C14_bbox_partial: [Classical.choice, Quot.sound, propext]
City.Props.C14_constructed: [Classical.choice, Quot.sound, propext]
City.Props.C14_exact: [Classical.choice, Quot.sound, propext]
City.Props.C14_nothing: [Classical.choice, Quot.sound, propext]
City.Props.C14_refuted: [Classical.choice, Quot.sound, propext]
City.Props.C14_sum_from_empty: [propext]
City.Props.C15_eq_iff: [Classical.choice, Quot.sound, propext]
City.Props.C15_equivalence_partial: [Classical.choice, Quot.sound, propext]
City.Props.C15_exact: [Classical.choice, Quot.sound, propext]
City.Props.C15_refuted: [Quot.sound, propext]
City.Props.C16_exact: [Classical.choice, Quot.sound, propext]
City.Props.C16_refuted: [Classical.choice, Quot.sound, propext]
City.Props.C16_tiny_flipped: [Classical.choice, Quot.sound, propext]
City.Props.C16_triangles_partial: [Classical.choice, Quot.sound, propext]
City.Props.C17_defined_partial: [Classical.choice, Quot.sound, propext]
City.Props.C17_exact: [Classical.choice, Quot.sound, propext]
City.Props.C17_exact_degrees: [Classical.choice, Quot.sound, propext]
City.Props.C17_indexes_kept: [Classical.choice, Quot.sound, propext]
City.Props.C17_refuted: [Classical.choice, Quot.sound, propext]
City.Props.C17_undefined: [Classical.choice, Quot.sound, propext]
City.Props.C18_exact: [Classical.choice, Quot.sound, propext]
City.Props.C18_name_undefined: [Classical.choice, Quot.sound, propext]
City.Props.C18_names: [Classical.choice, Quot.sound, propext]
City.Props.C18_newline_in_name: [Classical.choice, Quot.sound, propext]
City.Props.C18_polygons: [Classical.choice, Quot.sound, propext]
City.Props.C18_round_trip: [Classical.choice, Quot.sound, propext]
City.Props.C19_defined_partial: [Classical.choice, Quot.sound, propext]
City.Props.C19_exact: [Classical.choice, Quot.sound, propext]
City.Props.C19_exact_sizes: [Classical.choice, Quot.sound, propext]
City.Props.C19_refuted: [Classical.choice, Quot.sound, propext]
City.Props.C19_written_declared: [Classical.choice, Quot.sound, propext]
City.Props.C20_blank: [Classical.choice, Quot.sound, propext]
City.Props.C20_comments_partial: [Classical.choice, Quot.sound, propext]
City.Props.C20_insert_comment: [Classical.choice, Quot.sound, propext]
City.Props.C20_refuted: [Classical.choice, Quot.sound, propext]
City.Props.C21_content_partial: [Classical.choice, Quot.sound, propext]
City.Props.C21_loose_partial: [Classical.choice, Quot.sound, propext]
City.Props.C21_refuted: [Classical.choice, Quot.sound, propext]
City.Props.C22_idempotent: [Classical.choice, Quot.sound, propext]
City.Props.C22_loss: [Classical.choice, Quot.sound, propext]
City.Props.C22_monotone: [Classical.choice, Quot.sound, propext]
City.Props.C22_nearest: [Classical.choice, Quot.sound, propext]
City.Props.C22_notation: [Classical.choice, Quot.sound, propext]
City.Props.C22_read_back: [Classical.choice, Quot.sound, propext]
City.Props.C22_second_trip: [Classical.choice, Quot.sound, propext]
City.Props.C22_tiny_text: [Classical.choice, Quot.sound, propext]
City.Props.C23_duplicate_names: [Classical.choice, Quot.sound, propext]
City.Props.C23_exact: [Classical.choice, Quot.sound, propext]
City.Props.C23_forged: [Classical.choice, Quot.sound, propext]
City.Props.C23_round_trip: [Classical.choice, Quot.sound, propext]
City.Props.C23_words: [Classical.choice, Quot.sound, propext]
City.Props.C23_words_exact: [Classical.choice, Quot.sound, propext]
City.Props.C24_exact: [Classical.choice, Quot.sound, propext]
City.Props.C24_fixed_partial: [Classical.choice, Quot.sound, propext]
City.Props.C24_refuted: [Classical.choice, Quot.sound, propext]
City.Props.C24_second_trip: [Classical.choice, Quot.sound, propext]
City.Props.C24_second_trip_doubles: [Classical.choice, Quot.sound, propext]
City.Props.C25_compact: [Classical.choice, Quot.sound, propext]
City.Props.C25_zero_index: [Classical.choice, Quot.sound, propext]
City.Props.C26_defined_partial: [Classical.choice, Quot.sound, propext]
City.Props.C26_exact: [Classical.choice, Quot.sound, propext]
City.Props.C26_index_beyond: [Classical.choice, Quot.sound, propext]
City.Props.C26_refuted: [Classical.choice, Quot.sound, propext]
City.Props.C27_indexes_partial: [Classical.choice, Quot.sound, propext]
City.Props.C27_refuted: [Classical.choice, Quot.sound, propext]
City.Props.C28_gis_readers: [Classical.choice, Quot.sound, propext]
City.Props.C28_gis_writers: [Classical.choice, Quot.sound, propext]
City.Props.C28_off_directory: [Classical.choice, Quot.sound, propext]
City.Props.C28_read_partial: [Classical.choice, Quot.sound, propext]
City.Props.C28_refuted_read: [Classical.choice, Quot.sound, propext]
City.Props.C28_refuted_write: [Classical.choice, Quot.sound, propext]
City.Props.C28_scene_off_read: [Classical.choice, Quot.sound, propext]
City.Props.C28_write_partial: [Classical.choice, Quot.sound, propext]
City.Props.C29_scene: [Classical.choice, Quot.sound, propext]
City.Props.C29_separation: [Quot.sound, propext]
City.Props.C30_directory: [Classical.choice, Quot.sound, propext]
City.Props.C30_refuted: [Classical.choice, Quot.sound, propext]
City.Props.C30_round_trip_partial: [Classical.choice, Quot.sound, propext]
City.Props.C30_terrain_name: [Classical.choice, Quot.sound, propext]
City.Props.C31_buildings: [Classical.choice, Quot.sound, propext]
City.Props.C31_formats: [Classical.choice, Quot.sound, propext]
City.Props.C31_names: [Classical.choice, Quot.sound, propext]
City.Props.C31_write_3ds: [Classical.choice, Quot.sound, propext]
City.Props.C32_one_mode: [Classical.choice, Quot.sound, propext]
City.Props.C33_exact: [propext]
City.Props.C33_level_one_iff: [propext]
City.Props.C33_level_one_partial: [propext]
City.Props.C33_level_zero: [propext]
City.Props.C33_no_node: [propext]
City.Props.C33_refuted: []
City.Props.C34_all: [Classical.choice, Quot.sound, propext]
City.Props.C34_first_mesh: [Classical.choice, Quot.sound, propext]
City.Props.C34_first_partial: [Classical.choice, Quot.sound, propext]
City.Props.C34_lookup: [Quot.sound, propext]
City.Props.C34_mesh: [Classical.choice, Quot.sound, propext]
City.Props.C34_no_object: [Classical.choice, Quot.sound, propext]
City.Props.C34_node_meshes_partial: [Classical.choice, Quot.sound, propext]
City.Props.C34_raw_levels_partial: [Classical.choice, Quot.sound, propext]
City.Props.C34_refuted: [Classical.choice, Quot.sound, propext]
City.Props.C34_unknown_name: [Classical.choice, Quot.sound, propext]
City.Props.C35_post_order: [Quot.sound, propext]
City.Props.C35_subtree: [Quot.sound, propext]
City.Props.C36_bad_number: [Classical.choice, Quot.sound, propext]
City.Props.C36_document: [Classical.choice, Quot.sound, propext]
City.Props.C36_epsg_partial: [Classical.choice, Quot.sound, propext]
City.Props.C36_identifiers: [Classical.choice, Quot.sound, propext]
City.Props.C36_missing: [Classical.choice, Quot.sound, propext]
City.Props.C36_pivot: [Classical.choice, Quot.sound, propext]
City.Props.C36_pivot_of_box: [Classical.choice, Quot.sound, propext]
City.Props.C36_refuted: [Classical.choice, Quot.sound, propext]
City.Props.C37_height: [Classical.choice, Quot.sound, propext]
City.Props.C37_height_inexact: [Classical.choice, Quot.sound, propext]
City.Props.C37_vertex: [Classical.choice, Quot.sound, propext]
City.Props.C38_border: [Classical.choice, Quot.sound, propext]
City.Props.C38_heights: [Classical.choice, Quot.sound, propext]
City.Props.C38_plane: [Classical.choice, Quot.sound, propext]
City.Props.C39_area_partial: [Classical.choice, Quot.sound, propext]
City.Props.C39_exact: [Classical.choice, Quot.sound, propext]
City.Props.C39_invariant: [Classical.choice, Quot.sound, propext]
City.Props.C39_refuted: [Classical.choice, Quot.sound, propext]
City.Props.C40_degenerate: [Classical.choice, Quot.sound, propext]
City.Props.C40_degenerate_iff: [Quot.sound, propext]
City.Props.C40_height: [Classical.choice, Quot.sound, propext]
City.Props.C41_eq_iff: [Classical.choice, Quot.sound, propext]
City.Props.C41_equivalence: [Classical.choice, Quot.sound, propext]
City.Props.C41_id: [Quot.sound, propext]
City.Props.C41_same_height: [Classical.choice, Quot.sound, propext]
City.Props.C42_empty: [Quot.sound, propext]
City.Props.C42_exact: [Classical.choice, Quot.sound, propext]
City.Props.C42_plane_iff: [Classical.choice, Quot.sound, propext]
City.Props.C42_refuted: [Classical.choice, Quot.sound, propext]
City.Props.C42_round_trip_partial: [Classical.choice, Quot.sound, propext]
City.Props.C43_exact: [Classical.choice, Quot.sound, propext]
City.Props.C43_orthoprint_partial: [Classical.choice, Quot.sound, propext]
City.Props.C43_refuted: [Classical.choice, Quot.sound, propext]
City.Props.C44_exact: [Classical.choice, Quot.sound, propext]
City.Props.C44_no_new_ground: [Classical.choice, Quot.sound, propext]
City.Props.C44_refuted: [Classical.choice, Quot.sound, propext]
City.Props.C44_union_partial: [Classical.choice, Quot.sound, propext]
City.Props.C45_exact: [Classical.choice, Quot.sound, propext]
City.Props.C45_layers: [Classical.choice, Quot.sound, propext]
City.Props.C45_no_overlap_partial: [Classical.choice, Quot.sound, propext]
City.Props.C45_refuted: [Classical.choice, Quot.sound, propext]
City.Props.C46_apart: [Classical.choice, Quot.sound, propext]
City.Props.C46_envelope_partial: [Classical.choice, Quot.sound, propext]
City.Props.C46_exact: [Classical.choice, Quot.sound, propext]
City.Props.C46_refuted: [Classical.choice, Quot.sound, propext]
City.Props.C46_refuted_double: [Classical.choice, Quot.sound, propext]
City.Props.C46_stack_partial: [Classical.choice, Quot.sound, propext]
City.Props.C46_two_partial: [Classical.choice, Quot.sound, propext]
City.Props.C47_apart: [Classical.choice, Quot.sound, propext]
City.Props.C47_order_partial: [Classical.choice, Quot.sound, propext]
City.Props.C47_refuted: [Classical.choice, Quot.sound, propext]
City.Props.C47_stack_partial: [Classical.choice, Quot.sound, propext]
City.Props.C47_two_partial: [Classical.choice, Quot.sound, propext]
City.Props.C48_eq_iff: [Classical.choice, Quot.sound, propext]
City.Props.C48_equivalence: [Classical.choice, Quot.sound, propext]
City.Props.C48_footprint: [Classical.choice, Quot.sound, propext]
City.Props.C48_footprint_equivalence: [Classical.choice, Quot.sound, propext]
City.Props.C49_add: [Quot.sound, propext]
City.Props.C49_addBrick: [Quot.sound, propext]
City.Props.C49_contains: [Quot.sound, propext]
City.Props.C49_filter: [Quot.sound, propext]
City.Props.C49_history: [Quot.sound, propext]
City.Props.C49_single: [Quot.sound, propext]
City.Props.C50_history: [Classical.choice, Quot.sound, propext]
City.Props.C50_in_place: [Quot.sound, propext]
City.Props.C50_mismatch: [Quot.sound, propext]
City.Props.C50_refuted: [Classical.choice, Quot.sound, propext]
City.Props.C50_sum_partial: [Classical.choice, Quot.sound, propext]
City.Props.C51_defined: [Classical.choice, Quot.sound, propext]
City.Props.C51_grid_defined_partial: [Classical.choice, Quot.sound, propext]
City.Props.C51_grid_partial: [Classical.choice, Quot.sound, propext]
City.Props.C51_indexes: [Classical.choice, Quot.sound, propext]
City.Props.C51_misplaced: [Classical.choice, Quot.sound, propext]
City.Props.C51_node: [Classical.choice, Quot.sound, propext]
City.Props.C51_one_off: [Classical.choice, Quot.sound, propext]
City.Props.C51_refuses: [Classical.choice, Quot.sound, propext]
City.Props.C51_refuted: [Classical.choice, Quot.sound, propext]
City.Props.C51_safe_partial: [Classical.choice, Quot.sound, propext]
City.Props.C51_undefined: [Classical.choice, Quot.sound, propext]
City.Props.C51_unrounded: [Classical.choice, Quot.sound, propext]
City.Props.C51_wrapped: [Classical.choice, Quot.sound, propext]
City.Props.C52_aligned_partial: [Classical.choice, Quot.sound, propext]
City.Props.C52_displaced_partial: [Classical.choice, Quot.sound, propext]
City.Props.C52_height: [Classical.choice, Quot.sound, propext]
City.Props.C52_mean_partial: [Classical.choice, Quot.sound, propext]
City.Props.C52_nothing_lost: [Classical.choice, Quot.sound, propext]
City.Props.C52_order: [Classical.choice, Quot.sound, propext]
City.Props.C52_overflow: [Classical.choice, Quot.sound, propext]
City.Props.C52_overflow_refuted: [Classical.choice, Quot.sound, propext]
City.Props.C52_refuted: [Classical.choice, Quot.sound, propext]
City.Props.C53_inside_partial: [Quot.sound, propext]
City.Props.C53_outside_partial: [Quot.sound, propext]
City.Props.C53_refuted: [Quot.sound, propext]
City.Props.C53_write: [Quot.sound, propext]
City.Props.C54_done: [Classical.choice, Quot.sound, propext]
City.Props.C54_offset: [Classical.choice, Quot.sound, propext]
City.Props.C55_default: [Quot.sound, propext]
City.Props.C55_metadata_partial: [Quot.sound, propext]
City.Props.C55_not_transitive: [Classical.choice, Quot.sound, propext]
City.Props.C55_refl_symm_partial: [Classical.choice, Quot.sound, propext]
City.Props.C55_refuted: [Classical.choice, Quot.sound, propext]
City.Props.C56_epsg_refuted: [Classical.choice, Quot.sound, propext]
City.Props.C56_exact: [Classical.choice, Quot.sound, propext]
City.Props.C56_partial: [Classical.choice, Quot.sound, propext]
City.Props.C56_refused: [Quot.sound, propext]
City.Props.C56_refuted: [Classical.choice, Quot.sound, propext]
City.Props.C57_matrix: [Classical.choice, Quot.sound, propext]
City.Props.C57_symmetric: [Classical.choice, Quot.sound, propext]
City.Props.C58_history: [Classical.choice, Quot.sound, propext]
City.Props.C58_idempotent: [Classical.choice, Quot.sound, propext]
City.Props.C58_ids: [Classical.choice, Quot.sound, propext]
City.Props.C58_prune: [Classical.choice, Quot.sound, propext]
City.Props.C59_conserves: [Classical.choice, Quot.sound, propext]
City.Props.C59_coplanar: [Classical.choice, Quot.sound, propext]
City.Props.C59_exact: [Classical.choice, Quot.sound, propext]
City.Props.C59_fold_refuted: [Classical.choice, Quot.sound, propext]
City.Props.C59_join: [Classical.choice, Quot.sound, propext]
City.Props.C59_prune_partial: [Classical.choice, Quot.sound, propext]
City.Props.C59_refuted: [Classical.choice, Quot.sound, propext]
City.Props.C59_ring_refuted: [Classical.choice, Quot.sound, propext]
City.Props.C59_terminates: [Classical.choice, Quot.sound, propext]
City.Props.C60_compose: [Classical.choice, Quot.sound, propext]
City.Props.C60_distances: [Quot.sound, propext]
City.Props.C60_maps_partial: [Quot.sound, propext]
City.Props.C60_matrix: [Classical.choice, Quot.sound, propext]
City.Props.C60_refuted: [Classical.choice, Quot.sound, propext]
City.Props.C60_rotate_undefined: [Classical.choice, Quot.sound, propext]
City.Props.C61_box_partial: [Quot.sound, propext]
City.Props.C61_copy: [Quot.sound, propext]
City.Props.C61_empty: [Quot.sound, propext]
City.Props.C61_prune: [Quot.sound, propext]
City.Props.C61_refuted: [Classical.choice, Quot.sound, propext]
City.Props.C61_scale_iff: [Classical.choice, Quot.sound, propext]
City.Props.C61_translate_iff: [Classical.choice, Quot.sound, propext]
City.Props.C62_check_partial: [Classical.choice, Quot.sound, propext]
City.Props.C62_extrem: [Classical.choice, Quot.sound, propext]
City.Props.C62_members: [Classical.choice, Quot.sound, propext]
City.Props.C62_refuted: [Classical.choice, Quot.sound, propext]
City.Props.C63_area: [Classical.choice, Quot.sound, propext]
City.Props.C63_area_transform: [Classical.choice, Quot.sound, propext]
City.Props.C63_centroid_partial: [Classical.choice, Quot.sound, propext]
City.Props.C63_iff: [Classical.choice, Quot.sound, propext]
City.Props.C63_inside: [Classical.choice, Quot.sound, propext]
City.Props.C63_polygon: [Classical.choice, Quot.sound, propext]
City.Props.C63_refuted: [Classical.choice, Quot.sound, propext]
City.Props.C63_total_area: [Classical.choice, Quot.sound, propext]
City.Props.C63_total_area_ub: [Classical.choice, Quot.sound, propext]
City.Props.C63_translate: [Classical.choice, Quot.sound, propext]
City.Props.C64_facet: [Classical.choice, Quot.sound, propext]
City.Props.C64_polygon: [Classical.choice, Quot.sound, propext]
City.Props.C64_refuted: [Classical.choice, Quot.sound, propext]
City.Props.C64_start: [Classical.choice, Quot.sound, propext]
City.Props.C64_total_partial: [Classical.choice, Quot.sound, propext]
City.Props.C64_transform: [Classical.choice, Quot.sound, propext]
City.Props.C64_translate: [Classical.choice, Quot.sound, propext]
City.Props.C65_dual: [Classical.choice, Quot.sound, propext]
City.Props.C65_failure: [Quot.sound, propext]
City.Props.C65_injective: [Classical.choice, Quot.sound, propext]
City.Props.C65_matrix: [Classical.choice, Quot.sound, propext]
City.Props.C65_never_refused: [Classical.choice, Quot.sound, propext]
City.Props.C66_footprints: [Classical.choice, Quot.sound, propext]
City.Props.C66_projection: [Classical.choice, Quot.sound, propext]
City.Props.C66_prune: [Quot.sound, propext]
City.Props.C66_rasters: [Classical.choice, Quot.sound, propext]
City.Props.C66_scene: [Classical.choice, Quot.sound, propext]
City.Props.C66_sum: [Quot.sound, propext]
City.Props.C67_failure_unreported: [Classical.choice, Quot.sound, propext]
City.Props.C67_format_confined: [Classical.choice, Quot.sound, propext]
City.Props.C67_format_without_output: [Classical.choice, Quot.sound, propext]
City.Props.C67_ortho_confined: [Classical.choice, Quot.sound, propext]
City.Props.C67_ortho_nothing: [Classical.choice, Quot.sound, propext]
City.Props.C67_refuted: [Classical.choice, Quot.sound, propext]
City.Props.C67_refuted_rasterize: [Classical.choice, Quot.sound, propext]
City.Props.C67_status: [Classical.choice, Quot.sound, propext]
City.Props.C68_attributes: [Quot.sound, propext]
City.Props.C68_blocked: [Classical.choice, Quot.sound, propext]
City.Props.C68_duals_last: [Classical.choice, Quot.sound, propext]
City.Props.C68_duals_partial: [Classical.choice, Quot.sound, propext]
City.Props.C68_first_failure: [Classical.choice, Quot.sound, propext]
City.Props.C68_prints_last: [Classical.choice, Quot.sound, propext]
City.Props.C68_prints_partial: [Classical.choice, Quot.sound, propext]
City.Props.C68_rasters_last: [Classical.choice, Quot.sound, propext]
City.Props.C68_rasters_partial: [Classical.choice, Quot.sound, propext]
City.Props.C68_refuted: [Classical.choice, Quot.sound, propext]
City.Props.C69_raster_partial: [Classical.choice, Quot.sound, propext]
City.Props.C69_refuted: [Classical.choice, Quot.sound, propext]
City.Props.C69_vector_partial: [Classical.choice, Quot.sound, propext]
City.Props.C70_fresh: [Classical.choice, Quot.sound, propext]
City.Props.C70_raster_partial: [Classical.choice, Quot.sound, propext]
City.Props.C70_refused: [Classical.choice, Quot.sound, propext]
City.Props.C70_refuted: [Classical.choice, Quot.sound, propext]
City.Props.C70_vector_partial: [Classical.choice, Quot.sound, propext]
City.Props.C71_area: [Quot.sound, propext]
City.Props.C71_circumference_partial: [Quot.sound, propext]
City.Props.C71_exact: [Classical.choice, Quot.sound, propext]
City.Props.C71_refuted: [Classical.choice, Quot.sound, propext]
City.Props.C71_simple_partial: [Quot.sound, propext]
City.Props.C72_closed: [Classical.choice, Quot.sound, propext]
City.Props.C72_corners: [Classical.choice, Quot.sound, propext]
City.Props.C72_mesh: [Classical.choice, Quot.sound, propext]
City.Props.C73_closed: [Classical.choice, Quot.sound, propext]
City.Props.C73_equal: [Classical.choice, Quot.sound, propext]
City.Props.C73_idempotent: [Classical.choice, Quot.sound, propext]
City.Props.C73_node: [Classical.choice, Quot.sound, propext]
City.Props.C73_round_trip: [Classical.choice, Quot.sound, propext]
City.Props.C74_combinable_exact: [Classical.choice, Quot.sound, propext]
City.Props.C74_combinable_partial: [Classical.choice, Quot.sound, propext]
City.Props.C74_exact: [Classical.choice, Quot.sound, propext]
City.Props.C74_once_partial: [Classical.choice, Quot.sound, propext]
City.Props.C74_pruning_exact: [Classical.choice, Quot.sound, propext]
City.Props.C74_pruning_partial: [Classical.choice, Quot.sound, propext]
City.Props.C74_refuted: [Classical.choice, Quot.sound, propext]
City.Props.C75_closed: [Classical.choice, Quot.sound, propext]
City.Props.C75_exact_partial: [Classical.choice, Quot.sound, propext]
City.Props.C75_refuted: [Classical.choice, Quot.sound, propext]
City.Props.C75_too_long: [Classical.choice, Quot.sound, propext]
City.Props.C76_bbox: [Quot.sound, propext]
City.Props.C76_brick: [Quot.sound, propext]
City.Props.C76_camera: [Quot.sound, propext]
City.Props.C76_face: [Quot.sound, propext]
City.Props.C76_face_print: [Quot.sound, propext]
City.Props.C76_footprint: [Quot.sound, propext]
City.Props.C76_mesh_assign_exact: [Quot.sound, propext]
City.Props.C76_mesh_partial: [Quot.sound, propext]
City.Props.C76_node: [Quot.sound, propext]
City.Props.C76_raster: [Quot.sound, propext]
City.Props.C76_refuted: [Quot.sound, propext]
City.Props.C76_scene: [Quot.sound, propext]
City.Props.C76_vec: [Classical.choice, Quot.sound, propext]
City.Props.C77_bbox: [Quot.sound, propext]
City.Props.C77_brick_partial: [Classical.choice, Quot.sound, propext]
City.Props.C77_cross_new: [Quot.sound, propext]
City.Props.C77_cross_partial: [Quot.sound, propext]
City.Props.C77_cross_self_exact_partial: [Quot.sound, propext]
City.Props.C77_cross_self_iff_partial: [Quot.sound, propext]
City.Props.C77_footprint_partial: [Classical.choice, Quot.sound, propext]
City.Props.C77_mesh_partial: [Quot.sound, propext]
City.Props.C77_mesh_self_ub_partial: [propext]
City.Props.C77_plus_new: [Classical.choice, Quot.sound, propext]
City.Props.C77_refuted: [Classical.choice, Quot.sound, propext]
City.Props.C77_refuted_brick: [Classical.choice, Quot.sound, propext]
City.Props.C77_refuted_mesh: [Quot.sound, propext]
City.Props.C77_vec: [Quot.sound, propext]
City.Props.C78_agree_partial: [Classical.choice, Quot.sound, propext]
City.Props.C78_domain: [Classical.choice, Quot.sound, propext]
City.Props.C78_in_domain: [Quot.sound, propext]
City.Props.C78_inexact: [Classical.choice, Quot.sound, propext]
City.Props.C78_refuted: [Classical.choice, Quot.sound, propext]
City.Props.C79_empty: [Classical.choice, Quot.sound, propext]
City.Props.C79_refuted: [Classical.choice, Quot.sound, propext]
City.Props.C79_refuted_empty: [Classical.choice, Quot.sound, propext]
City.Props.C79_short: [Classical.choice, Quot.sound, propext]
City.Props.C79_text_partial: [Classical.choice, Quot.sound, propext]
City.Props.C80_default: [Classical.choice, Quot.sound, propext]
City.Props.C80_orientation: [Classical.choice, Quot.sound, propext]
City.Props.C80_refuted: [Classical.choice, Quot.sound, propext]
City.Props.C80_still_partial: [Classical.choice, Quot.sound, propext]
City.Props.C80_undefined: [Classical.choice, Quot.sound, propext]
City.Props.C81_obj_crlf: [Classical.choice, Quot.sound, propext]
City.Props.C81_obj_exact: [Classical.choice, Quot.sound, propext]
City.Props.C81_obj_first: [Classical.choice, Quot.sound, propext]
City.Props.C81_obj_partial: [Classical.choice, Quot.sound, propext]
City.Props.C81_off_crlf: [Classical.choice, Quot.sound, propext]
City.Props.C81_off_partial: [Classical.choice, Quot.sound, propext]
City.Props.C81_refuted: [Classical.choice, Quot.sound, propext]
City.Props.C82_3ds_partial: [Classical.choice, Quot.sound, propext]
City.Props.C82_obj_partial: [Classical.choice, Quot.sound, propext]
City.Props.C82_off_partial: [Classical.choice, Quot.sound, propext]
City.Props.C82_off_read_back: [Classical.choice, Quot.sound, propext]
City.Props.C82_refuted: [Classical.choice, Quot.sound, propext]
City.Props.C83_data: [Classical.choice, Quot.sound, propext]
City.Props.C83_files: [Classical.choice, Quot.sound, propext]
City.Props.C83_nothing_lost: [Classical.choice, Quot.sound, propext]
City.Props.C83_read: [Classical.choice, Quot.sound, propext]
City.Props.C83_refuted: [Classical.choice, Quot.sound, propext]
City.Props.C83_scene: [Classical.choice, Quot.sound, propext]
City.Props.C83_write_partial: [Classical.choice, Quot.sound, propext]
City.Props.C84_document_exact: [Classical.choice, Quot.sound, propext]
City.Props.C84_document_partial: [Classical.choice, Quot.sound, propext]
City.Props.C84_levels_exact: [Classical.choice, Quot.sound, propext]
City.Props.C84_levels_partial: [Classical.choice, Quot.sound, propext]
City.Props.C84_refuted: [Classical.choice, Quot.sound, propext]
City.Props.C84_refuted_names: [Classical.choice, Quot.sound, propext]
City.Props.C85_annex_refuted: [Classical.choice, Quot.sound, propext]
City.Props.C85_refuted: [Classical.choice, Quot.sound, propext]
City.Props.C85_round_trip_partial: [Classical.choice, Quot.sound, propext]
City.Props.C85_words_partial: [Classical.choice, Quot.sound, propext]
City.Props.C86_exact: [Classical.choice, Quot.sound, propext]
City.Props.C86_format_obj: [Classical.choice, Quot.sound, propext]
City.Props.C86_format_off: [Classical.choice, Quot.sound, propext]
City.Props.C86_ortho: [Classical.choice, Quot.sound, propext]
City.Props.C87_all_or_nothing: [Classical.choice, Quot.sound, propext]
City.Props.C87_holes: [Classical.choice, Quot.sound, propext]
City.Props.C87_none: [Quot.sound, propext]
City.Props.C87_one: [Classical.choice, Quot.sound, propext]
City.Props.C87_order: [Classical.choice, Quot.sound, propext]
City.Props.C87_pinched: [Classical.choice, Quot.sound, propext]
City.Props.C87_refuted: [Classical.choice, Quot.sound, propext]
City.Props.C87_stitched: [Classical.choice, Quot.sound, propext]
City.Props.C87_union_partial: [Classical.choice, Quot.sound, propext]
City.Props.C88_cross_self: [Classical.choice, Quot.sound, propext]
City.Props.C88_det_exact_partial: [Classical.choice, Quot.sound, propext]
City.Props.C88_dot_error: [Classical.choice, Quot.sound, propext]
City.Props.C88_equal: [propext]
City.Props.C88_exact_partial: [Classical.choice, Quot.sound, propext]
City.Props.C88_refuted: [Classical.choice, Quot.sound, propext]
City.Props.C88_refuted_each: [Classical.choice, Quot.sound, propext]
City.Props.C88_scale_error: [Classical.choice, Quot.sound, propext]
City.Props.C88_scale_exact_partial: [Classical.choice, Quot.sound, propext]
City.Props.C88_symmetry: [Classical.choice, Quot.sound, propext]
City.Props.C88_translation_partial: [Classical.choice, Quot.sound, propext]
City.Props.C89_grid_partial: [Classical.choice, Quot.sound, propext]
City.Props.C89_refuted: [Classical.choice, Quot.sound, propext]
City.Props.C89_refuted_each: [Classical.choice, Quot.sound, propext]
City.Props.C89_reverse: [Classical.choice, Quot.sound, propext]
City.Props.C89_robust_partial: [Classical.choice, Quot.sound, propext]
City.Props.C89_unit_partial: [Classical.choice, Quot.sound, propext]
City.Props.C89_zero: [Classical.choice, Quot.sound, propext]
City.Props.C90_convex_partial: [Classical.choice, Quot.sound, propext]
City.Props.C90_errors: [Classical.choice, Quot.sound, propext]
City.Props.C90_grid_partial: [Classical.choice, Quot.sound, propext]
City.Props.C90_nan: [Classical.choice, Quot.sound, propext]
City.Props.C90_refuted: [Classical.choice, Quot.sound, propext]
City.Props.C90_refuted_each: [Classical.choice, Quot.sound, propext]
City.Props.C90_robust_partial: [Classical.choice, Quot.sound, propext]
City.Props.C91_coordinate: [Classical.choice, Quot.sound, propext]
City.Props.C91_determinant_partial: [Classical.choice, Quot.sound, propext]
City.Props.C91_grid_determinant_partial: [Classical.choice, Quot.sound, propext]
City.Props.C91_grid_orientation_partial: [Classical.choice, Quot.sound, propext]
City.Props.C91_grid_partial: [Classical.choice, Quot.sound, propext]
City.Props.C91_grid_triangles_partial: [Classical.choice, Quot.sound, propext]
City.Props.C91_nonfinite_turned: [Classical.choice, Quot.sound, propext]
City.Props.C91_orientation_partial: [Classical.choice, Quot.sound, propext]
City.Props.C91_points_stable: [Classical.choice, Quot.sound, propext]
City.Props.C91_refused: [Classical.choice, Quot.sound, propext]
City.Props.C91_refuted: [Classical.choice, Quot.sound, propext]
City.Props.C91_refuted_each: [Classical.choice, Quot.sound, propext]
City.Props.C91_robust_determinant_partial: [Classical.choice, Quot.sound, propext]
City.Props.C91_robust_orientation_partial: [Classical.choice, Quot.sound, propext]
City.Props.C91_robust_partial: [Classical.choice, Quot.sound, propext]
City.Props.C91_shape: [Classical.choice, Quot.sound, propext]
City.Props.C91_triangles_partial: [Classical.choice, Quot.sound, propext]
City.Props.C92_cut_partial: [Classical.choice, Quot.sound, propext]
City.Props.C92_index_lost: [Classical.choice, Quot.sound, propext]
City.Props.C92_last_break: [Classical.choice, Quot.sound, propext]
City.Props.C92_lines_partial: [Classical.choice, Quot.sound, propext]
City.Props.C92_point_lost: [Classical.choice, Quot.sound, propext]
City.Props.C92_refused_partial: [Classical.choice, Quot.sound, propext]
City.Props.C92_refuted: [Classical.choice, Quot.sound, propext]
City.Props.C93_box: [Classical.choice, Quot.sound, propext]
City.Props.C93_names: [Classical.choice, Quot.sound, propext]
City.Props.C93_reads_as_off: [Classical.choice, Quot.sound, propext]
City.Props.C93_refuted: [Classical.choice, Quot.sound, propext]
City.Props.C93_round_trip_partial: [Classical.choice, Quot.sound, propext]
City.Props.C93_tells_apart_partial: [Classical.choice, Quot.sound, propext]
City.Props.C94_dual_calls: [Classical.choice, Quot.sound, propext]
City.Props.C94_dual_crash: [Classical.choice, Quot.sound, propext]
City.Props.C94_obj_calls: [Classical.choice, Quot.sound, propext]
City.Props.C94_obj_crash: [Classical.choice, Quot.sound, propext]
City.Props.C94_off_calls: [Classical.choice, Quot.sound, propext]
City.Props.C94_off_crash: [Classical.choice, Quot.sound, propext]
City.Props.C94_off_read_partial: [Classical.choice, Quot.sound, propext]
City.Props.C94_old_lost: [Classical.choice, Quot.sound, propext]
City.Props.C94_refuted: [Classical.choice, Quot.sound, propext]
City.Props.C94_scene_calls: [Classical.choice, Quot.sound, propext]
City.Props.C94_scene_crash: [Classical.choice, Quot.sound, propext]
City.Props.C94_scene_mixed_partial: [Classical.choice, Quot.sound, propext]
City.Props.C94_scene_read_partial: [Classical.choice, Quot.sound, propext]
City.Props.C95_cut_partial: [Classical.choice, Quot.sound, propext]
City.Props.C95_lines_partial: [Classical.choice, Quot.sound, propext]
City.Props.C95_lost: [Classical.choice, Quot.sound, propext]
City.Props.C95_refuted: [Classical.choice, Quot.sound, propext]
City.Props.C96_above_partial: [Classical.choice, Quot.sound, propext]
City.Props.C96_below_partial: [Classical.choice, Quot.sound, propext]
City.Props.C96_contains_face: [Classical.choice, Quot.sound, propext]
City.Props.C96_height: [Quot.sound, propext]
City.Props.C96_overlaps: [Classical.choice, Quot.sound, propext]
City.Props.C96_point: [Quot.sound, propext]
City.Props.C96_refuted: [Classical.choice, Quot.sound, propext]
City.Props.C96_refuted_elsewhere: [Classical.choice, Quot.sound, propext]
City.Props.C96_same_polygon: [Classical.choice, Quot.sound, propext]
City.Props.C96_under: [Classical.choice, Quot.sound, propext]
City.Props.C97_agree_partial: [Classical.choice, Quot.sound, propext]
City.Props.C97_dual_alone: [Classical.choice, Quot.sound, propext]
City.Props.C97_finishes: [Classical.choice, Quot.sound, propext]
City.Props.C97_isolated_partial: [Quot.sound, propext]
City.Props.C97_mixed: [Classical.choice, Quot.sound, propext]
City.Props.C97_read_partial: [Classical.choice, Quot.sound, propext]
City.Props.C97_refuted: [Classical.choice, Quot.sound, propext]
City.Props.C97_scene_alone: [Classical.choice, Quot.sound, propext]
City.Props.C97_scenes_partial: [Classical.choice, Quot.sound, propext]
City.Props.C98_above: [Classical.choice, Quot.sound, propext]
City.Props.C98_flat_partial: [Classical.choice, Quot.sound, propext]
City.Props.C98_height: [Classical.choice, Quot.sound, propext]
City.Props.C98_pixel_partial: [Classical.choice, Quot.sound, propext]
City.Props.C98_plane: [Classical.choice, Quot.sound, propext]
City.Props.C98_refuted: [Classical.choice, Quot.sound, propext]
City.Props.C98_unrounded: [Classical.choice, Quot.sound, propext]
City.Props.C99_duals: [Classical.choice, Quot.sound, propext]
City.Props.C99_obj: [Classical.choice, Quot.sound, propext]
City.Props.C99_obj_read: [Classical.choice, Quot.sound, propext]
City.Props.C99_off: [Classical.choice, Quot.sound, propext]
City.Props.C99_scene: [Classical.choice, Quot.sound, propext]
City.Props.C99_scene_read: [Classical.choice, Quot.sound, propext]
