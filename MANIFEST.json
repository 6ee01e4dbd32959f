{
 "claims": [
  {
   "property": "C01",
   "status": "proved",
   "theorems": [
    "Tatc.Props.C01_components",
    "Tatc.Props.C01_components_unique"
   ],
   "note": "for every frame and every sort returning an ordered permutation"
  },
  {
   "property": "C02",
   "status": "proved",
   "theorems": [
    "Tatc.Props.C02_partition"
   ],
   "note": "mean epoch is exact; float rounding of the mean not modelled"
  },
  {
   "property": "C03",
   "status": "proved",
   "theorems": [
    "Tatc.Props.C03_access_revisit"
   ],
   "note": ""
  },
  {
   "property": "C04",
   "status": "proved",
   "theorems": [
    "Tatc.Props.C04_order_independent"
   ],
   "note": ""
  },
  {
   "property": "C05",
   "status": "proved",
   "theorems": [
    "Tatc.Props.C05_idempotent"
   ],
   "note": ""
  },
  {
   "property": "C06",
   "status": "proved",
   "theorems": [
    "Tatc.Props.C06_reduce",
    "Tatc.Props.C06_revisit_missing_iff"
   ],
   "note": ""
  },
  {
   "property": "C07",
   "status": "partial",
   "theorems": [
    "Tatc.Props.C07_weighted_mean_false",
    "Tatc.Props.C07_key_error",
    "Tatc.Props.C07_weighted_mean_partial"
   ],
   "note": "Full statement is false of the code: the weights are looked up in the reduced frame by the row label of the cell instead of the point's own row label. Refutation and the case where the lookup is harmless are proved."
  },
  {
   "property": "C08",
   "status": "partial",
   "theorems": [
    "Tatc.Props.C08_visible_exact_partial",
    "Tatc.Props.C08_visible_disjoint",
    "Tatc.Props.C08_visible_exact_false"
   ],
   "note": "False when a satellite is visible through the whole window and no culmination falls in it (no event, no interval). Proved for every signal otherwise."
  },
  {
   "property": "C09",
   "status": "proved",
   "theorems": [
    "Tatc.Props.C09_well_formed"
   ],
   "note": ""
  },
  {
   "property": "C10",
   "status": "partial",
   "theorems": [
    "Tatc.Props.C10_collect",
    "Tatc.Props.C10_fixed_access_partial",
    "Tatc.Props.C10_fixed_access_exact",
    "Tatc.Props.C10_fixed_access_false"
   ],
   "note": "False for fixed access times of an odd number of microseconds (half is rounded to even); exact for even, within 1 microsecond always."
  },
  {
   "property": "C11",
   "status": "partial",
   "theorems": [
    "Tatc.Props.C11_multi_partial",
    "Tatc.Props.C11_multi_false",
    "Tatc.Props.C11_empty_list_raises"
   ],
   "note": "Proved for every list with at least one member and instrument. For an empty list the code raises ValueError instead of returning an empty frame."
  },
  {
   "property": "C12",
   "status": "partial",
   "theorems": [
    "Tatc.Props.C12_earliest_downlink_partial",
    "Tatc.Props.C12_earliest_downlink_false"
   ],
   "note": "False for an empty downlink frame (observations are dropped); proved for every non-empty one."
  },
  {
   "property": "C13",
   "status": "proved",
   "theorems": [
    "Tatc.Props.C13_latency"
   ],
   "note": ""
  },
  {
   "property": "C14",
   "status": "proved",
   "theorems": [
    "Tatc.Props.C14_monotone",
    "Tatc.Props.C14_latency_value_false"
   ],
   "note": "The downlink start is monotone; the reported latency value is not (C14_latency_value_false)."
  },
  {
   "property": "C15",
   "status": "proved",
   "theorems": [
    "Tatc.Props.C15_reduce"
   ],
   "note": ""
  },
  {
   "property": "C16",
   "status": "proved",
   "theorems": [
    "Tatc.Props.C16_closest",
    "Tatc.Props.C16_closest_list"
   ],
   "note": "epochs in chronological order, as validated at construction"
  },
  {
   "property": "C17",
   "status": "partial",
   "theorems": [
    "Tatc.Props.C17_partition_false",
    "Tatc.Props.C17_times_partial",
    "Tatc.Props.C17_first_part_partial",
    "Tatc.Props.C17_later_parts_off_by_one"
   ],
   "note": "False of the code: every part after the first is served by the element set before the nearest one (C17_later_parts_off_by_one: the nearest is always index+1). Times and the first part are right, the first part unless start is itself a midpoint."
  },
  {
   "property": "C18",
   "status": "proved",
   "theorems": [
    "Tatc.Props.C18_accepted_iff",
    "Tatc.Props.C18_unchanged",
    "Tatc.Props.C18_odd_index_error"
   ],
   "note": "Reading the epoch from the lines (sgp4) is a parameter. A list with an odd number of lines is rejected, but with IndexError from a validator instead of a validation error."
  },
  {
   "property": "C19",
   "status": "proved",
   "theorems": [
    "Tatc.Props.C19_digit_changed",
    "Tatc.Props.C19_not_constructed"
   ],
   "note": ""
  },
  {
   "property": "C20",
   "status": "partial",
   "theorems": [
    "Tatc.Props.C20_written_accepted",
    "Tatc.Props.C20_round_trip_partial",
    "Tatc.Props.C20_negative_false"
   ],
   "note": "Every field but the epoch (C138). Drag term and second derivative are read back only when non-negative: a negative one raises ValueError (C20_negative_false)."
  },
  {
   "property": "C21",
   "status": "partial",
   "theorems": [
    "Tatc.Props.C21_readable_false",
    "Tatc.Props.C21_readable_partial"
   ],
   "note": "False: negative drag terms and catalog numbers with a letter are accepted and raise when read. Proved for the standard layout with non-negative terms."
  },
  {
   "property": "C22",
   "status": "partial",
   "theorems": [
    "Tatc.Props.C22_cached_partial",
    "Tatc.Props.C22_not_lazy_partial",
    "Tatc.Props.C22_assignment_false"
   ],
   "note": "False after attribute assignment (the cached value is kept). Proved for histories without assignment, and for any history without lazy loading."
  },
  {
   "property": "C23",
   "status": "partial",
   "theorems": [
    "Tatc.Props.C23_repeat_cycle_partial",
    "Tatc.Props.C23_repeat_cycle_false"
   ],
   "note": "False: with lazy loading the first answer is returned whatever the later arguments are."
  },
  {
   "property": "C24",
   "status": "proved",
   "theorems": [
    "Tatc.Props.C24_repeat_time"
   ],
   "note": ""
  },
  {
   "property": "C25",
   "status": "proved",
   "theorems": [
    "Tatc.Props.C25_repeat_events",
    "Tatc.Props.C25_rounded_events",
    "Tatc.Props.C25_rounded_events_false"
   ],
   "note": "Rounding the quotient under ceil changes nothing for windows shorter than 285 years (C25_rounded_events; beyond, an event can be lost). Events found in one cycle lie after its start (an event exactly at the start would be repeated at every boundary)"
  },
  {
   "property": "C26",
   "status": "proved",
   "theorems": [
    "Tatc.Props.C26_multi_events"
   ],
   "note": "which element set serves a part is C17"
  },
  {
   "property": "C27",
   "status": "proved",
   "theorems": [
    "Tatc.Props.C27_walker_names",
    "Tatc.Props.C27_train_names",
    "C27_mog_names"
   ],
   "note": ""
  },
  {
   "property": "C28",
   "status": "partial",
   "theorems": [
    "Tatc.Props.C28_planes_partial",
    "Tatc.Props.C28_every_plane_iff_partial",
    "Tatc.Props.C28_even_planes",
    "Tatc.Props.C28_every_plane_false"
   ],
   "note": "False: e.g. 5 satellites in 4 planes leave the last plane empty. The exact number of members of every plane is proved, and that every plane is used exactly when (p-1)*ceil(n/p) < n. Rounding of the quotient under ceil: C141."
  },
  {
   "property": "C29",
   "status": "partial",
   "theorems": [
    "Tatc.Props.C29_pattern_partial",
    "Tatc.Props.C29_keplerian_false"
   ],
   "note": "Proved for circular, sun-synchronous and element-set leads. False of the reported mean anomalies for an eccentric lead (the truncated anomaly series are not inverse)."
  },
  {
   "property": "C30",
   "status": "proved",
   "theorems": [
    "Tatc.Props.C30_accepted_iff",
    "Tatc.Props.C30_values"
   ],
   "note": ""
  },
  {
   "property": "C31",
   "status": "proved",
   "theorems": [
    "Tatc.Props.C31_circular",
    "Tatc.Props.C31_sso",
    "Tatc.Props.C31_compose",
    "Tatc.Props.C31_sso_compose",
    "Tatc.Props.C31_zero"
   ],
   "note": "exact real arithmetic (in double precision see C140); the sun's right ascension is a parameter"
  },
  {
   "property": "C32",
   "status": "partial",
   "theorems": [
    "Tatc.Props.C32_derived_valid_partial",
    "Tatc.Props.C32_derived_valid_false"
   ],
   "note": "Proved for eccentricities up to one. The schema accepts larger ones, and there deriving can fail validation."
  },
  {
   "property": "C33",
   "status": "partial",
   "theorems": [
    "Tatc.Props.C33_molniya_partial",
    "Tatc.Props.C33_tundra_partial",
    "Tatc.Props.C33_period_false"
   ],
   "note": "False: the orbital period is not passed on, so a derived orbit has the default period."
  },
  {
   "property": "C34",
   "status": "proved",
   "theorems": [
    "Tatc.Props.C34_ground_track"
   ],
   "note": "the rate is that of the element set, or one revolution per Keplerian period to half a microsecond (Goes); the Earth turns 360 degrees per day as in the code"
  },
  {
   "property": "C35",
   "status": "proved",
   "theorems": [
    "Tatc.Props.C35_terminates",
    "Tatc.Props.C35_answer",
    "Tatc.Props.C35_member"
   ],
   "note": "exact real arithmetic"
  },
  {
   "property": "C36",
   "status": "partial",
   "theorems": [
    "C36_geometry",
    "C36_generated",
    "C36_generated_false"
   ],
   "note": "Proved for every group that is generated, and that groups with eccentricity below one whose planes are not turned right over are generated. A member turned right over (inclination exactly 180) is refused by validation."
  },
  {
   "property": "C37",
   "status": "proved",
   "theorems": [
    "Tatc.Props.C37_streets"
   ],
   "note": "exact real arithmetic"
  },
  {
   "property": "C38",
   "status": "proved",
   "theorems": [
    "Tatc.Props.C38_lattice",
    "Tatc.Props.C38_last_gap"
   ],
   "note": "exact real arithmetic"
  },
  {
   "property": "C39",
   "status": "partial",
   "theorems": [
    "Tatc.Props.C39_mask_partial",
    "Tatc.Props.C39_mask_false"
   ],
   "note": "Proved for masks whose longitudes lie on one side of the shift made for masks beyond 180 degrees; false for a mask from -60 to 190."
  },
  {
   "property": "C40",
   "status": "partial",
   "theorems": [
    "Tatc.Props.C40_points_partial",
    "Tatc.Props.C40_cells_partial",
    "Tatc.Props.C40_strips_partial",
    "Tatc.Props.C40_points_false"
   ],
   "note": "Without a mask unique exactly when 360 degrees is at most half a step above a whole number of steps; with a mask proved when it is at least one step narrower than the full turn."
  },
  {
   "property": "C41",
   "status": "proved",
   "theorems": [
    "Tatc.Props.C41_points",
    "Tatc.Props.C41_step"
   ],
   "note": "exact real arithmetic; clipping keeps just the points in the mask"
  },
  {
   "property": "C42",
   "status": "partial",
   "theorems": [
    "Tatc.Props.C42_mask_sound",
    "Tatc.Props.C42_mask_partial",
    "Tatc.Props.C42_mask_false"
   ],
   "note": "Proved when no grid centre lies on a side of the bounding box of the mask; on a side the rounding may lose it. Up to order, which clipping does not promise."
  },
  {
   "property": "C43",
   "status": "proved",
   "theorems": [
    "Tatc.Props.C43_cells"
   ],
   "note": "cells without a mask and without strips"
  },
  {
   "property": "C44",
   "status": "partial",
   "theorems": [
    "Tatc.Props.C44_area",
    "Tatc.Props.C44_monotone_partial",
    "Tatc.Props.C44_positive_partial",
    "Tatc.Props.C44_positive_false"
   ],
   "note": "Proved up to half way round the Earth (at least one sample: up to a quarter). False beyond: no sample at half way, division by zero at two circumferences."
  },
  {
   "property": "C45",
   "status": "proved",
   "theorems": [
    "Tatc.Props.C45_for_swath_for",
    "Tatc.Props.C45_swath_for_swath",
    "Tatc.Props.C45_geometry"
   ],
   "note": "exact real arithmetic; C45_geometry says what the two numbers mean"
  },
  {
   "property": "C46",
   "status": "proved",
   "theorems": [
    "Tatc.Props.C46_elevation",
    "Tatc.Props.C46_field_of_regard"
   ],
   "note": "exact real arithmetic"
  },
  {
   "property": "C47",
   "status": "partial",
   "theorems": [
    "Tatc.Props.C47_bounds",
    "Tatc.Props.C47_monotone_partial",
    "Tatc.Props.C47_monotone_false"
   ],
   "note": "Bounds for every accepted field of regard. Monotone up to 180 degrees; false beyond (360 degrees sees nothing)."
  },
  {
   "property": "C48",
   "status": "proved",
   "theorems": [
    "Tatc.Props.C48_bounds_pass",
    "Tatc.Props.C48_range"
   ],
   "note": ""
  },
  {
   "property": "C49",
   "status": "proved",
   "theorems": [
    "Tatc.Props.C49_period_grows",
    "Tatc.Props.C49_mean_motion",
    "Tatc.Props.C49_semimajor_exact",
    "Tatc.Props.C49_semimajor"
   ],
   "note": "The mean motion of the code comes from a period rounded to microseconds: the semimajor axis recovered from it is right within a millimetre, and exactly from the unrounded mean motion."
  },
  {
   "property": "C50",
   "status": "partial",
   "theorems": [
    "Tatc.Props.C50_round_trip_partial",
    "Tatc.Props.C50_polar_false",
    "Tatc.Props.C50_polar_rounded_false",
    "Tatc.Props.C50_monotone_false"
   ],
   "note": "Inverse for orbits of less than a sidereal day. The statements on inclination are false: degrees() is applied to an angle already in degrees."
  },
  {
   "property": "C51",
   "status": "proved",
   "theorems": [
    "Tatc.Props.C51_coincide",
    "Tatc.Props.C51_symmetry"
   ],
   "note": ""
  },
  {
   "property": "C52",
   "status": "proved",
   "theorems": [
    "Tatc.Props.C52_project"
   ],
   "note": "rings closed, as shapely makes them"
  },
  {
   "property": "C53",
   "status": "partial",
   "theorems": [
    "Tatc.Props.C53_exterior",
    "Tatc.Props.C53_interior",
    "Tatc.Props.C53_interior_false"
   ],
   "note": "Exterior rings: proved. Holes: proved when the vertex lies strictly within the longitudes of the exterior, which holds for every valid polygon; a vertex outside is shifted by part of a turn."
  },
  {
   "property": "C54",
   "status": "proved",
   "theorems": [
    "Tatc.Props.C54_turns",
    "Tatc.Props.C54_wrap",
    "Tatc.Props.C54_wrap_fails",
    "Tatc.Props.C54_crossing",
    "Tatc.Props.C54_split"
   ],
   "note": "exact splitting by shapely (contract Splitter, met by rectangles)"
  },
  {
   "property": "C55",
   "status": "partial",
   "theorems": [
    "Tatc.Props.C55_north",
    "Tatc.Props.C55_south_partial",
    "Tatc.Props.C55_south_false",
    "Tatc.Props.C55_split_north",
    "Tatc.Props.C55_split_south_partial"
   ],
   "note": "North pole: proved, holes included. South pole: proved without holes; with a hole TypeError is raised."
  },
  {
   "property": "C56",
   "status": "partial",
   "theorems": [
    "Tatc.Props.C56_flatten_partial",
    "Tatc.Props.C56_flatten_false"
   ],
   "note": "Proved up to order without nested collections; nested collections are dropped and parts of multipolygons come last."
  },
  {
   "property": "C57",
   "status": "proved",
   "theorems": [
    "Tatc.Props.C57_arcs",
    "Tatc.Props.C57_series"
   ],
   "note": "satellites at different positions"
  },
  {
   "property": "C58",
   "status": "proved",
   "theorems": [
    "Tatc.Props.C58_tangent_point"
   ],
   "note": "exact real arithmetic"
  },
  {
   "property": "C59",
   "status": "proved",
   "theorems": [
    "Tatc.Props.C59_tangent_velocity"
   ],
   "note": "exact real arithmetic"
  },
  {
   "property": "C60",
   "status": "partial",
   "theorems": [
    "Tatc.Props.C60_yaw_partial",
    "Tatc.Props.C60_yaw_false",
    "Tatc.Props.C60_wide_partial"
   ],
   "note": "Proved for every limit but the yaws 180 (exactly behind: rejected) and 180 - max_yaw (accepted behind while its mirror image is rejected in front)."
  },
  {
   "property": "C61",
   "status": "proved",
   "theorems": [
    "Tatc.Props.C61_rows"
   ],
   "note": "start <= time <= end for times in increasing order"
  },
  {
   "property": "C62",
   "status": "proved",
   "theorems": [
    "Tatc.Props.C62_kinds",
    "Tatc.Props.C62_order",
    "Tatc.Props.C62_scale"
   ],
   "note": "exact real arithmetic: only matrices that are singular have no inverse"
  },
  {
   "property": "C63",
   "status": "proved",
   "theorems": [
    "Tatc.Props.C63_more_satellites",
    "Tatc.Props.C63_settings",
    "Tatc.Props.C63_rows"
   ],
   "note": "exact real arithmetic"
  },
  {
   "property": "C64",
   "status": "partial",
   "theorems": [
    "Tatc.Props.C64_present_partial",
    "Tatc.Props.C64_present_false",
    "Tatc.Props.C64_geometry_false",
    "Tatc.Props.C64_three"
   ],
   "note": "False: with exactly min_count_visible satellites there is no value, the geometry is (latitude, longitude) instead of (longitude, latitude), and without satellites IndexError is raised. Proved: one row per time, value exactly when more than the minimum are visible and their directions are not in one plane."
  },
  {
   "property": "C65",
   "status": "partial",
   "theorems": [
    "Tatc.Props.C65_scalar",
    "Tatc.Props.C65_vector",
    "Tatc.Props.C65_short_false"
   ],
   "note": "One time and two or more times: proved. An array of one time gives one truth value instead of an array, an empty array raises IndexError."
  },
  {
   "property": "C66",
   "status": "partial",
   "theorems": [
    "Tatc.Props.C66_array",
    "Tatc.Props.C66_times",
    "Tatc.Props.C66_time",
    "Tatc.Props.C66_symmetric",
    "Tatc.Props.C66_spacing",
    "Tatc.Props.C66_centres",
    "Tatc.Props.C66_tile_partial",
    "Tatc.Props.C66_along_tile_partial",
    "Tatc.Props.C66_overlap_false",
    "Tatc.Props.C66_along_overlap_false",
    "Tatc.Props.C66_edges",
    "Tatc.Props.C66_edges_false",
    "Tatc.Props.C66_cone_clock"
   ],
   "note": "Proved: counts, symmetry, equal spacing, centres inside, exact tiling without overlap. False: the overlap is 1 - (1 - o)^2 instead of o, and with overlap and few pixels the pixels reach out of the field of view."
  },
  {
   "property": "C67",
   "status": "partial",
   "theorems": [
    "Tatc.Props.C67_direction_partial",
    "Tatc.Props.C67_cone_false"
   ],
   "note": "Proved: the ray leaves the boresight in the direction of the pixel. False: at half of the cone angle."
  },
  {
   "property": "C68",
   "status": "partial",
   "theorems": [
    "Tatc.Props.C68_sides_partial",
    "Tatc.Props.C68_square_partial",
    "Tatc.Props.C68_wide_false",
    "Tatc.Props.C68_long_false",
    "Tatc.Props.C68_count_false",
    "Tatc.Props.C68_angle",
    "Tatc.Props.C84_points"
   ],
   "note": "Proved for square fields of view; otherwise rays near the corners are outside of the rectangle, and there are four times as many vertices as requested."
  },
  {
   "property": "C69",
   "status": "partial",
   "theorems": [
    "Tatc.Props.C69_unmasked",
    "Tatc.Props.C69_masked_partial",
    "Tatc.Props.C69_order_false",
    "Tatc.Props.C69_frame_false"
   ],
   "note": "Without a mask: proved. With a mask, geodetic coordinates: the same records, but clipping does not promise the order. Earth-fixed and inertial coordinates: the mask in degrees is compared with metres and all records are lost."
  },
  {
   "property": "C70",
   "status": "partial",
   "theorems": [
    "Tatc.Props.C70_unsplit_partial",
    "Tatc.Props.C70_track_partial",
    "Tatc.Props.C70_dropped_false",
    "Tatc.Props.C70_misplaced_false",
    "Tatc.Props.C70_antimeridian_false",
    "Tatc.Props.C70_single_false",
    "Tatc.Props.C70_unwrap",
    "Tatc.Props.C70_longitudes_partial",
    "Tatc.Props.C70_longitudes_false"
   ],
   "note": "Proved when no line is split, for the rows of any orbit track and for the whole computation from the times (C70_track_partial). When a line is split, parts are paired with other groups' swath widths and the last ones are dropped. A group of one sample raises ValueError. Parts lie within 180 degrees when the antimeridian is crossed on one side by less than a turn."
  },
  {
   "property": "C71",
   "status": "proved",
   "theorems": [
    "Tatc.Props.C71_code",
    "Tatc.Props.C71_polar"
   ],
   "note": "for footprints of positive width; the database of zones is any"
  },
  {
   "property": "C72",
   "status": "partial",
   "theorems": [
    "Tatc.Props.C72_valid",
    "Tatc.Props.C72_error_partial",
    "Tatc.Props.C72_error_false",
    "Tatc.Props.C72_refused",
    "Tatc.Props.C72_import"
   ],
   "note": "A loaded configuration is always valid and holds what the file says. Missing files, errors of the parser and mappings with text keys: proved. Empty files, lists, other keys, errors of the scanner, undecodable files and directories raise other exceptions. NaN is not modelled."
  },
  {
   "property": "C73",
   "status": "proved",
   "theorems": [
    "Tatc.Props.C73_downlinks"
   ],
   "note": ""
  },
  {
   "property": "C74",
   "status": "partial",
   "theorems": [
    "Tatc.Props.C74_near_reference_partial",
    "C74_near_reference_false",
    "C74_anomaly_ignored"
   ],
   "note": "False: the true anomaly of the reference orbit is ignored. Proved (with a sharper bound) for reference orbits at true anomaly zero."
  },
  {
   "property": "C75",
   "status": "partial",
   "theorems": [
    "Tatc.Props.C75_cover_partial",
    "Tatc.Props.C75_cover_false"
   ],
   "note": "Proved more than half a step inside the bounding box; false for a mask narrower than half a step."
  },
  {
   "property": "C76",
   "status": "proved",
   "theorems": [
    "Tatc.Props.C76_crossing_time",
    "Tatc.Props.C76_precession"
   ],
   "note": "exact real arithmetic; the Sun's right ascension is a parameter; precession to first order in the oblateness, within one part in a thousand"
  },
  {
   "property": "C77",
   "status": "proved",
   "theorems": [
    "Tatc.Props.C77_rising",
    "Tatc.Props.C77_series"
   ],
   "note": "exact real arithmetic"
  },
  {
   "property": "C78",
   "status": "proved",
   "theorems": [
    "Tatc.Props.C78_angles"
   ],
   "note": "exact real arithmetic"
  },
  {
   "property": "C79",
   "status": "partial",
   "theorems": [
    "Tatc.Props.C79_latitude_false"
   ],
   "note": "False: the latitude is that of the westernmost vertex, which is right only when both vertices have the same latitude or the westernmost is on the antimeridian."
  },
  {
   "property": "C80",
   "status": "partial",
   "theorems": [
    "Tatc.Props.C80_split_polygon_partial",
    "Tatc.Props.C80_repaired_partial",
    "Tatc.Props.C80_heights_false",
    "Tatc.Props.C55_south_false"
   ],
   "note": "Proved without holes and heights; polygons with heights around a pole and with holes over the south pole raise. The repair of invalid results is included, with make_valid under the contract Repairer."
  },
  {
   "property": "C81",
   "status": "partial",
   "theorems": [
    "Tatc.Props.C81_clock_false",
    "Tatc.Props.C81_angle_false"
   ],
   "note": "False: both are in radians."
  },
  {
   "property": "C82",
   "status": "partial",
   "theorems": [
    "Tatc.Props.C82_aft",
    "Tatc.Props.C82_left_false",
    "Tatc.Props.C82_angle_false"
   ],
   "note": "Fore to aft: proved. Left to right: false, the cross-track index runs from right to left and angle zero is to the left."
  },
  {
   "property": "C83",
   "status": "partial",
   "theorems": [
    "Tatc.Props.C83_centre",
    "Tatc.Props.C83_roll_partial",
    "Tatc.Props.C83_roll_false",
    "Tatc.Props.C83_pitch_partial",
    "Tatc.Props.C83_pitch_false"
   ],
   "note": "For a satellite moving across its vertical. Roll: proved below 90 degrees, above it the boresight is the opposite one. Pitch: below 90 degrees positive pitch looks ahead, as the instrument documents; it is left-handed about the orbit normal, unlike the functions document."
  },
  {
   "property": "C84",
   "status": "partial",
   "theorems": [
    "Tatc.Props.C84_ellipse",
    "Tatc.Props.C84_vertices",
    "Tatc.Props.C84_points",
    "Tatc.Props.C84_regard_partial",
    "Tatc.Props.C84_centre",
    "Tatc.Props.C84_wide_false"
   ],
   "note": "Proved below 180 degrees. Above, the edge is seen at 180 - f/2 degrees. Exactly 180 degrees is not modelled (np.tan of 90 degrees)."
  },
  {
   "property": "C85",
   "status": "proved",
   "theorems": [
    "Tatc.Props.C85_footprints",
    "Tatc.Props.C85_circles",
    "Tatc.Props.C85_pixels",
    "Tatc.Props.C85_refused"
   ],
   "note": "the position of projected circles is that at the reported time, to the millisecond"
  },
  {
   "property": "C86",
   "status": "partial",
   "theorems": [
    "Tatc.Props.C86_footprints_partial",
    "Tatc.Props.C86_single",
    "Tatc.Props.C86_series_false",
    "Tatc.Props.C86_circles_false"
   ],
   "note": "Proved, up to order, for exact footprints with polygons and data frames if buffer_target is wide enough, and for one time. False for series (only the first geometry is used) and for projected circles (culled by the exact footprint)."
  },
  {
   "property": "C87",
   "status": "proved",
   "theorems": [
    "Tatc.Props.C87_periods",
    "Tatc.Props.C87_samples",
    "Tatc.Props.C87_keys"
   ],
   "note": ""
  },
  {
   "property": "C88",
   "status": "partial",
   "theorems": [
    "Tatc.Props.C88_orbit",
    "Tatc.Props.C88_start_false",
    "Tatc.Props.C88_line_false"
   ],
   "note": "The numbering is right, but reported times are rounded to the millisecond: a first time that is rounded down is in orbit -1, and the line method then raises ValueError."
  },
  {
   "property": "C89",
   "status": "proved",
   "theorems": [
    "Tatc.Props.C89_covers",
    "Tatc.Props.C89_orbits",
    "Tatc.Props.C89_dissolved",
    "Tatc.Props.C89_point",
    "Tatc.Props.C89_refused"
   ],
   "note": "dissolve is an exact union (contract IsUnion)"
  },
  {
   "property": "C90",
   "status": "partial",
   "theorems": [
    "Tatc.Props.C90_circular",
    "Tatc.Props.C90_sun_synchronous",
    "Tatc.Props.C90_keplerian_partial",
    "Tatc.Props.C90_molniya_partial",
    "Tatc.Props.C90_tundra_partial",
    "Tatc.Props.C90_eccentric_false",
    "Tatc.Props.C90_epoch_false"
   ],
   "note": "export_tle writes each element to the precision of the format (contract Exporter). Circular and sun-synchronous orbits: proved. Keplerian, Molniya, Tundra: proved for eccentricities up to 3/4. For eccentricity 0.95 the truncated series of the mean anomaly is negative and the element set is refused. Missing epochs and epochs without time zone are accepted by the schema and raise TypeError on conversion."
  },
  {
   "property": "C91",
   "status": "partial",
   "theorems": [
    "Tatc.Props.C91_circular",
    "Tatc.Props.C91_sun_synchronous",
    "Tatc.Props.C91_keplerian_partial",
    "Tatc.Props.C91_molniya_false"
   ],
   "note": "Keplerian: eccentricities up to 3/4. Molniya (and Tundra) orbits report the period and mean motion of a circular orbit at the altitude of perigee: 15 revolutions per day instead of 2."
  },
  {
   "property": "C92",
   "status": "partial",
   "theorems": [
    "Tatc.Props.C92_molniya",
    "Tatc.Props.C92_tundra_false",
    "Tatc.Props.C92_eccentricity_false"
   ],
   "note": "Perigee and semimajor axis: proved of Molniya orbits. Tundra orbits ignore the altitude. Molniya orbits with an altitude above the semimajor axis or below the centre of the Earth are accepted and have a negative eccentricity or one above 1."
  },
  {
   "property": "C93",
   "status": "proved",
   "theorems": [
    "Tatc.Props.C93_first_repeat"
   ],
   "note": "events come in order of time and inside the window (contract of find_events)"
  },
  {
   "property": "C94",
   "status": "partial",
   "theorems": [
    "Tatc.Props.C94_nadir",
    "Tatc.Props.C94_half_partial",
    "Tatc.Props.C94_look_false"
   ],
   "note": "Proved at nadir, and off nadir for half the given look angle: the code divides the look angle by two. One mean radius up, a swath seen within 30 degrees gives more than 35."
  },
  {
   "property": "C95",
   "status": "partial",
   "theorems": [
    "Tatc.Props.C95_meridian_partial",
    "Tatc.Props.C95_latitude_false",
    "Tatc.Props.C95_order_false"
   ],
   "note": "Proved along the meridian of the satellite. The buffer is drawn in an equidistant cylindrical projection, so targets to the east or west at high latitude are lost; with descending times the buffer is negative."
  },
  {
   "property": "C96",
   "status": "proved",
   "theorems": [
    "Tatc.Props.C96_total_access",
    "Tatc.Props.C96_monotone",
    "Tatc.Props.C96_bounded",
    "Tatc.Props.C96_reduced"
   ],
   "note": "times are ticks"
  },
  {
   "property": "C97",
   "status": "partial",
   "theorems": [
    "Tatc.Props.C97_longest_partial",
    "Tatc.Props.C97_outside_false",
    "Tatc.Props.C97_mean_false"
   ],
   "note": "Proved of revisits between earlier observations. False when an observation is added outside of them (a new gap), and false of the mean revisit: covering the shorter of two gaps raises it."
  },
  {
   "property": "C98",
   "status": "partial",
   "theorems": [
    "Tatc.Props.C98_observations",
    "Tatc.Props.C98_multi",
    "Tatc.Props.C98_downlinks",
    "Tatc.Props.C98_ro",
    "Tatc.Props.C98_reduced",
    "Tatc.Props.C98_reduced_latencies",
    "Tatc.Props.C98_tracks_partial",
    "Tatc.Props.C98_coverage_pipeline",
    "Tatc.Props.C98_latency_pipeline",
    "Tatc.Props.C98_tracks_false",
    "Tatc.Props.C98_aggregate_false",
    "Tatc.Props.C98_latencies_false",
    "Tatc.Props.C98_aggregated_latencies_false",
    "Tatc.Props.C98_grid_false"
   ],
   "note": "Proved of collected and reduced frames, of tracks without optional columns, and that the analyses can be chained. False of aggregated frames (access and revisit), latencies (altitude and azimuth), tracks with optional columns and grids (further columns of the cells)."
  },
  {
   "property": "C99",
   "status": "proved",
   "theorems": [
    "Tatc.Props.C99_list",
    "Tatc.Props.C99_nearest",
    "Tatc.Props.C99_single"
   ],
   "note": "the propagator is any function of element set and time"
  },
  {
   "property": "C100",
   "status": "partial",
   "theorems": [
    "Tatc.Props.C100_near_partial",
    "Tatc.Props.C100_reported",
    "Tatc.Props.C100_iff",
    "Tatc.Props.C100_drift",
    "Tatc.Props.C100_sun_synchronous_false"
   ],
   "note": "Proved within one cycle of the epoch and without repeats. Further away the inertial position of the propagated time is combined with the rotation of the Earth at the requested time, so the track is off by the turn of the orbit plane in all the cycles between (about a degree a day for sun-synchronous orbits); exact condition in C100_iff."
  },
  {
   "property": "C101",
   "status": "partial",
   "theorems": [
    "Tatc.Props.C101_near_partial",
    "Tatc.Props.C101_fixed_plane_partial",
    "Tatc.Props.C101_sun_synchronous_false"
   ],
   "note": "Proved within one cycle of the epoch and for orbits whose plane does not turn. False for sun-synchronous orbits: events are right, the track is not (C100)."
  },
  {
   "property": "C102",
   "status": "proved",
   "theorems": [
    "Tatc.Props.C102_total_in_view",
    "Tatc.Props.C102_at_most_in_view",
    "Tatc.Props.C102_rows_in_view",
    "Tatc.Props.C102_fixed_false"
   ],
   "note": "visibility histories as in C08 (a satellite in view for the whole window culminates in it); times are ticks. C102_fixed_false: with fixed access times the total is that of the fixed times."
  },
  {
   "property": "C103",
   "status": "partial",
   "theorems": [
    "Tatc.Props.C103_mean_anomaly_partial",
    "Tatc.Props.C103_true_anomaly_partial",
    "Tatc.Props.C103_round_trip_partial",
    "Tatc.Props.C103_true_anomaly_false",
    "Tatc.Props.C103_mean_anomaly_false"
   ],
   "note": "Truncated series: proved to be right up to the fifth (mean anomaly) and fourth order (true anomaly, round trip) of the eccentricity, with constants, for every eccentricity below one. Exactly: false; at eccentricity 0.6 the true anomaly is off by more than 8 degrees."
  },
  {
   "property": "C104",
   "status": "partial",
   "theorems": [
    "Tatc.Props.C104_object",
    "Tatc.Props.C104_satellite",
    "Tatc.Props.C104_reload",
    "Tatc.Props.C104_architecture",
    "Tatc.Props.C104_instrument_data",
    "Tatc.Props.C104_pointed_false",
    "Tatc.Props.C104_elliptic_refused",
    "Tatc.Props.C104_mutual_group_false",
    "Tatc.Props.C104_streets_refused",
    "Tatc.Props.C104_streets_false"
   ],
   "note": "Proved of single objects, of satellites and constellations with plain instruments (mutual groups and streets on circular orbits) and of architectures without streets of coverage. False of pointed instruments (they come back without their pointing, silently), of mutual groups on an elliptic orbit and of streets of coverage in an architecture (the dump is refused)."
  },
  {
   "property": "C105",
   "status": "partial",
   "theorems": [
    "Tatc.Props.C105_orbits_partial",
    "Tatc.Props.C105_orbits_false",
    "Tatc.Props.C105_molniya_false"
   ],
   "note": "Proved of two line elements, circular, sun-synchronous and Keplerian orbits. False of Molniya and Tundra orbits, which no satellite takes."
  },
  {
   "property": "C106",
   "status": "partial",
   "theorems": [
    "Tatc.Props.C106_given_epoch",
    "Tatc.Props.C106_default_epoch_false"
   ],
   "note": "Proved of data with an epoch. Without one the epoch is the time at which the library was imported."
  },
  {
   "property": "C107",
   "status": "partial",
   "theorems": [
    "Tatc.Props.C107_in_sight",
    "Tatc.Props.C107_in_sight_partial",
    "Tatc.Props.C107_footprint",
    "Tatc.Props.C107_center",
    "Tatc.Props.C107_limb",
    "Tatc.Props.C107_steep_false"
   ],
   "note": "Proved of satellites whose velocity is level, and of others where the ray meets the ground or the plane of its angle cuts the limb. False of satellites that climb or sink steeply, as on Molniya orbits: the plane of a ray that misses the Earth need not cut the limb. C107_limb says which point of the horizon a ray that misses gives: the one in the plane of its angle that makes the smaller angle with the ray at the Earth's centre. SPICE functions in closed form; recgeo not modelled."
  },
  {
   "property": "C108",
   "status": "partial",
   "theorems": [
    "Tatc.Props.C108_first_met",
    "Tatc.Props.C108_footprint",
    "Tatc.Props.C108_outside_false"
   ],
   "note": "Proved of rays that meet the ground. False of instruments that look past the Earth: their footprint is made of points of the limb."
  },
  {
   "property": "C109",
   "status": "proved",
   "theorems": [
    "Tatc.Props.C109_limb",
    "Tatc.Props.C109_plane",
    "Tatc.Props.C109_all"
   ],
   "note": "edlimb returns the ellipse in which lines through the position touch the Earth (contract EdLimb)"
  },
  {
   "property": "C110",
   "status": "partial",
   "theorems": [
    "Tatc.Props.C110_middle",
    "Tatc.Props.C110_beyond_false",
    "Tatc.Props.C110_missed_false"
   ],
   "note": "Proved of the reported epoch, the middle of the pass, at which alone the tests are made. False of the rest of the row, and passes that are observed at other times than their middle are missing."
  },
  {
   "property": "C111",
   "status": "partial",
   "theorems": [
    "Tatc.Props.C111_regard",
    "Tatc.Props.C111_altitude_false",
    "Tatc.Props.C111_elevation_false"
   ],
   "note": "Proved (on a sphere) of satellites that keep the altitude they had at the start and points at sea level. False, both ways, when the altitude changes, and of points above sea level."
  },
  {
   "property": "C112",
   "status": "partial",
   "theorems": [
    "Tatc.Props.C112_equatorial_partial",
    "Tatc.Props.C112_inclined",
    "Tatc.Props.C112_kept",
    "Tatc.Props.C112_long_false"
   ],
   "note": "Proved for every orbit plane and every place on the turning Earth up to 10000 km, and over the equator for satellites that go around at least twice a day (C48: points that do not turn). False of high orbits: 30000 km over the equator a pass of more than 27 hours is dropped. Missing: other inclinations above 10000 km."
  },
  {
   "property": "C113",
   "status": "partial",
   "theorems": [
    "Tatc.Props.C113_same_places_partial",
    "Tatc.Props.C113_beyond_false",
    "Tatc.Props.C55_south_false"
   ],
   "note": "Proved of polygons with longitudes in [-180, 180], less than 90 degrees beyond the poles and without holes beyond the south pole, from a contract of shapely.split (Cutter) that clipping of arbitrary polygons without holes is proved to meet. False of polygons given with longitudes beyond the antimeridian, which are returned as they are, and of holes beyond the south pole, which raise. Repair by make_valid: C167."
  },
  {
   "property": "C114",
   "status": "partial",
   "theorems": [
    "Tatc.Props.C114_cap_partial",
    "Tatc.Props.C114_latitude_false",
    "Tatc.Props.C114_order_false"
   ],
   "note": "Proved of polygons without holes and heights whose vertices are given from west to east once around the globe, with the first and last at the same latitude or the first on the antimeridian, from the contract of shapely.split (Cutter). False of every such polygon whose first and last vertices are at different latitudes, because the latitude on the antimeridian is that of the first vertex; and of vertices in another order, because they are arranged by longitude."
  },
  {
   "property": "C115",
   "status": "partial",
   "theorems": [
    "Tatc.Props.C115_unturned_partial",
    "Tatc.Props.C115_across",
    "Tatc.Props.C115_along",
    "Tatc.Props.C115_turned_false"
   ],
   "note": "Proved of instruments that point straight down. False of all others below 90 degrees: tangents of roll, pitch and half the field of view are added, so the field of view is always narrower than requested."
  },
  {
   "property": "C116",
   "status": "proved",
   "theorems": [
    "Tatc.Props.C116_aggregate",
    "Tatc.Props.C116_reduce",
    "Tatc.Props.C116_reduce_latencies",
    "Tatc.Props.C116_latencies",
    "Tatc.Props.C116_concat"
   ],
   "note": "For every frame and every set of points."
  },
  {
   "property": "C117",
   "status": "partial",
   "theorems": [
    "Tatc.Props.C117_stages_partial",
    "Tatc.Props.C117_reduced",
    "Tatc.Props.C117_epoch_false"
   ],
   "note": "Points, starts, ends, access, revisit and everything reduced from them are equal. False of the epoch column: it is the mean of means."
  },
  {
   "property": "C118",
   "status": "partial",
   "theorems": [
    "Tatc.Props.C118_consecutive",
    "Tatc.Props.C118_minimum_false",
    "Tatc.Props.C118_within_false"
   ],
   "note": "Proved with settings with which every pass counts and of events that tell whether the satellite is in view. False with a minimum access time (both halves of a pass that is cut may be too short), and of a period within a pass during which the satellite does not culminate (C08), which gives no rows."
  },
  {
   "property": "C119",
   "status": "partial",
   "theorems": [
    "Tatc.Props.C119_only_seen_partial",
    "Tatc.Props.C119_parallel",
    "Tatc.Props.C119_seen_false",
    "Tatc.Props.C119_everywhere_false"
   ],
   "note": "Proved: footprints contain only places that are seen. False: at every latitude they leave out places that are seen, because the buffer is drawn in an equidistant cylindrical projection; to the east and west the footprint is too narrow by the cosine of the latitude. On a sphere; the polygon that stands for the circle of the buffer is inscribed."
  },
  {
   "property": "C120",
   "status": "partial",
   "theorems": [
    "Tatc.Props.C120_swath_elevation",
    "Tatc.Props.C120_instrument",
    "Tatc.Props.C120_track",
    "Tatc.Props.C120_regard",
    "Tatc.Props.C120_wide_false"
   ],
   "note": "Swath width and minimum elevation angle bound the same places for every field of regard; they are the places within half the field of regard up to 180 degrees. Beyond 180 degrees the last is false (C120_wide_false): an instrument that looks everywhere has no swath."
  },
  {
   "property": "C121",
   "status": "partial",
   "theorems": [
    "Tatc.Props.C121_members",
    "Tatc.Props.C121_streets",
    "Tatc.Props.C121_satellite_false",
    "Tatc.Props.C121_walker_false"
   ],
   "note": "Proved of trains, Walker and mutual orbiting group constellations, and of the members of streets of coverage. False of a single satellite, whose only member is the satellite itself, and of SOCConstellation.generate_walker, whose result shares the orbit and the instruments of the constellation."
  },
  {
   "property": "C122",
   "status": "partial",
   "theorems": [
    "Tatc.Props.C122_inputs",
    "Tatc.Props.C122_answer",
    "Tatc.Props.C122_again",
    "Tatc.Props.C122_normalize_series",
    "Tatc.Props.C122_normalize_false"
   ],
   "note": "Proved of the six analyses for every history of calls, from which operations of pandas return new frames. False of normalize_geometry: a data frame whose polygons have to be split is changed and returned itself."
  },
  {
   "property": "C123",
   "status": "partial",
   "theorems": [
    "Tatc.Props.C123_derived_partial",
    "Tatc.Props.C123_digits",
    "Tatc.Props.C123_nothing",
    "Tatc.Props.C123_identity_false"
   ],
   "note": "From a contract of reading and printing element sets (Sgp4) that is shown to be met. The satellite is lost: the catalog number of a derived element set is always zero."
  },
  {
   "property": "C124",
   "status": "proved",
   "theorems": [
    "Tatc.Props.C124_height",
    "Tatc.Props.C124_same_orbit",
    "Tatc.Props.C124_elements"
   ],
   "note": "angle_between of skyfield is modelled by its closed form over the reals."
  },
  {
   "property": "C125",
   "status": "proved",
   "theorems": [
    "Tatc.Props.C125_sunlit",
    "Tatc.Props.C125_beta"
   ],
   "note": "is_sunlit of skyfield is modelled by its closed form over the reals; the Sun is a point."
  },
  {
   "property": "C126",
   "status": "proved",
   "theorems": [
    "Tatc.Props.C126_solar_time",
    "Tatc.Props.C126_rate",
    "Tatc.Props.C126_crossing"
   ],
   "note": "The hour angle of skyfield is modelled by its closed form over the reals, from the right ascensions of meridian and Sun."
  },
  {
   "property": "C127",
   "status": "proved",
   "theorems": [
    "Tatc.Props.C127_amplification",
    "Tatc.Props.C127_bound"
   ],
   "note": "The inverse of numpy is modelled over the reals."
  },
  {
   "property": "C128",
   "status": "proved",
   "theorems": [
    "Tatc.Props.C128_turn"
   ],
   "note": "Over the reals."
  },
  {
   "property": "C129",
   "status": "proved",
   "theorems": [
    "Tatc.Props.C129_best"
   ],
   "note": "Over the reals."
  },
  {
   "property": "C130",
   "status": "proved",
   "theorems": [
    "Tatc.Props.C130_separation"
   ],
   "note": "Distances on the sphere of the mean radius; over the reals."
  },
  {
   "property": "C131",
   "status": "proved",
   "theorems": [
    "Tatc.Props.C131_bands"
   ],
   "note": "Over the reals."
  },
  {
   "property": "C132",
   "status": "proved",
   "theorems": [
    "Tatc.Props.C132_cover"
   ],
   "note": "Distances on the sphere of the mean radius; over the reals."
  },
  {
   "property": "C133",
   "status": "partial",
   "theorems": [
    "Tatc.Props.C133_streets_partial",
    "Tatc.Props.C133_streets_false",
    "Tatc.Props.C133_touching_false"
   ],
   "note": "Proved for packing distances up to sqrt(4/7) = 0.7559, on the sphere of the mean radius, for satellites that move uniformly; false with every larger packing distance (some swath from a polar orbit at 2000 km leaves a gap at the equator), in particular with 1 (80 satellites)."
  },
  {
   "property": "C134",
   "status": "proved",
   "theorems": [
    "Tatc.Props.C134_coverage",
    "Tatc.Props.C134_latency"
   ],
   "note": "sort_values is any stable sort that looks only at how keys compare."
  },
  {
   "property": "C135",
   "status": "partial",
   "theorems": [
    "Tatc.Props.C135_order_partial",
    "Tatc.Props.C135_order_false"
   ],
   "note": "Proved of the contacts that are chosen (the one of the earlier observation is the same or starts earlier), and of the reported times where contacts that start later also have a later middle; false in general, as the reported time is the middle of the contact, and the middle of a long contact can come after that of a shorter later one."
  },
  {
   "property": "C136",
   "status": "proved",
   "theorems": [
    "Tatc.Props.C136_account"
   ],
   "note": "Up to 500 ns for each of the two means and each sample, as the means are rounded to microseconds."
  },
  {
   "property": "C137",
   "status": "partial",
   "theorems": [
    "Tatc.Props.C137_wider_partial",
    "Tatc.Props.C137_fixed_false",
    "Tatc.Props.C137_test_false"
   ],
   "note": "Proved for all satellites, fields of regard and minimum access times, without fixed access times and tests of illumination or footprint; false with them (two passes merge into one that counts once; a test looks at the middle of the pass only)."
  },
  {
   "property": "C138",
   "status": "partial",
   "theorems": [
    "Tatc.Props.C138_read",
    "Tatc.Props.C138_written_partial",
    "Tatc.Props.C138_century_false",
    "Tatc.Props.C138_order",
    "Tatc.Props.C138_order_false"
   ],
   "note": "Reading: proved. Writing and order: proved for the years 1957 to 2056. From 2057 on element sets are a hundred years early, as years have two digits, and element sets before and after the end of 2056 are refused. The functions of sgp4 are modelled in closed form, without rounding of floats."
  },
  {
   "property": "C139",
   "status": "partial",
   "theorems": [
    "Tatc.Props.C139_approach_partial",
    "Tatc.Props.C139_meet_iff_partial",
    "Tatc.Props.C139_same_plane_partial",
    "Tatc.Props.C139_streets_false",
    "Tatc.Props.C139_walker_false"
   ],
   "note": "False: streets of coverage on polar orbits meet above the poles, and Walker constellations 4/2/0 at the nodes. Proved, for constellations with equally many satellites in all planes that move uniformly on circular orbits: the least distance of any two members, exactly; when it is 0; and the distance of members of one plane."
  },
  {
   "property": "C140",
   "status": "partial",
   "theorems": [
    "Tatc.Props.C140_valid_iff_partial",
    "Tatc.Props.C140_forward_partial",
    "Tatc.Props.C140_close",
    "Tatc.Props.C140_backward_false",
    "Tatc.Props.C140_nothing_false"
   ],
   "note": "Proved: exactly when deriving succeeds, always for increases that are not negative, and that angles are right to 1e-9 degrees for increases up to a million degrees. False: an orbit with its node at 0.3 degrees cannot be turned back by 0.1 + 0.2 degrees (the node would be at 360.0); a satellite at 3 degrees is moved by one unit in the last place by increases of nothing. Circular orbits; doubles without overflow, multiplications and additions rounded one by one."
  },
  {
   "property": "C141",
   "status": "partial",
   "theorems": [
    "Tatc.Props.C141_per_plane_partial",
    "Tatc.Props.C141_per_plane_false"
   ],
   "note": "Proved for fewer than 2^53 satellites; false for 2^53 + 1 satellites in 2^53 planes."
  },
  {
   "property": "C142",
   "status": "partial",
   "theorems": [
    "Tatc.Props.C142_unique_iff_partial",
    "Tatc.Props.C142_unique_partial",
    "Tatc.Props.C142_part_false"
   ],
   "note": "Proved: exactly when identifiers are distinct, in terms of the rounded quotient, and from the distance alone unless it fits within a millionth of a whole (or half) number of times into the circumference. False for a 150th of the circumference (and for many other parts). Without a mask."
  },
  {
   "property": "C143",
   "status": "proved",
   "theorems": [
    "Tatc.Props.C143_mutual_orbit"
   ],
   "note": "For two-body motion as specified by Spec.KeplerAnomalies and Spec.position; the error is bounded by 3/16 (p + 2t)^2 / a + p/4 * 1e-6 for axes p, t and radius a. The reference is at the node at the epoch whatever the true anomaly of the reference orbit (C74)."
  },
  {
   "property": "C144",
   "status": "partial",
   "theorems": [
    "Tatc.Props.C144_alike_partial",
    "Tatc.Props.C144_places_partial",
    "Tatc.Props.C144_star_false"
   ],
   "note": "Proved for delta constellations with equally many satellites in all planes, on orbits that are not given by an eccentricity (for those the anomalies are not equally spaced, C29_keplerian_false; with unequal planes see C28). False for star constellations, whose first and last planes are not neighbours."
  },
  {
   "property": "C145",
   "status": "partial",
   "theorems": [
    "Tatc.Props.C145_monotone_partial",
    "Tatc.Props.C145_accuracy_partial",
    "Tatc.Props.C145_small_false"
   ],
   "note": "The full statement (every positive distance) is refuted by C145_small_false; the cosine is assumed to be correctly rounded."
  },
  {
   "property": "C146",
   "status": "proved",
   "theorems": [
    "Tatc.Props.C146_lattice"
   ],
   "note": "The inverse sine and cosine are assumed to be correctly rounded; the remainder and the differences from 360 are proved exact."
  },
  {
   "property": "C147",
   "status": "partial",
   "theorems": [
    "Tatc.Props.C147_mask_partial"
   ],
   "note": "Proved for masks within [-180, 180] that contain longitude 180 wherever they contain longitude -180, and for masks within [0, 360); false of wider masks (C39_mask_false). The clip of geopandas is a contract: it keeps the points the mask contains."
  },
  {
   "property": "C148",
   "status": "proved",
   "theorems": [
    "Tatc.Props.C148_min_elevation",
    "Tatc.Props.C148_field_of_regard",
    "Tatc.Props.C148_round_trip",
    "Tatc.Props.C148_swath",
    "Tatc.Props.C148_below_false"
   ],
   "note": "Sines, cosines and their inverses are assumed to be correctly rounded. Where the surface is above the instrument the field of regard is NaN (C148_below_false: altitude 0, elevation 8848 m), outside of the property."
  },
  {
   "property": "C149",
   "status": "partial",
   "theorems": [
    "Tatc.Props.C149_circular",
    "Tatc.Props.C149_sun_synchronous",
    "Tatc.Props.C149_keplerian_partial",
    "Tatc.Props.C149_eccentric_false"
   ],
   "note": "In full for circular and sun-synchronous orbits (1e-4 degrees). For Keplerian orbits up to the fourth order of the eccentricity, for eccentricities up to 3/4; the statement is false beyond (eccentricity 0.6: more than half a degree off, C149_eccentric_false). Printing and reading of sgp4 are the contract Exporter."
  },
  {
   "property": "C150",
   "status": "partial",
   "theorems": [
    "Tatc.Props.C150_rows",
    "Tatc.Props.C150_number",
    "Tatc.Props.C150_total",
    "Tatc.Props.C150_contacts",
    "Tatc.Props.C150_delivery",
    "Tatc.Props.C150_fixed_false"
   ],
   "note": "Proved of instruments without fixed access times (with them: the number of rows is not smaller). False of the total access time with fixed access times: they are cut to the minimum access time, so that a shorter one gives less access."
  },
  {
   "property": "C151",
   "status": "proved",
   "theorems": [
    "Tatc.Props.C151_points",
    "Tatc.Props.C151_disjoint",
    "Tatc.Props.C151_cover"
   ],
   "note": "Without a mask; the polygon of a cell is the set of positions between the numbers computed for its sides."
  },
  {
   "property": "C152",
   "status": "partial",
   "theorems": [
    "Tatc.Props.C152_lattice",
    "Tatc.Props.C152_grid_partial",
    "Tatc.Props.C152_close",
    "Tatc.Props.C152_grid_false"
   ],
   "note": "Proved of the Fibonacci lattice. Proved of equally spaced points unless the number of columns or rows that fit on the globe is within a millionth of a half. False there: with the 571st part of the circumference (70105.47934232464 m) the last row has latitude 90.00000000000003 and Point raises a ValidationError; the excess is at most 1e-12 degrees for every distance."
  },
  {
   "property": "C153",
   "status": "proved",
   "theorems": [
    "Tatc.Props.C153_terminates",
    "Tatc.Props.C153_answer"
   ],
   "note": "Exact arithmetic: C35. n is any number between -4 and 4; np.arctan2 gives numbers between -pi and pi."
  },
  {
   "property": "C154",
   "status": "proved",
   "theorems": [
    "Tatc.Props.C154_iff",
    "Tatc.Props.C154_reduced",
    "Tatc.Props.C154_redundant",
    "Tatc.Props.C154_epoch_false"
   ],
   "note": "Both directions: equal rows also force equal instants. C154_epoch_false shows why the epoch column is not included."
  },
  {
   "property": "C155",
   "status": "proved",
   "theorems": [
    "Tatc.Props.C155_returns",
    "Tatc.Props.C155_rows",
    "Tatc.Props.C155_samples",
    "Tatc.Props.C155_conserved"
   ],
   "note": "Complements C07, whose full statement is false: weights are looked up with the wrong labels, but all labels of a cell are the same, so that the result is the plain mean of the points."
  },
  {
   "property": "C156",
   "status": "proved",
   "theorems": [
    "Tatc.Props.C156_wider",
    "Tatc.Props.C156_transmitters"
   ],
   "note": "is_rising and the sampled attributes of the wider row may differ, since they are those of its own first and nearest samples."
  },
  {
   "property": "C157",
   "status": "proved",
   "theorems": [
    "Tatc.Props.C157_revisit",
    "Tatc.Props.C157_mean_revisit",
    "Tatc.Props.C157_latency",
    "Tatc.Props.C157_mean_latency"
   ],
   "note": ""
  },
  {
   "property": "C158",
   "status": "proved",
   "theorems": [
    "Tatc.Props.C158_reduce",
    "Tatc.Props.C158_latency",
    "Tatc.Props.C158_exact",
    "Tatc.Props.C158_example"
   ],
   "note": "The compensated summation is that of the group mean of pandas, a dependency; it is modelled operation by operation."
  },
  {
   "property": "C159",
   "status": "proved",
   "theorems": [
    "Tatc.Props.C159_epoch",
    "Tatc.Props.C159_within",
    "Tatc.Props.C159_within_false"
   ],
   "note": ""
  },
  {
   "property": "C160",
   "status": "proved",
   "theorems": [
    "Tatc.Props.C160_observed",
    "Tatc.Props.C160_total",
    "Tatc.Props.C160_settings"
   ],
   "note": "On a sphere, for uniform circular motion and points at sea level (other cases: C111, C112). Rises and sets are reported as in C08 (a satellite in view for the whole window culminates in it)."
  },
  {
   "property": "C161",
   "status": "proved",
   "theorems": [
    "Tatc.Props.C161_contact",
    "Tatc.Props.C161_pass",
    "Tatc.Props.C161_delivery"
   ],
   "note": "On a sphere, for uniform circular motion and stations at sea level. Contacts already in progress when the observation ends are not used (C12). Where no station has any contact the result has no rows at all (C12)."
  },
  {
   "property": "C162",
   "status": "partial",
   "theorems": [
    "Tatc.Props.C162_fewer",
    "Tatc.Props.C162_altitude",
    "Tatc.Props.C162_nine",
    "Tatc.Props.C162_beyond_false",
    "Tatc.Props.C162_accepted_false"
   ],
   "note": "Proved for swaths up to the horizon (and that there are always at least three planes of three). False beyond: from one Earth radius up, the widest swath in view needs 12 satellites and one of half the circumference at least 25, since both sides of the horizon have the same nadir angle; a swath of one and a half times the circumference is accepted by the schema and raises a ValidationError when the constellation is generated."
  },
  {
   "property": "C163",
   "status": "proved",
   "theorems": [
    "Tatc.Props.C163_exact",
    "Tatc.Props.C163_values",
    "Tatc.Props.C163_system",
    "Tatc.Props.C163_orbits",
    "Tatc.Props.C163_walker",
    "Tatc.Props.C163_sense_false"
   ],
   "note": "Equivalence with a separate table of documented ranges (Spec/Ranges.lean). Numbers are rational: NaN and infinity are outside the model, as are the conversions pydantic makes between types. C163_sense_false: the documented ranges themselves admit objects without physical meaning (eccentricity 2, altitude below the centre of the earth, negative access time)."
  },
  {
   "property": "C164",
   "status": "partial",
   "theorems": [
    "Tatc.Props.C164_current_partial",
    "Tatc.Props.C164_stored",
    "Tatc.Props.C164_constant",
    "Tatc.Props.C164_stale_false"
   ],
   "note": "Proved in every history for every call that does not load a stored repeat cycle. A call that may load one uses the result of the last search that was made, with the settings and arguments of that search (C164_stored is the exact characterisation); so the claim also holds when all calls ask for the same repeat (C164_constant), and is false with the default settings once a tolerance is changed after the first orbit track (C164_stale_false). One object with one element set; the search itself is a parameter whose results are positive."
  },
  {
   "property": "C165",
   "status": "partial",
   "theorems": [
    "Tatc.Props.C165_over_partial",
    "Tatc.Props.C165_again_partial"
   ],
   "note": "Proved for polygons with latitudes in [-90, 90], less than 360 degrees wide or around a pole, and for polygons that reach beyond a pole and are at most 180 degrees wide (without holes beyond the south pole, where splitting raises). The contract of shapely (Settler) adds to that of C113 that a cut along a meridian does not lengthen a side from west to east and that a ring with a side through the pole does not have the pole in its interior; clippingOpen_settler shows that a splitting meets it. Missing: polygons beyond a pole that are wider than 180 degrees: the cut at the pole can leave a side of more than half a turn, which is read the other way round the second time."
  },
  {
   "property": "C166",
   "status": "partial",
   "theorems": [
    "Tatc.Props.C166_positions",
    "Tatc.Props.C166_one",
    "Tatc.Props.C166_footprints_partial",
    "Tatc.Props.C166_limbs",
    "Tatc.Props.C166_single_false",
    "Tatc.Props.C166_none_false"
   ],
   "note": "Positions and limbs: proved for every number of times. Footprints: proved for two times or more; refuted for an array of one time, which gives the bare geometry instead of a list of it, and for an array of no times, which raises a TypeError. The columns of the arrays are modelled as states."
  },
  {
   "property": "C167",
   "status": "partial",
   "theorems": [
    "Tatc.Props.C167_valid",
    "Tatc.Props.C167_unchanged",
    "Tatc.Props.C167_polygonal_partial",
    "Tatc.Props.C167_normalize",
    "Tatc.Props.C167_line_false"
   ],
   "note": "Validity and normalisation of masks: proved. A polygon that encloses no area is returned as a line or point, and giving it an elevation raises AttributeError (C167_line_false). Contract of make_valid: Repairer, met by dropLines."
  },
  {
   "property": "C168",
   "status": "proved",
   "theorems": [
    "Tatc.Props.C168_period",
    "Tatc.Props.C168_period_mono",
    "Tatc.Props.C168_mean_motion",
    "Tatc.Props.C168_access",
    "Tatc.Props.C168_access_mono"
   ],
   "note": "Rounding to nearest, ties to even; the square root is correctly rounded, the cube is two products, timedelta multiplies the fraction of a second by a million and rounds."
  },
  {
   "property": "C169",
   "status": "proved",
   "theorems": [
    "Tatc.Props.C169_longitude",
    "Tatc.Props.C169_hemisphere"
   ],
   "note": "As in C160, the place is on a spherical Earth that turns once in a sidereal day, and the events that the external propagator reports are within the tolerance of the true rises and sets."
  },
  {
   "property": "C170",
   "status": "proved",
   "theorems": [
    "Tatc.Props.C170_row",
    "Tatc.Props.C170_pass"
   ],
   "note": "Spherical Earth, turning once in a sidereal day; rises and sets within the tolerance of the true ones (Reported). The tests of illumination and footprint are a function of the pass (C65, C108, C110). With fixed access times the length is right to a microsecond (C10)."
  },
  {
   "property": "C171",
   "status": "proved",
   "theorems": [
    "Tatc.Props.C171_revisit",
    "Tatc.Props.C171_gap"
   ],
   "note": "As in C160: spherical Earth, turning once in a sidereal day, events within the tolerance of true rises and sets."
  },
  {
   "property": "C172",
   "status": "proved",
   "theorems": [
    "Tatc.Props.C172_orbits",
    "Tatc.Props.C172_cycle"
   ],
   "note": "As in C160: spherical Earth, turning once in a sidereal day, two-body motion, events within the tolerance of true rises and sets."
  },
  {
   "property": "C173",
   "status": "proved",
   "theorems": [
    "Tatc.Props.C173_row",
    "Tatc.Props.C173_pass"
   ],
   "note": "As in C160 and C161: spherical Earth, turning once in a sidereal day, two-body motion, events within the tolerance of true rises and sets. The frames of collect_downlinks of the satellites are concatenated. Without any contact all rows are lost (C12)."
  },
  {
   "property": "C174",
   "status": "partial",
   "theorems": [
    "Tatc.Props.C174_streets_partial",
    "Tatc.Props.C174_tiny",
    "Tatc.Props.C174_small_false"
   ],
   "note": "Proved for altitudes of 100 to 100000 km, swaths of at least 1 km within the horizon and packing distances of at least one millionth, with sines, cosines and their inverses taken to be correctly rounded. C174_tiny: for swaths of at most 2^-80 m no design is returned, and C174_small_false exhibits one that is accepted and has a design in exact arithmetic. Missing: swaths between 2^-80 m and 1 km, packing distances below one millionth, orbits above 100000 km."
  },
  {
   "property": "C175",
   "status": "proved",
   "theorems": [
    "Tatc.Props.C175_swath"
   ],
   "note": "Sines, cosines and their inverses are taken to be correctly rounded. The exact field of regard is that of C45."
  },
  {
   "property": "C176",
   "status": "proved",
   "theorems": [
    "Tatc.Props.C176_field_of_view",
    "Tatc.Props.C176_edges",
    "Tatc.Props.C176_point"
   ],
   "note": "Sines, cosines, their inverses and arc tangents are taken to be correctly rounded. Half of the look angle is what the code uses: C94."
  },
  {
   "property": "C177",
   "status": "proved",
   "theorems": [
    "Tatc.Props.C177_velocity",
    "Tatc.Props.C177_distance",
    "Tatc.Props.C177_time",
    "Tatc.Props.C177_mono"
   ],
   "note": "Cosines are taken to be correctly rounded. The exact results are those of C50, with the angle that the code converts to degrees twice."
  },
  {
   "property": "C178",
   "status": "proved",
   "theorems": [
    "Tatc.Props.C178_true",
    "Tatc.Props.C178_mean",
    "Tatc.Props.C178_round_trip",
    "Tatc.Props.C178_kepler"
   ],
   "note": "Sines are taken to be correctly rounded, powers to be products. The terms of fourth order are those of C103."
  },
  {
   "property": "C179",
   "status": "partial",
   "theorems": [
    "Tatc.Props.C179_inclination",
    "Tatc.Props.C179_mono",
    "Tatc.Props.C179_below",
    "Tatc.Props.C179_raan",
    "Tatc.Props.C179_derived",
    "Tatc.Props.C179_top_false"
   ],
   "note": "The part on inclinations is proved in full. Derived orbits are valid at all altitudes at least 2^-29 m below the bound; the full statement is false: at the altitude 2^-30 m below the bound, which is accepted, the inclination is exactly 180 degrees and get_derived_orbit raises a ValidationError for all arguments. The power and arc cosine are taken to be correctly rounded, and the right ascension of the sun is a parameter from 0 to 360 degrees (the ephemeris gives it)."
  },
  {
   "property": "C180",
   "status": "proved",
   "theorems": [
    "Tatc.Props.C180_members",
    "Tatc.Props.C180_distinct",
    "Tatc.Props.C180_sso"
   ],
   "note": "Leads with two line elements or Keplerian leads are not part of this property (C28 and C29 treat them with exact arithmetic)."
  },
  {
   "property": "C181",
   "status": "partial",
   "theorems": [
    "Tatc.Props.C181_members_partial",
    "Tatc.Props.C181_apart_partial",
    "Tatc.Props.C181_members_false"
   ],
   "note": "Proved: the places of all members of every train that is generated, and that a train is generated unless a member other than the first comes to be at an anomaly or a right ascension of zero but for rounding. The full statement is false: a train of four satellites with an interval of -24 s whose lead has its node at 0.3 degrees raises a ValidationError (the node of the fourth is 360.0)."
  },
  {
   "property": "C182",
   "status": "partial",
   "theorems": [
    "Tatc.Props.C182_valid_partial",
    "Tatc.Props.C182_close",
    "Tatc.Props.C182_valid_false"
   ],
   "note": "Proved: the angles of every derived orbit that is returned, and that one is returned unless one of the two sums is negative and less than 2^-45 degrees below a whole number of turns. The full statement is false: a node at 0.3 degrees turned back by 0.1 + 0.2 degrees comes to be at 360.0 degrees, which is refused."
  },
  {
   "property": "C183",
   "status": "partial",
   "theorems": [
    "Tatc.Props.C183_members_partial",
    "Tatc.Props.C183_distinct"
   ],
   "note": "Proved for eccentricities up to 0.2 and from 7/8 to 1. Between them: for a lead at perigee or with a mean anomaly of at least 1e-9 degrees. Missing: eccentricities from 0.2 to 7/8 with a lead whose mean anomaly by the series is below 1e-9 degrees."
  },
  {
   "property": "C184",
   "status": "partial",
   "theorems": [
    "Tatc.Props.C184_members_partial",
    "Tatc.Props.C184_apart_partial"
   ],
   "note": "Proved: the places of all members of every train that is generated, and that a train is generated (for eccentricities from 0.2 to 7/8: when the lead is at perigee or has a mean anomaly of at least 1e-9 degrees), unless a member other than the first comes to be at a mean anomaly or a right ascension of zero but for rounding, where the member may be refused (C182)."
  },
  {
   "property": "C185",
   "status": "proved",
   "theorems": [
    "Tatc.Props.C185_derived",
    "Tatc.Props.C185_walker",
    "Tatc.Props.C185_turn_false"
   ],
   "note": "On the elements passed to sgp4init; the export to text is in C90 and C123. The upper end is reached (C185_turn_false): a mean anomaly of zero decreased by 2^-55 degrees comes out as 2*np.pi, which is written as 360.0000."
  },
  {
   "property": "C186",
   "status": "proved",
   "theorems": [
    "Tatc.Props.C186_train"
   ],
   "note": "On the elements passed to sgp4init; the export to text is in C90 and C123."
  },
  {
   "property": "C187",
   "status": "proved",
   "theorems": [
    "Tatc.Props.C187_distinct"
   ],
   "note": "The writing is any value within 0.000051 degrees up to whole turns; that the exporter of sgp4 writes four decimals is a contract of that library (C90, C123)."
  },
  {
   "property": "C188",
   "status": "proved",
   "theorems": [
    "Tatc.Props.C188_apart",
    "Tatc.Props.C188_short_false"
   ],
   "note": "C188_short_false: a least interval is needed, two satellites a microsecond apart are written the same. The writing is any value within 0.000051 degrees up to whole turns; that the exporter of sgp4 writes four decimals is a contract of that library (C90, C123)."
  }
 ]
}