{
 "claims": [
  {
   "property": "C01",
   "status": "proved",
   "theorems": [
    "Verif.Props.C01_newBMP_valid"
   ],
   "note": "all sizes below 2^24, all four depths; default palette included"
  },
  {
   "property": "C02",
   "status": "proved",
   "theorems": [
    "Verif.Props.C02_newBMP_rejects"
   ],
   "note": ""
  },
  {
   "property": "C03",
   "status": "partial",
   "theorems": [
    "Verif.Props.C03_size_partial",
    "Verif.Props.C03_exact",
    "Verif.Props.C03_iff",
    "Verif.Props.C03_width_truncated"
   ],
   "note": "true exactly below 2^24 (writeint/readint drop the top byte); the exact theorem covers all sizes"
  },
  {
   "property": "C04",
   "status": "proved",
   "theorems": [
    "Verif.Props.C04_row_length"
   ],
   "note": ""
  },
  {
   "property": "C05",
   "status": "proved",
   "theorems": [
    "Verif.Props.C05_plot_get",
    "Verif.Props.C05_reduce_values"
   ],
   "note": ""
  },
  {
   "property": "C06",
   "status": "proved",
   "theorems": [
    "Verif.Props.C06_plot_frame"
   ],
   "note": ""
  },
  {
   "property": "C07",
   "status": "proved",
   "theorems": [
    "Verif.Props.C07_out_of_bounds"
   ],
   "note": ""
  },
  {
   "property": "C08",
   "status": "proved",
   "theorems": [
    "Verif.Props.C08_history"
   ],
   "note": ""
  },
  {
   "property": "C09",
   "status": "proved",
   "theorems": [
    "Verif.Props.C09_rgb_access"
   ],
   "note": ""
  },
  {
   "property": "C10",
   "status": "proved",
   "theorems": [
    "Verif.Props.C10_colour_range"
   ],
   "note": ""
  },
  {
   "property": "C100",
   "status": "proved",
   "theorems": [
    "Verif.Props.C100_spaced",
    "Verif.Props.C100_boundingbox",
    "Verif.Props.C100_boundingbox_empty",
    "Verif.Props.C100_spiral_length",
    "Verif.Props.C100_spiral_arms"
   ],
   "note": "Whole coordinates and growth factors."
  },
  {
   "property": "C101",
   "status": "partial",
   "theorems": [
    "Verif.Props.C101_nway_exact",
    "Verif.Props.C101_nway_partial",
    "Verif.Props.C101_nway_false",
    "Verif.Props.C101_short_false",
    "Verif.Props.C101_two",
    "Verif.Props.C101_three",
    "Verif.Props.C101_three_false"
   ],
   "note": "Exact for all buffers of at least n bytes. Refuted for odd lengths (the last group is lost) and for fewer than n bytes."
  },
  {
   "property": "C102",
   "status": "partial",
   "theorems": [
    "Verif.Props.C102_smaller_exact",
    "Verif.Props.C102_smaller_partial",
    "Verif.Props.C102_depth",
    "Verif.Props.C102_pixelize_partial",
    "Verif.Props.C102_mean_exact",
    "Verif.Props.C102_last_column_false",
    "Verif.Props.C102_uniform",
    "Verif.Props.C102_pixelize_exact",
    "Verif.Props.C102_pixelize_mean"
   ],
   "note": "Exact result for every 24-bit image. Refuted for the last column when the width is an odd multiple of n, which is always black. pixelizenxn exact for every size; its last column of squares is black if the number of squares in a row is odd. Other depths are refused."
  },
  {
   "property": "C103",
   "status": "proved",
   "theorems": [
    "Verif.Props.C103_trunc",
    "Verif.Props.C103_mean",
    "Verif.Props.C103_round",
    "Verif.Props.C103_area"
   ],
   "note": "Floats are rationals rounded to 53 bits, ties to even."
  },
  {
   "property": "C104",
   "status": "proved",
   "theorems": [
    "Verif.Props.C104_bright",
    "Verif.Props.C104_bright_ends",
    "Verif.Props.C104_bright_mono",
    "Verif.Props.C104_region",
    "Verif.Props.C104_relum",
    "Verif.Props.C104_file",
    "Verif.Props.C104_depths_false",
    "Verif.Props.C104_factor",
    "Verif.Props.Misc.C104_palette"
   ],
   "note": "The two depths may round exact halves differently (C104_depths_false)."
  },
  {
   "property": "C105",
   "status": "partial",
   "theorems": [
    "Verif.Props.C105_scales",
    "Verif.Props.C105_limit_missed",
    "Verif.Props.C105_range_false",
    "Verif.Props.C105_palette_exact",
    "Verif.Props.C105_within",
    "Verif.Props.C105_palette_nearest",
    "Verif.Props.C105_palette_file",
    "Verif.Props.C105_image"
   ],
   "note": "Exact for palettes. Refuted for 24-bit pixels, where int() of the float product can be one below the limit; never more than one."
  },
  {
   "property": "C106",
   "status": "proved",
   "theorems": [
    "Verif.Props.C106_hilbert",
    "Verif.Props.C106_exact",
    "Verif.Props.C106_axes"
   ],
   "note": "The float steps of the recursion are modelled; division by 2 is exact in them."
  },
  {
   "property": "C107",
   "status": "proved",
   "theorems": [
    "Verif.Props.C107_koch",
    "Verif.Props.C107_ends",
    "Verif.Props.C107_snowflake",
    "Verif.Props.C107_thirds",
    "Verif.Props.C107_default",
    "Verif.Props.C107_length"
   ],
   "note": "Index arithmetic for points of any type; lengths with exact complex numbers and the exact height (the default parameter is that height up to 32 digits)."
  },
  {
   "property": "C108",
   "status": "partial",
   "theorems": [
    "Verif.Props.C108_points",
    "Verif.Props.C108_empty",
    "Verif.Props.C108_corner",
    "Verif.Props.C108_increasing",
    "Verif.Props.C108_increasing_all",
    "Verif.Props.C108_accurate",
    "Verif.Props.C108_colormix",
    "Verif.Props.C108_plot",
    "Verif.Props.C108_reversed",
    "Verif.Props.C108_clip_false"
   ],
   "note": "All four depths. Refuted for rectangles that exceed an 8-bit image: the 8-bit branch has no bounds check and draws on other rows. Empty rectangles raise ZeroDivisionError."
  },
  {
   "property": "C109",
   "status": "partial",
   "theorems": [
    "Verif.Props.C109_escape",
    "Verif.Props.C109_inside",
    "Verif.Props.C109_le",
    "Verif.Props.C109_mirror",
    "Verif.Props.C109_rotate",
    "Verif.Props.C109_multicorn",
    "Verif.Props.C109_outside",
    "Verif.Props.C109_julia",
    "Verif.Props.C109_julia_false",
    "Verif.Props.C109_biomorph",
    "Verif.Props.C109_newton"
   ],
   "note": "Loops for arbitrary iterations; sets over exact complex numbers, not floats. Refuted for Julia sets with a parameter beyond 2, where bounded orbits are reported to escape."
  },
  {
   "property": "C11",
   "status": "proved",
   "theorems": [
    "Verif.Props.C11_swap",
    "Verif.Props.C11_swap_twice"
   ],
   "note": ""
  },
  {
   "property": "C110",
   "status": "partial",
   "theorems": [
    "Verif.Props.C110_add_sub",
    "Verif.Props.C110_cut",
    "Verif.Props.C110_dot_comm",
    "Verif.Props.C110_dot_linear",
    "Verif.Props.C110_cross",
    "Verif.Props.C110_lagrange",
    "Verif.Props.C110_normal",
    "Verif.Props.C110_isorthogonal",
    "Verif.Props.C110_isorthogonal_false",
    "Verif.Props.C110_isorthogonal_exact",
    "Verif.Props.C110_det_false",
    "Verif.Props.C110_det_exact",
    "Verif.Props.C110_rotation",
    "Verif.Props.C110_rotations",
    "Verif.Props.C110_mirror",
    "Verif.Props.C110_center",
    "Verif.Props.C110_pivot",
    "Verif.Props.C110_cosine",
    "Verif.Props.C110_normvec",
    "Verif.Props.C110_dist_comm",
    "Verif.Props.C110_dist_zero",
    "Verif.Props.C110_triangle"
   ],
   "note": "Exact numbers in place of floats. All parts proved except two that are refuted: det3D takes its last factor from the wrong row, isorthogonal tests the products of the components."
  },
  {
   "property": "C111",
   "status": "proved",
   "theorems": [
    "Verif.Props.C111_least_squares",
    "Verif.Props.C111_correlation",
    "Verif.Props.C111_line",
    "Verif.Props.C111_vertical",
    "Verif.Props.C111_deviation"
   ],
   "note": "Exact numbers in place of floats. Equal values of x raise ZeroDivisionError (C111_vertical)."
  },
  {
   "property": "C112",
   "status": "partial",
   "theorems": [
    "Verif.Props.C112_fft",
    "Verif.Props.C112_ifft",
    "Verif.Props.C112_inverse",
    "Verif.Props.C112_inverse_false",
    "Verif.Props.C112_length_false"
   ],
   "note": "Exact numbers in place of floats. fft proved; ifft misses the division by the length, so it is the inverse up to this factor. Refuted for other lengths."
  },
  {
   "property": "C113",
   "status": "proved",
   "theorems": [
    "Verif.Props.C113_inverse",
    "Verif.Props.C113_ends",
    "Verif.Props.C113_curves",
    "Verif.Props.C113_smooth",
    "Verif.Props.C113_symmetric",
    "Verif.Props.C113_rise",
    "Verif.Props.C113_range",
    "Verif.Props.C113_invsmoothstep"
   ],
   "note": "Exact numbers in place of floats. "
  },
  {
   "property": "C114",
   "status": "partial",
   "theorems": [
    "Verif.Props.C114_polar",
    "Verif.Props.C114_polar_false",
    "Verif.Props.C114_polar_error",
    "Verif.Props.C114_polar_back",
    "Verif.Props.C114_spherical",
    "Verif.Props.C114_cylindrical_exact",
    "Verif.Props.C114_cylindrical_false",
    "Verif.Props.C114_angle",
    "Verif.Props.C114_line_angle"
   ],
   "note": "Exact numbers in place of floats. Right of the origin; refuted left of it, where the opposite point results. Cylindrical coordinates refuted off the plane z = 0. polarcoordangle2D proved in full."
  },
  {
   "property": "C115",
   "status": "partial",
   "theorems": [
    "Verif.Props.Solids.C115_watertight",
    "Verif.Props.Solids.C115_cube",
    "Verif.Props.Solids.C115_octahedron",
    "Verif.Props.Solids.C115_tetrahedron_wrong",
    "Verif.Props.Solids.C115_hexahedron_wrong",
    "Verif.Props.Solids.C115_cube_edges",
    "Verif.Props.Solids.C115_octahedron_edges_wrong",
    "Verif.Props.Solids.C115_tetrahedron_edges_wrong",
    "Verif.Props.Penta.C115_icosahedron",
    "Verif.Props.Penta.C115_icosahedron_edges_wrong",
    "Verif.Props.Penta.C115_decahedron",
    "Verif.Props.Penta.C115_decahedron_edges_wrong"
   ],
   "note": "Exact numbers in place of floats. Closed surfaces proved for all six tables. Orientation: outward for cube, octahedron, decahedron and icosahedron (whole sizes for the last two), inward for tetrahedron and hexahedron (refuted). Edge lengths: cube proved, refuted for octahedron, tetrahedron, icosahedron and decahedron."
  },
  {
   "property": "C116",
   "status": "partial",
   "theorems": [
    "Verif.Props.Solids.C116_rotvec",
    "Verif.Props.Solids.C116_isometry",
    "Verif.Props.Solids.C116_mirror",
    "Verif.Props.Solids.C116_rotation_false",
    "Verif.Props.Solids.C116_perspective",
    "Verif.Props.Solids.C116_perspective_fails",
    "Verif.Props.Solids.C116_hidden",
    "Verif.Props.Solids.C116_tetrahedron_wrong"
   ],
   "note": "Exact numbers in place of floats. Distances and projection proved. Handedness refuted: the result is mirrored. The face test keeps exactly the faces that show their front after the mirroring; for the tetrahedron those are the wrong ones."
  },
  {
   "property": "C117",
   "status": "partial",
   "theorems": [
    "Verif.Props.Rounds.C117_sphere",
    "Verif.Props.Rounds.C117_cylinder",
    "Verif.Props.Rounds.C117_cone",
    "Verif.Props.Rounds.C117_sphere_points_partial",
    "Verif.Props.Rounds.C117_pole_wrong",
    "Verif.Props.Rounds.C117_inward_wrong"
   ],
   "note": "Exact numbers in place of floats. Closed surfaces proved for all three bodies. Points: on the body for a centre at the origin; refuted otherwise, the second pole stays at the origin. The tiles of a sphere are inside out."
  },
  {
   "property": "C118",
   "status": "partial",
   "theorems": [
    "Verif.Props.SurfPlot.C118_surface_partial",
    "Verif.Props.SurfPlot.C118_surface_false",
    "Verif.Props.SurfPlot.C118_narrow_wrong",
    "Verif.Props.SurfPlot.C118_surface_exact",
    "Verif.Props.SurfPlot.C118_faces_wrong",
    "Verif.Props.SurfPlot.C118_corner_wrong",
    "Verif.Props.SurfPlot.C118_narrow_exact"
   ],
   "note": "Proved for steps that divide the width; refuted for all others, with the exact list of faces."
  },
  {
   "property": "C119",
   "status": "partial",
   "theorems": [
    "Verif.Props.PolyFill.C119_boundary",
    "Verif.Props.PolyFill.C119_empty",
    "Verif.Props.PolyFill.C119_polyfill_partial",
    "Verif.Props.PolyFill.C119_outside",
    "Verif.Props.PolyFill.C119_notch_false",
    "Verif.Props.Plane.C119_polyfill_wide"
   ],
   "note": "Exact numbers in place of floats. Boundary proved. Filling proved to paint each row from the first to the last boundary point, for polygons inside the image (on 4-bit images with the gaps of C19). Refuted for polygons that are not convex and for those partly outside the image."
  },
  {
   "property": "C12",
   "status": "proved",
   "theorems": [
    "Verif.Props.C12_palette_entry"
   ],
   "note": ""
  },
  {
   "property": "C120",
   "status": "partial",
   "theorems": [
    "Verif.Props.Curves.C120_bezier_partial",
    "Verif.Props.Curves.C120_bezier_hull",
    "Verif.Props.Curves.C120_last_false",
    "Verif.Props.Curves.C120_single_wrong",
    "Verif.Props.Curves.C120_weights",
    "Verif.Props.Curves.C120_continuous",
    "Verif.Props.Curves.C120_bspline_hull",
    "Verif.Props.Curves.C120_first_false",
    "Verif.Props.Curves.C120_periodic",
    "Verif.Props.Curves.C120_end",
    "Verif.Props.Curves.C120_drawn_partial",
    "Verif.Props.Curves.C120_bezier_drawn_partial",
    "Verif.Props.Far.C120_drawn_safe",
    "Verif.Props.Far.C120_bezier_safe"
   ],
   "note": "Exact numbers in place of floats. Proved except that the last control point of a Bezier curve and the first one of an open B-spline have no effect (refuted). Drawing: pens above 1 with the limits of C92."
  },
  {
   "property": "C121",
   "status": "partial",
   "theorems": [
    "Verif.Props.RegPoly.C121_regular",
    "Verif.Props.RegPoly.C121_radius",
    "Verif.Props.RegPoly.C121_sides",
    "Verif.Props.RegPoly.C121_count_false",
    "Verif.Props.RegPoly.C121_many_wrong",
    "Verif.Props.RegPoly.C121_exact",
    "Verif.Props.RegPoly.C121_last_side_wrong",
    "Verif.Props.RegPoly.C121_other_exact",
    "Verif.Props.RegPoly.C121_negative"
   ],
   "note": "Exact numbers in place of floats. Proved for numbers of sides that divide 360, refuted for all others, with the exact corners."
  },
  {
   "property": "C122",
   "status": "partial",
   "theorems": [
    "Verif.Props.Pie.C122_data",
    "Verif.Props.Pie.C122_whole",
    "Verif.Props.Pie.C122_zero_error",
    "Verif.Props.Pie.C122_arc",
    "Verif.Props.Pie.C122_drawarc",
    "Verif.Props.Pie.C122_fillarc_partial",
    "Verif.Props.Pie.C122_sector_false",
    "Verif.Props.Pie.C122_outline_wrong",
    "Verif.Props.Pie.C122_cover",
    "Verif.Props.Pie.C122_apart",
    "Verif.Props.Pie.C122_halves_wrong"
   ],
   "note": "Exact numbers in place of floats. Data, cover and arc points proved. Filled arcs: row by row, for arcs inside the image (on 4-bit images with the gaps of C19). Refuted: sectors on small circles, the outline switch, charts of two halves."
  },
  {
   "property": "C123",
   "status": "partial",
   "theorems": [
    "Verif.Props.Hist2D.C123_bounds",
    "Verif.Props.Hist2D.C123_histogram",
    "Verif.Props.Hist2D.C123_flat_wrong",
    "Verif.Props.Hist2D.C123_one_wrong",
    "Verif.Props.Hist2D.C123_last_wrong"
   ],
   "note": "Float arithmetic without overflow. Every point in one bin proved, with bins in the order of the values and near the exact ones. Refuted: the last bin is for the greatest value only; a single bin or constant data raises ZeroDivisionError."
  },
  {
   "property": "C124",
   "status": "partial",
   "theorems": [
    "Verif.Props.Edges.C124_edges_partial",
    "Verif.Props.Edges.C124_uniform_partial",
    "Verif.Props.Edges.C124_plot_partial",
    "Verif.Props.Edges.C124_column0",
    "Verif.Props.Edges.C124_edges_exact",
    "Verif.Props.Edges.C124_none_exact",
    "Verif.Props.Edges.C124_rows_unseen",
    "Verif.Props.Edges.C124_plot_exact"
   ],
   "note": "Integer thresholds. Proved for images whose rows consist of whole bytes, see C39; refuted for all others, where only the bottom row is compared with its neighbours. On 4-bit images wide pens draw the discs of C27."
  },
  {
   "property": "C125",
   "status": "partial",
   "theorems": [
    "Verif.Props.Edges.C125_autocrop_partial",
    "Verif.Props.Edges.C125_uniform",
    "Verif.Props.Edges.C125_border_lost",
    "Verif.Props.Edges.C125_none_exact"
   ],
   "note": "Integer thresholds. Proved with the size of the margin for content that keeps clear of the border; refuted for content in the last column. Rows of whole bytes."
  },
  {
   "property": "C126",
   "status": "partial",
   "theorems": [
    "Verif.Props.Edges.C126_region_partial",
    "Verif.Props.Edges.C126_bottom_row_only",
    "Verif.Props.Edges.C126_file_partial",
    "Verif.Props.Edges.C126_region_exact",
    "Verif.Props.Edges.C126_file_exact"
   ],
   "note": "Integer thresholds. Proved for images whose rows consist of whole bytes; for all others exactly the bottom row is searched (proved). On 4-bit images wide pens draw the discs of C27."
  },
  {
   "property": "C127",
   "status": "partial",
   "theorems": [
    "Verif.Props.Pals.C127_monochrome",
    "Verif.Props.Pals.C127_greys",
    "Verif.Props.Pals.C127_truecolour",
    "Verif.Props.Pals.C127_set",
    "Verif.Props.Pals.C127_inverse",
    "Verif.Props.Pals.C127_shift",
    "Verif.Props.Pals.C127_odd",
    "Verif.Props.Pals.C127_default_false",
    "Verif.Props.Pals.C127_invshifted",
    "Verif.Props.Pals.C127_new",
    "Verif.Props.Pals.C127_shift_exact",
    "Verif.Props.Pals.C127_inverse_shift",
    "Verif.Props.Pals.C127_shift_false"
   ],
   "note": "Proved with 53-bit floats for factors between 0 and 1. Rotated palettes hold every shade once for odd multipliers; the default multiplier 20 is even (C127_default_false). The rotation itself is refuted for 16 colours."
  },
  {
   "property": "C128",
   "status": "partial",
   "theorems": [
    "Verif.Props.Pals.C128_dichromatic",
    "Verif.Props.Pals.C128_set",
    "Verif.Props.Pals.C128_first",
    "Verif.Props.Pals.C128_new",
    "Verif.Props.Pals.C128_end_false",
    "Verif.Props.Pals.C128_even_wrong"
   ],
   "note": "Proved with 53-bit floats. False at the end: the second colour itself is not in the palette (C128_end_false). Even steps leave places out (C128_even_wrong)."
  },
  {
   "property": "C129",
   "status": "partial",
   "theorems": [
    "Verif.Props.Pals.C129_palette",
    "Verif.Props.Pals.C129_black_wrong",
    "Verif.Props.Pals.C129_reduce_mono",
    "Verif.Props.Pals.C129_reduce",
    "Verif.Props.Pals.C129_onebit",
    "Verif.Props.Pals.C129_other",
    "Verif.Props.Pals.C129_few_false"
   ],
   "note": "The palette from the histogram proved. Pixels are the nearest entry that is not black (proved); false for black pixels and for images with fewer colours than the palette has (both refuted). With one bit pixels are set by chance (proved for all draws)."
  },
  {
   "property": "C13",
   "status": "proved",
   "theorems": [
    "Verif.Props.C13_set_palette"
   ],
   "note": ""
  },
  {
   "property": "C130",
   "status": "proved",
   "theorems": [
    "Verif.Props.Pals.C130_hsl",
    "Verif.Props.Pals.C130_range",
    "Verif.Props.Pals.C130_grey",
    "Verif.Props.Pals.C130_hue_wrong"
   ],
   "note": "With exact numbers in place of floats; C172 has the floats. The rounded hue can be 360 (C130_hue_wrong)."
  },
  {
   "property": "C131",
   "status": "partial",
   "theorems": [
    "Verif.Props.Gradient.C131_gradrect_exact",
    "Verif.Props.Gradient.C131_rejected",
    "Verif.Props.Gradient.C131_background",
    "Verif.Props.Gradient.C131_dichromatic_exact",
    "Verif.Props.Gradient.C131_dichromatic_rejected",
    "Verif.Props.Gradient.C131_dichromatic_background",
    "Verif.Props.Gradient.C131_plain",
    "Verif.Props.Gradient.C131_false",
    "Verif.Props.Gradient.C131_files",
    "Verif.Props.Gradient.C131_dichromatic_files"
   ],
   "note": "The backgrounds proved. For rectangles away from the edge the claim is false (C131_false, C131_plain); C131_gradrect_exact and C131_dichromatic_exact say what is drawn. fn is the default."
  },
  {
   "property": "C132",
   "status": "partial",
   "theorems": [
    "Verif.Props.Gradient.C132_gradthickroundline_partial",
    "Verif.Props.Gradient.C132_gradthickcircle_partial",
    "Verif.Props.Gradient.C132_gradthickplotpoly_partial",
    "Verif.Props.Gradient.C132_gradplotlines_partial",
    "Verif.Props.Gradient.C132_gradvert_partial",
    "Verif.Props.Far.C132_gradthickroundline_safe",
    "Verif.Props.Far.C132_gradthickcircle_safe",
    "Verif.Props.Far.C132_gradthickplotpoly_safe",
    "Verif.Props.Far.C132_gradplotlines_safe",
    "Verif.Props.Far.C132_gradvert_safe"
   ],
   "note": "Missing: only places at which a row deletes bytes or fails, as in C95. fn is the default."
  },
  {
   "property": "C133",
   "status": "partial",
   "theorems": [
    "Verif.Props.Gradient.C133_gradcircle_partial",
    "Verif.Props.Gradient.C133_graddichromiccircle_partial",
    "Verif.Props.Gradient.C133_graddichromiccircle_rejected",
    "Verif.Props.Gradient.C133_sphere_partial",
    "Verif.Props.Gradient.C133_sphere2file_partial",
    "Verif.Props.Gradient.C133_orb_partial",
    "Verif.Props.Gradient.C133_gradellipse_partial",
    "Verif.Props.Gradient.C133_gradellipse_round_partial",
    "Verif.Props.Gradient.C133_gradellipse_wrong",
    "Verif.Props.Gradient.C133_wider_wrong",
    "Verif.Props.Far.C133_gradcircle_safe",
    "Verif.Props.Far.C133_graddichromiccircle_safe",
    "Verif.Props.Far.C133_sphere_safe",
    "Verif.Props.Far.C133_orb_safe",
    "Verif.Props.Far.C133_gradellipse_safe"
   ],
   "note": "The layers proved, except for places at which a row deletes bytes or fails, as in C95. False for ellipses with different axes (C133_gradellipse_wrong) and outside the figure (C133_wider_wrong)."
  },
  {
   "property": "C134",
   "status": "partial",
   "theorems": [
    "Verif.Props.Dots.C134_glyph_exact",
    "Verif.Props.Dots.C134_dot_in_square",
    "Verif.Props.Dots.C134_glyph_depths",
    "Verif.Props.Dots.C134_glyph_safe",
    "Verif.Props.Dots.C134_updsidedown",
    "Verif.Props.Dots.C134_value",
    "Verif.Props.Dots.C134_false"
   ],
   "note": "Int colours. Mirrored glyphs lose their last column, as in C63. False for squares on 4- and 8-bit images (C134_false), where C134_glyph_depths says what is painted. C134_glyph_safe: discs at all places where no row of a painted dot deletes bytes or raises an exception (C19). Missing: what becomes of the file at the other places, left of the image."
  },
  {
   "property": "C135",
   "status": "partial",
   "theorems": [
    "Verif.Props.Dots.C135_text_exact",
    "Verif.Props.Dots.C135_text_depths",
    "Verif.Props.Dots.C135_text_safe",
    "Verif.Props.Dots.C135_places",
    "Verif.Props.Dots.C135_far_wrong"
   ],
   "note": "With the limits of C134: false for texts of discs just left of the image, which delete bytes (C135_far_wrong); C135_text_safe has all places where no painted dot does so; C135_places shows that the condition on the places is met by texts that start inside the image."
  },
  {
   "property": "C136",
   "status": "partial",
   "theorems": [
    "Verif.Props.Dots.C136_textfile_partial",
    "Verif.Props.Dots.C136_textfile_depths"
   ],
   "note": "C136_textfile_depths is for all depths and backgrounds; it has the faults of C21 and C22: halves of squares and the last column of backgrounds of odd width missing on 4-bit images, colours replaced by the nearest palette entry to (0, 0, c) on 8-bit images."
  },
  {
   "property": "C137",
   "status": "partial",
   "theorems": [
    "Verif.Props.Dots.C137_mirror_partial",
    "Verif.Props.Dots.C137_lines_wrong",
    "Verif.Props.Dots.C137_upsidedown_wrong",
    "Verif.Props.Dots.C137_upsidedown_exact"
   ],
   "note": "Mirror images proved for one line, glyphs with an empty last column and no gaps between squares. False for several lines (C137_lines_wrong) and for upside down texts (C137_upsidedown_wrong); C137_upsidedown_exact says what is shown."
  },
  {
   "property": "C138",
   "status": "partial",
   "theorems": [
    "Verif.Props.Lens.C138_magnify_partial",
    "Verif.Props.Lens.C138_magnify_centre",
    "Verif.Props.Lens.C138_magnify_once",
    "Verif.Props.Lens.C138_rejected",
    "Verif.Props.Lens.C138_pixelizenxn_exact",
    "Verif.Props.Lens.C138_pixelize_exact",
    "Verif.Props.Lens.C138_pixelize_partial",
    "Verif.Props.Lens.C138_magnify_edge_false",
    "Verif.Props.Lens.C138_pixelize_shift_false",
    "Verif.Props.Lens.C138_pixelize_strip_false",
    "Verif.Props.Lens.C138_pixelize_length_false"
   ],
   "note": "The right end of every row of the disc keeps its colour (C138_magnify_edge_false). Squares: right for sides that are multiples of n with an even quotient; C138_pixelize_exact says what happens otherwise, with three faults."
  },
  {
   "property": "C139",
   "status": "partial",
   "theorems": [
    "Verif.Props.Lens.C139_careful",
    "Verif.Props.Lens.C139_truecolour",
    "Verif.Props.Lens.C139_magnify2file_partial",
    "Verif.Props.Lens.C139_rejected",
    "Verif.Props.Lens.C139_pixelizecirc2file_partial",
    "Verif.Props.Lens.C139_pixelize2file_exact",
    "Verif.Props.Lens.C139_smaller2file_exact",
    "Verif.Props.Lens.C139_rectangle2file",
    "Verif.Props.Lens.C139_thickencirclearea",
    "Verif.Props.Lens.C139_thickencirclearea2file",
    "Verif.Props.Far.C139_thickencirclearea_safe"
   ],
   "note": "With the limits of the image functions. rectangle2file is proved in full."
  },
  {
   "property": "C14",
   "status": "proved",
   "theorems": [
    "Verif.Props.C14_palshift",
    "Verif.Props.C14_palshift_add",
    "Verif.Props.C14_palshift_cycle"
   ],
   "note": "The direction of the rotation is the one of the code: entry c takes the colour of entry c+|k|."
  },
  {
   "property": "C140",
   "status": "proved",
   "theorems": [
    "Verif.Props.Lens.C140_colorcycle",
    "Verif.Props.Lens.C140_refused",
    "Verif.Props.Lens.C140_period"
   ],
   "note": "Relative directory names. An image of another depth is a TypeError after the directory has been made; that directory is not recorded."
  },
  {
   "property": "C141",
   "status": "partial",
   "theorems": [
    "Verif.Props.Plane.C141_arrow",
    "Verif.Props.Plane.C141_up",
    "Verif.Props.Plane.C141_right",
    "Verif.Props.Plane.C141_drawvec_partial",
    "Verif.Props.Plane.C141_thick_partial",
    "Verif.Props.Far.C141_thick_safe",
    "Verif.Props.Edge.C141_drawvec_narrow"
   ],
   "note": "The points are proved for all directions, in real arithmetic. Drawing: only diagonals that end in the first row or, unless the image is wide, in the last row are missing (C24) on 24-bit and very wide images; C141_drawvec_narrow has all others; thick arrows as C95."
  },
  {
   "property": "C142",
   "status": "partial",
   "theorems": [
    "Verif.Props.Plane.C142_tick",
    "Verif.Props.Plane.C142_limits",
    "Verif.Props.Plane.C142_order",
    "Verif.Props.Plane.C142_before_wrong"
   ],
   "note": "Float arithmetic. Values before the start are not rejected (C142_before_wrong)."
  },
  {
   "property": "C143",
   "status": "partial",
   "theorems": [
    "Verif.Props.Plane.C143_numbers_partial",
    "Verif.Props.Plane.C143_axes_partial",
    "Verif.Props.Far.C143_axes_safe",
    "Verif.Props.Far.C143_places",
    "Verif.Props.Far.C143_grid_left_out"
   ],
   "note": "All depths (4-bit marks with the ends of C19), also axes that leave the image (C143_axes_safe), for which the grid is left out (C143_grid_left_out). Missing: arrow heads cut to diagonals that end in the first or last row (C24), marks that delete bytes (C19, C20), axes to the left or downwards; C143_places shows that axes with their ends in the image and not near its left and lower edge are none of these. Whole numbers as starts and steps."
  },
  {
   "property": "C144",
   "status": "partial",
   "theorems": [
    "Verif.Props.Plane.C144_scatter_partial",
    "Verif.Props.Plane.C144_beyond_wrong",
    "Verif.Props.Plane.C144_line_partial",
    "Verif.Props.Plane.C144_flat_false",
    "Verif.Props.Plane.C144_falling_wrong",
    "Verif.Props.Far.C144_scatter_safe"
   ],
   "note": "Refuted for data beyond the limits, for horizontal lines above the plot and for falling lines that enter through the top. Slope and intercept are exact."
  },
  {
   "property": "C145",
   "status": "partial",
   "theorems": [
    "Verif.Props.Plane.C145_light",
    "Verif.Props.Plane.C145_fill_partial",
    "Verif.Props.Plane.C145_outline_partial",
    "Verif.Props.Plane.C145_away_false",
    "Verif.Props.Plane.C145_fill_any",
    "Verif.Props.Plane.C145_outline_any",
    "Verif.Props.Plane.C145_away_exact",
    "Verif.Props.Plane.C145_edge_false",
    "Verif.Props.Plane.C145_away_truecolour",
    "Verif.Props.Plane.C145_away_left_out",
    "Verif.Props.Edge.C145_outline_narrow"
   ],
   "note": "Filling and outlines are proved for all faces: those with a boundary pixel outside the image are not filled (C145_edge_false). Refuted for faces that look exactly along the negative third axis, which fail with a factor 1 (on 24-bit images if they are in the image, C145_away_truecolour, C145_away_left_out) and are black with smaller factors. Missing: outlines with diagonals that end in the first row or, unless the image is wide, in the last row (C24) on 24-bit and very wide images; C145_outline_narrow has all others"
  },
  {
   "property": "C146",
   "status": "partial",
   "theorems": [
    "Verif.Props.Plane.C146_turned",
    "Verif.Props.Plane.C146_distance",
    "Verif.Props.Plane.C146_quarters",
    "Verif.Props.Plane.C146_thick_partial",
    "Verif.Props.Plane.C146_grad_partial",
    "Verif.Props.Far.C146_thick_safe",
    "Verif.Props.Far.C146_grad_safe"
   ],
   "note": "The points are proved in full, in real arithmetic. Drawing as C27."
  },
  {
   "property": "C147",
   "status": "partial",
   "theorems": [
    "Verif.Props.Param.C147_epicycloid",
    "Verif.Props.Param.C147_hypotrochoid_partial",
    "Verif.Props.Param.C147_hypotrochoid_false",
    "Verif.Props.Param.C147_spirograph_partial",
    "Verif.Props.Param.C147_spirograph_false",
    "Verif.Props.Param.C147_involute_exact",
    "Verif.Props.Param.C147_involute_false"
   ],
   "note": "Proved for the epicycloid. Refuted for hypotrochoid, spirograph and involute, with what they draw instead. Real arithmetic."
  },
  {
   "property": "C148",
   "status": "proved",
   "theorems": [
    "Verif.Props.Param.C148_lissajous",
    "Verif.Props.Param.C148_petals",
    "Verif.Props.Param.C148_flower",
    "Verif.Props.Param.C148_gear",
    "Verif.Props.Param.C148_cornu",
    "Verif.Props.Param.C148_heart"
   ],
   "note": "Real arithmetic; the loops add floats."
  },
  {
   "property": "C149",
   "status": "partial",
   "theorems": [
    "Verif.Props.Param.C149_superellipse",
    "Verif.Props.Param.C149_squircle",
    "Verif.Props.Param.C149_squircle_drawn_partial",
    "Verif.Props.Param.C149_egg_partial",
    "Verif.Props.Param.C149_egg_false"
   ],
   "note": "The length of an egg is refuted. Drawing as C93."
  },
  {
   "property": "C15",
   "status": "partial",
   "theorems": [
    "Verif.Props.C15_save_load",
    "Verif.Props.C15_empty_truecolour",
    "Verif.Props.C15_longer"
   ],
   "note": "The single exception, a 24-bit image without any pixel, is proved not to load back."
  },
  {
   "property": "C150",
   "status": "partial",
   "theorems": [
    "Verif.Props.Param.C150_plotflower",
    "Verif.Props.Param.C150_zero",
    "Verif.Props.Param.C150_plotfilledflower",
    "Verif.Props.Param.C150_palette_false"
   ],
   "note": "Refuted on images with a palette, where the exact pixel values are proved. The distance is computed exactly."
  },
  {
   "property": "C151",
   "status": "partial",
   "theorems": [
    "Verif.Props.Escape.C151_sum",
    "Verif.Props.Escape.C151_centre",
    "Verif.Props.Escape.C151_mirror",
    "Verif.Props.Escape.C151_lambda_partial",
    "Verif.Props.Escape.C151_lambda_false",
    "Verif.Props.Escape.C151_tree_partial",
    "Verif.Props.Escape.C151_tree_false",
    "Verif.Props.Escape.C151_circle",
    "Verif.Props.Escape.C151_hyperbola",
    "Verif.Props.Escape.C151_astroid",
    "Verif.Props.Escape.C151_lemniscate",
    "Verif.Props.Escape.C151_xor",
    "Verif.Props.Escape.C151_superellipse_false",
    "Verif.Props.Escape.C151_biomorph",
    "Verif.Props.Escape.C151_biomorphs",
    "Verif.Props.Escape.C151_ngon"
   ],
   "note": "Escape without bound is refuted for small parameters of lambdafn and barnsleytree and proved for others. multisuperellipse is refuted: its values are not whole. Exact complex arithmetic; natural exponents except for multicircle."
  },
  {
   "property": "C152",
   "status": "proved",
   "theorems": [
    "Verif.Props.Escape.C152_file",
    "Verif.Props.Escape.C152_depths",
    "Verif.Props.Escape.C152_depths_false",
    "Verif.Props.Escape.C152_two",
    "Verif.Props.Escape.C152_errors"
   ],
   "note": "The looks of the two depths differ by at most 1 in each part, and this difference is attained (C152_depths_false)."
  },
  {
   "property": "C153",
   "status": "proved",
   "theorems": [
    "Verif.Props.Escape.C153_pick",
    "Verif.Props.Escape.C153_points",
    "Verif.Props.Escape.C153_IFS",
    "Verif.Props.Escape.C153_fern",
    "Verif.Props.Escape.C153_fern2file",
    "Verif.Props.Escape.C153_sierpinski"
   ],
   "note": "For every rounding of the operations. The triangle is proved for exact arithmetic."
  },
  {
   "property": "C154",
   "status": "partial",
   "theorems": [
    "Verif.Props.Escape.C154_newton",
    "Verif.Props.Escape.C154_file_false",
    "Verif.Props.Escape.C154_file",
    "Verif.Props.Escape.C154_toofew"
   ],
   "note": "The file is refuted for a palette and two or three roots (TypeError). Roots as exact complex numbers."
  },
  {
   "property": "C155",
   "status": "partial",
   "theorems": [
    "Verif.Props.Attract.C155_ikeda",
    "Verif.Props.Attract.C155_nattractor",
    "Verif.Props.Attract.C155_gumowskimira",
    "Verif.Props.Attract.C155_dejong",
    "Verif.Props.Attract.C155_clifford",
    "Verif.Props.Attract.C155_dream",
    "Verif.Props.Attract.C155_hopalong",
    "Verif.Props.Attract.C155_duffing",
    "Verif.Props.Attract.C155_prefix",
    "Verif.Props.Attract.C155_bounded",
    "Verif.Props.Attract.C155_ikeda_bounded",
    "Verif.Props.Attract.C155_undo",
    "Verif.Props.Attract.C155_icon_partial",
    "Verif.Props.Attract.C155_icon_wrong",
    "Verif.Props.Attract.C155_symmetric_partial",
    "Verif.Props.Attract.C155_symmetric_wrong"
   ],
   "note": "Exact real and complex arithmetic. The formula and symmetry of icons are proved for o = 0 and refuted for other values."
  },
  {
   "property": "C156",
   "status": "partial",
   "theorems": [
    "Verif.Props.Attract.C156_picture",
    "Verif.Props.Attract.C156_file",
    "Verif.Props.Attract.C156_flat_wrong",
    "Verif.Props.Attract.C156_bright_wrong"
   ],
   "note": "The most hit bins get one of the last two colours, and the last one is refuted (rounding). Division by zero for points in one column, one column of pixels, or bins that are all hit equally often."
  },
  {
   "property": "C157",
   "status": "partial",
   "theorems": [
    "Verif.Props.Utils.C157_image_partial",
    "Verif.Props.Utils.C157_last_wrong",
    "Verif.Props.Utils.C157_bits",
    "Verif.Props.Utils.C157_pattern"
   ],
   "note": "All rows except the last one, which is refuted: the loop stops before row 0 of the buffer."
  },
  {
   "property": "C158",
   "status": "proved",
   "theorems": [
    "Verif.Props.Utils.C158_clamp",
    "Verif.Props.Utils.C158_bits",
    "Verif.Props.Utils.C158_round",
    "Verif.Props.Utils.C158_divide",
    "Verif.Props.Utils.C158_means",
    "Verif.Props.Utils.C158_mirror",
    "Verif.Props.Utils.C158_sums",
    "Verif.Props.Utils.C158_swap",
    "Verif.Props.Utils.C158_random"
   ],
   "note": "Exact numbers; bitwise functions for numbers that are not negative."
  },
  {
   "property": "C159",
   "status": "proved",
   "theorems": [
    "Verif.Props.Utils.C159_directions",
    "Verif.Props.Utils.C159_zero",
    "Verif.Props.Utils.C159_explained",
    "Verif.Props.Utils.C159_test",
    "Verif.Props.Utils.C159_line",
    "Verif.Props.Utils.C159_variation",
    "Verif.Props.Utils.C159_variation_zero",
    "Verif.Props.Utils.C159_tower"
   ],
   "note": "Exact real arithmetic."
  },
  {
   "property": "C16",
   "status": "proved",
   "theorems": [
    "Verif.Props.C16_load"
   ],
   "note": "Declared sizes of 2^63 and more raise OverflowError in the model; memory exhaustion is not modelled."
  },
  {
   "property": "C160",
   "status": "partial",
   "theorems": [
    "Verif.Props.Utils.C160_distances",
    "Verif.Props.Utils.C160_repeated_wrong",
    "Verif.Props.Utils.C160_counts",
    "Verif.Props.Utils.C160_levels",
    "Verif.Props.Utils.C160_halves"
   ],
   "note": "Different points; refuted for repeated ones."
  },
  {
   "property": "C161",
   "status": "partial",
   "theorems": [
    "Verif.Props.Utils.C161_gamma",
    "Verif.Props.Utils.C161_gamma_negative",
    "Verif.Props.Utils.C161_random",
    "Verif.Props.Utils.C161_base",
    "Verif.Props.Utils.C161_dictionary_partial",
    "Verif.Props.Utils.C161_black_wrong",
    "Verif.Props.Utils.C161_ranges_wrong"
   ],
   "note": "Gamma with exact real numbers. The dictionary avoids black entries of the palette, so that black itself is refuted; one default range has a misspelt name."
  },
  {
   "property": "C162",
   "status": "partial",
   "theorems": [
    "Verif.Props.CurveFiles.C162_hilbert_partial",
    "Verif.Props.CurveFiles.C162_thick_partial",
    "Verif.Props.CurveFiles.C162_turned_wrong",
    "Verif.Props.CurveFiles.C162_turned",
    "Verif.Props.CurveFiles.C162_hilbert_depths"
   ],
   "note": "All depths, backgrounds and pens (C162_hilbert_depths). The background value is the one that filled rectangles really use (C22), and the last column of images with 16 colours and odd width keeps colour 0. Sizes times cells stay below 2^53. The other orientation is refuted for images that are not square."
  },
  {
   "property": "C163",
   "status": "partial",
   "theorems": [
    "Verif.Props.CurveFiles.C163_convex",
    "Verif.Props.CurveFiles.C163_tips",
    "Verif.Props.CurveFiles.C163_inside",
    "Verif.Props.CurveFiles.C163_snowflake_partial",
    "Verif.Props.CurveFiles.C163_snowflake_thin",
    "Verif.Props.CurveFiles.C163_snowflake_depths",
    "Verif.Props.CurveFiles.C163_top_fails",
    "Verif.Props.CurveFiles.C163_top_false"
   ],
   "note": "Corners and rounding with exact real numbers. All depths, backgrounds and pens (C163_snowflake_depths), but thin snowflakes in images of more than one bit need lines that are not diagonals ending in the first row. With four and eight bits such a line always stops the program (C163_top_fails), for example radius 47, order 4, angle 60 (C163_top_false)."
  },
  {
   "property": "C164",
   "status": "partial",
   "theorems": [
    "Verif.Props.Names.C164_basic",
    "Verif.Props.Names.C164_xkcd",
    "Verif.Props.Names.C164_x11_partial",
    "Verif.Props.Names.C164_x11_wrong",
    "Verif.Props.Names.C164_greys",
    "Verif.Props.Names.C164_spelling_wrong"
   ],
   "note": "The X11 family is proved except for the hue of aqua and the factors of darkblue, which are wrong; four pairs of spellings name different colours because a later entry overwrites an earlier one."
  },
  {
   "property": "C165",
   "status": "proved",
   "theorems": [
    "Verif.Props.FractalFiles.C165_mandelbrot",
    "Verif.Props.FractalFiles.C165_julia",
    "Verif.Props.FractalFiles.C165_sums",
    "Verif.Props.FractalFiles.C165_biomorphs",
    "Verif.Props.FractalFiles.C165_ngon",
    "Verif.Props.FractalFiles.C165_curves",
    "Verif.Props.FractalFiles.C165_xor",
    "Verif.Props.FractalFiles.C165_symmetric",
    "Verif.Props.FractalFiles.C165_rows",
    "Verif.Props.FractalFiles.C165_variant"
   ],
   "note": "Iterations with exact complex numbers and natural exponents; points of the plane with double arithmetic as in C151. Fewer than 256 steps; bit patterns for domains that are not negative. Superellipses are excluded (C151)."
  },
  {
   "property": "C166",
   "status": "partial",
   "theorems": [
    "Verif.Props.Misc.C166_seconds",
    "Verif.Props.Misc.C166_exact",
    "Verif.Props.Misc.C166_false",
    "Verif.Props.Misc.C166_quotient"
   ],
   "note": "The nanoseconds are written without leading zeros; the text is right exactly when there are none or nine digits of them. Whole seconds are always right."
  },
  {
   "property": "C167",
   "status": "proved",
   "theorems": [
    "Verif.Props.Sphere.C167_sphere"
   ],
   "note": "Exact real numbers; a sphere with another centre has a wrong pole (C117)."
  },
  {
   "property": "C168",
   "status": "proved",
   "theorems": [
    "Verif.Props.Newton.C168_table",
    "Verif.Props.Newton.C168_picture",
    "Verif.Props.Newton.C168_domains"
   ],
   "note": "Iterations with exact complex numbers; points of the plane with double arithmetic; 24-bit images with at least as many factors as the degree (palettes: C154)."
  },
  {
   "property": "C169",
   "status": "partial",
   "theorems": [
    "Verif.Props.Fonts.C169_tables",
    "Verif.Props.Fonts.C169_glyphs",
    "Verif.Props.Fonts.C169_distinct",
    "Verif.Props.Fonts.C169_blank",
    "Verif.Props.Fonts.C169_makecharbuf",
    "Verif.Props.Fonts.C169_makecharbuf_zero",
    "Verif.Props.Fonts.C169_makecharbuf_wrong",
    "Verif.Props.Fonts.C169_getcharset"
   ],
   "note": "Dictionaries with glyphs of different heights give shifted glyphs (`C169_makecharbuf_wrong`); without the digit 0 the generator fails. The six tables are complete and distinct."
  },
  {
   "property": "C17",
   "status": "proved",
   "theorems": [
    "Verif.Props.C17_put_get",
    "Verif.Props.C17_rejected"
   ],
   "note": ""
  },
  {
   "property": "C170",
   "status": "partial",
   "theorems": [
    "Verif.Props.Fonts.C170_legible_all",
    "Verif.Props.Fonts.C170_legible_mirrored",
    "Verif.Props.Fonts.C170_picture",
    "Verif.Props.Fonts.C170_same_all",
    "Verif.Props.Fonts.C170_dots_wrong",
    "Verif.Props.Fonts.C170_mirrored_wrong",
    "Verif.Props.Fonts.C170_legible_partial",
    "Verif.Props.Fonts.C170_same"
   ],
   "note": "For all twenty text functions on all depths, for texts inside the image. False for discs of side 2 on 4-bit images, which leave no trace at even columns (C170_dots_wrong), and for mirrored texts in four of the fonts, because mirrored glyphs lack their last column (C170_mirrored_wrong)."
  },
  {
   "property": "C171",
   "status": "partial",
   "theorems": [
    "Verif.Props.C171_vertical",
    "Verif.Props.C171_horizontal",
    "Verif.Props.C171_disc",
    "Verif.Props.C171_order",
    "Verif.Props.C171_images",
    "Verif.Props.C171_files",
    "Verif.Props.C171_disc_files"
   ],
   "note": "Which pixels are reached is in C60, C76 and C85 (top row and ends missed, one row or column fails). Rectangles of more than 2^14 rows or columns: a thousandth more than the rounding. Whole percentages up to 10000."
  },
  {
   "property": "C172",
   "status": "proved",
   "theorems": [
    "Verif.Props.HSL.C172_hsl",
    "Verif.Props.HSL.C172_range",
    "Verif.Props.HSL.C172_halves_wrong",
    "Verif.Props.HSL.C172_grey_wrong"
   ],
   "note": "53-bit floats. Halves can go either way (C172_halves_wrong), where C130 has the even number; colours near grey can get the saturation 0 (C172_grey_wrong)."
  },
  {
   "property": "C173",
   "status": "partial",
   "theorems": [
    "Verif.Props.Laws.C173_half_turn",
    "Verif.Props.Laws.C173_quarter_turn",
    "Verif.Props.Laws.C173_direction_wrong",
    "Verif.Props.Laws.C173_four_turns",
    "Verif.Props.Laws.C173_two_turns",
    "Verif.Props.Laws.C173_crop_vertical",
    "Verif.Props.Laws.C173_crop_horizontal",
    "Verif.Props.Laws.C173_crop_crop",
    "Verif.Props.Laws.C173_enlarge_vertical",
    "Verif.Props.Laws.C173_enlarge_horizontal",
    "Verif.Props.Laws.C173_enlarge_twice",
    "Verif.Props.Laws.C173_bigger_smaller",
    "Verif.Props.Laws.C173_invert",
    "Verif.Props.Laws.C173_upgrade"
   ],
   "note": "With the limits of C30, C34 and C40: horizontal laws for 8, 24 and even 4-bit widths. The direction of the quarter turn depends on the depth (C173_direction_wrong); the last column of odd 24-bit widths turns black when made bigger and smaller (in C173_bigger_smaller)."
  },
  {
   "property": "C174",
   "status": "partial",
   "theorems": [
    "Verif.Props.Clip.C174_reverse_near",
    "Verif.Props.Clip.C174_reverse_false",
    "Verif.Props.Clip.C174_inside",
    "Verif.Props.Clip.C174_axis",
    "Verif.Props.Clip.C174_clip_false"
   ],
   "note": "Both parts are false: the reverse has other points (C174_reverse_false), though never more than one pixel away if the line is not diagonal (C174_reverse_near; diagonals are in C23_diagonal), and end points outside are moved to the edge separately in x and y (C174_clip_false). True for lines inside (C174_inside) and for level and upright lines through the image (C174_axis)."
  },
  {
   "property": "C175",
   "status": "partial",
   "theorems": [
    "Verif.Props.Param.C175_flower",
    "Verif.Props.Param.C175_gear",
    "Verif.Props.Param.C175_heart",
    "Verif.Props.Param.C175_cornu",
    "Verif.Props.Param.C175_lissajous",
    "Verif.Props.Param.C175_epicycloid",
    "Verif.Props.Param.C175_hypotrochoid",
    "Verif.Props.Param.C175_spirograph",
    "Verif.Props.Param.C175_involute",
    "Verif.Props.Param.C175_polygon",
    "Verif.Props.Param.C175_ellipserot"
   ],
   "note": "For all eleven iterators named. The arithmetic is any that keeps the error bounds of the structure Floats; floats53 is one. Missing: superellipses and eggs, whose powers and roots are not Lipschitz, and the arrows of drawvec."
  },
  {
   "property": "C176",
   "status": "proved",
   "theorems": [
    "Verif.Props.FloatAttract.C176_bounded",
    "Verif.Props.FloatAttract.C176_dejong",
    "Verif.Props.FloatAttract.C176_clifford",
    "Verif.Props.FloatAttract.C176_dream",
    "Verif.Props.FloatAttract.C176_nattractor",
    "Verif.Props.FloatAttract.C176_gumowskimira",
    "Verif.Props.FloatAttract.C176_hopalong",
    "Verif.Props.FloatAttract.C176_duffing",
    "Verif.Props.FloatAttract.C176_ikeda",
    "Verif.Props.FloatAttract.C176_icon",
    "Verif.Props.FloatAttract.C176_prefix"
   ],
   "note": "All nine attractors. Numbers do not overflow (as for all floats of the model). Of the C library only the error bounds of the structure Libm are used; libm is one that has them."
  },
  {
   "property": "C177",
   "status": "proved",
   "theorems": [
    "Verif.Props.FloatEscape.C177_multibrot",
    "Verif.Props.FloatEscape.C177_multicorn",
    "Verif.Props.FloatEscape.C177_multijulia",
    "Verif.Props.FloatEscape.C177_lambda",
    "Verif.Props.FloatEscape.C177_tree",
    "Verif.Props.FloatEscape.C177_inside",
    "Verif.Props.FloatEscape.C177_outside",
    "Verif.Props.FloatEscape.C177_first",
    "Verif.Props.FloatEscape.C177_mirror",
    "Verif.Props.FloatEscape.C177_centre",
    "Verif.Props.FloatEscape.C177_files",
    "Verif.Props.FloatEscape.C177_iter"
   ],
   "note": "Powers of complex numbers are computed as Python does it (repeated squaring, exponents up to 100). Numbers do not overflow. Points whose orbit comes closer to the circle than the error are not described, apart from the symmetries and C177_first."
  },
  {
   "property": "C178",
   "status": "proved",
   "theorems": [
    "Verif.Props.Superellipse.C178_value",
    "Verif.Props.Superellipse.C178_colours",
    "Verif.Props.Superellipse.C178_two",
    "Verif.Props.Superellipse.C178_fails"
   ],
   "note": "The failure with 16 and 256 colours is a fault of the code (DESIGN.md section 6, C151)."
  },
  {
   "property": "C179",
   "status": "proved",
   "theorems": [
    "Verif.Props.Environ.C179_path",
    "Verif.Props.Environ.C179_keeps",
    "Verif.Props.Environ.C179_once",
    "Verif.Props.Environ.C179_grows",
    "Verif.Props.Environ.C179_empty",
    "Verif.Props.Environ.C179_save"
   ],
   "note": "Texts are lists of characters; the directory is a parameter."
  },
  {
   "property": "C18",
   "status": "proved",
   "theorems": [
    "Verif.Props.C18_vertical_get",
    "Verif.Props.C18_outside"
   ],
   "note": ""
  },
  {
   "property": "C180",
   "status": "partial",
   "theorems": [
    "Verif.Props.Overlay.C180_layers",
    "Verif.Props.Overlay.C180_order",
    "Verif.Props.Overlay.C180_twice",
    "Verif.Props.Overlay.C180_hidden",
    "Verif.Props.Overlay.C180_order_wrong"
   ],
   "note": "For calls that paint just their area (Safe): missing are rows that delete bytes or fail (C19), columns below the image (C20), diagonals at the edge (C24) and filled rectangles on 8-bit images (C22). On 4-bit images the area is the one really painted (C19); for the pixels named by the caller the claim is false (C180_order_wrong)."
  },
  {
   "property": "C181",
   "status": "partial",
   "theorems": [
    "Verif.Props.Overlay.C181_upsidedown",
    "Verif.Props.Overlay.C181_reversed",
    "Verif.Props.Overlay.C181_reversed_wrong"
   ],
   "note": "flipvertical for all depths; fliphorizontal for 8 and 24 bits without diagonals that end in the last row, false on 4-bit images (C181_reversed_wrong). Calls as in C180."
  },
  {
   "property": "C182",
   "status": "partial",
   "theorems": [
    "Verif.Props.Overlay.C182_inverted"
   ],
   "note": "For the calls of C180 (Safe)."
  },
  {
   "property": "C183",
   "status": "partial",
   "theorems": [
    "Verif.Props.Overlay.C183_crop_partial",
    "Verif.Props.Overlay.C183_line_wrong",
    "Verif.Props.Overlay.C183_nibble_wrong"
   ],
   "note": "For the calls of C180 (Safe) on 1, 8 and 24 bits, and lines and rectangles whose corners are in the part; false for others (C183_line_wrong) and for 4 bits (C183_nibble_wrong). Colour numbers; for the palette see C35."
  },
  {
   "property": "C184",
   "status": "partial",
   "theorems": [
    "Verif.Props.Overlay.C184_tone",
    "Verif.Props.Overlay.C184_filter_wrong",
    "Verif.Props.Overlay.C184_palette",
    "Verif.Props.Overlay.C184_box_wrong"
   ],
   "note": "For the calls of C180 (Safe). False for the colour filter, which leaves the last column as it is (C184_filter_wrong), and for filled rectangles on 8-bit images (C184_box_wrong)."
  },
  {
   "property": "C185",
   "status": "partial",
   "theorems": [
    "Verif.Props.Overlay.C185_upgrade_partial",
    "Verif.Props.Overlay.C185_nibble_wrong"
   ],
   "note": "For the calls of C180 (Safe) on 8 bits and on 1 bit with rows of whole bytes, without diagonals down to the last row; false for 4 bits (C185_nibble_wrong)."
  },
  {
   "property": "C186",
   "status": "proved",
   "theorems": [
    "Verif.Props.Fonts.C186_join",
    "Verif.Props.Fonts.C186_lines",
    "Verif.Props.Fonts.C186_tabs",
    "Verif.Props.Fonts.C186_traceless",
    "Verif.Props.Fonts.C186_join_wrong"
   ],
   "note": "Byte for byte and with the exceptions of the parts, for all twenty functions with an int colour. Parts are lines or parts of lines; C186_join_wrong shows that parts of several lines start their second line elsewhere. Blanks and tabs for the six fonts of the library."
  },
  {
   "property": "C187",
   "status": "partial",
   "theorems": [
    "Verif.Props.Rest.C187_bgr",
    "Verif.Props.Rest.C187_bgra_wrong",
    "Verif.Props.Rest.C187_isdefault",
    "Verif.Props.Rest.C187_monoBGR",
    "Verif.Props.Rest.C187_match_exact",
    "Verif.Props.Rest.C187_match_false"
   ],
   "note": "Proved for the palettes. Refuted for matchRGBtodefault4bitpal: red and blue are exchanged, and colours of the palette itself are matched to others (C187_match_false); C187_match_exact says for all colours what is chosen. Entries of four numbers make the file longer (C187_bgra_wrong)."
  },
  {
   "property": "C188",
   "status": "proved",
   "theorems": [
    "Verif.Props.Rest.C188_bspline",
    "Verif.Props.Rest.C188_bezier",
    "Verif.Props.Rest.C188_box_wrong",
    "Verif.Props.Rest.C188_circle"
   ],
   "note": "The control points with exact coordinates. One step outside occurs along diagonals (C188_box_wrong). A single control point of a Bezier curve is C120_single_wrong."
  },
  {
   "property": "C189",
   "status": "proved",
   "theorems": [
    "Verif.Props.Rest.C189_bounded",
    "Verif.Props.Rest.C189_rounding"
   ],
   "note": "All four systems; C189_rounding: exact numbers and floats satisfy the condition on the rounding. The decimal fractions of the tables stand for the nearest floats."
  },
  {
   "property": "C19",
   "status": "partial",
   "theorems": [
    "Verif.Props.C19_horiline_partial",
    "Verif.Props.C19_row_outside",
    "Verif.Props.C19_left_truncates",
    "Verif.Props.C19_4bit_wrong",
    "Verif.Props.C19_horiline_4bit",
    "Verif.Props.C19_4bit_iff",
    "Verif.Props.C19_4bit_right_wrong",
    "Verif.Props.C19_horiline_depths",
    "Verif.Props.C19_4bit_right_error",
    "Verif.Props.C19_exact",
    "Verif.Props.C19_safe_iff",
    "Verif.Props.C19_left_exact",
    "Verif.Props.C19_left_kept"
   ],
   "note": "1-bit unrestricted; 8/24-bit unless the whole segment lies far left of the image (then the code deletes file bytes, witness proved); 4-bit: the exact set is proved for every segment that meets the image, and it is the segment just for even left and odd right ends. C19_exact gives the result for every segment and depth without exception: the painted set, the deleted bytes (segments left of the image) or the IndexError (4-bit, odd left end behind the end of the file); C19_safe_iff says exactly when the segment is painted as described by RowSet"
  },
  {
   "property": "C190",
   "status": "proved",
   "theorems": [
    "Verif.Props.Rest.C190_center",
    "Verif.Props.Rest.C190_neighbours",
    "Verif.Props.Rest.C190_matrix",
    "Verif.Props.Rest.C190_rotation",
    "Verif.Props.Rest.C190_plotvec"
   ],
   "note": "Which pixels are around is C52, with its faults at the borders. plotRGBxybitvec for images of 24 bits."
  },
  {
   "property": "C191",
   "status": "partial",
   "theorems": [
    "Verif.Props.Plane.C191_fill",
    "Verif.Props.Plane.C191_outline_partial",
    "Verif.Props.Plane.C191_plane_fails",
    "Verif.Props.Edge.C145_outline_narrow"
   ],
   "note": "Filling is proved for all bodies, but for faces seen exactly from the front with a factor 1, which fail (C145_away_exact). Outlines: lines as in C145 (C145_outline_narrow has all of them on images with a palette that are not too wide)."
  },
  {
   "property": "C192",
   "status": "partial",
   "theorems": [
    "Verif.Props.Overlay.C192_exchanged",
    "Verif.Props.Overlay.C192_turned",
    "Verif.Props.Overlay.C192_diagonal_wrong",
    "Verif.Props.Overlay.C192_nibble_wrong"
   ],
   "note": "Images of 1 bit (C192_exchanged) and, with the other diagonal of C34, of 8 and 24 bits (C192_turned). All ten kinds of figures; a disc is as wide as it is high in every respect (disc_exchange). Refuted for lines at 45 degrees (C192_diagonal_wrong) and for rows on 4-bit images (C192_nibble_wrong)."
  },
  {
   "property": "C193",
   "status": "partial",
   "theorems": [
    "Verif.Props.Overlay.C193_enlarged_partial",
    "Verif.Props.Overlay.C193_odd_wrong"
   ],
   "note": "Images of 8 bits and of 24 bits and even width; refuted for 24 bits and odd width (C193_odd_wrong); 1 and 4 bits have the faults of C40 and C19."
  },
  {
   "property": "C194",
   "status": "partial",
   "theorems": [
    "Verif.Props.Chains.C194_chain",
    "Verif.Props.Chains.C194_memory",
    "Verif.Props.Chains.C194_exchange",
    "Verif.Props.Chains.C194_rows_wrong"
   ],
   "note": "Calls without the faults of C30, C31, C53 to C56 and C81 on images with several pixels in a byte (Fitting). C194_memory is for all calls on images with pixels, also those with these faults or rejected rectangles; only every 0th line raises an exception. Exchange of two programs on rows is refuted (C194_rows_wrong)."
  },
  {
   "property": "C195",
   "status": "partial",
   "theorems": [
    "Verif.Props.Pipeline.C195_pipeline",
    "Verif.Props.Pipeline.C195_drawn_unique",
    "Verif.Props.Pipeline.C195_difference"
   ],
   "note": "Figures as in C180 (Safe), programs as in C194 (Fitting)."
  },
  {
   "property": "C196",
   "status": "partial",
   "theorems": [
    "Verif.Props.Beyond.C196_reduced",
    "Verif.Props.Beyond.C196_painted",
    "Verif.Props.Beyond.C196_truecolour",
    "Verif.Props.Beyond.C196_untouched",
    "Verif.Props.Beyond.C196_slanted_one",
    "Verif.Props.Beyond.C196_ring",
    "Verif.Props.Beyond.C196_wrong",
    "Verif.Props.Beyond.C196_outside_wrong",
    "Verif.Props.Abort.C196_slanted_four",
    "Verif.Props.Abort.C196_slanted_raises"
   ],
   "note": "True for points, rows, columns, borders, discs, thick lines and thick circles, for boxes and circles on 1- and 4-bit images and for level and upright lines (C196_reduced, C196_painted). Refuted for slanted lines on 1- and 4-bit images, circles on 8-bit images (C196_wrong; exact: C196_slanted_one, C196_slanted_four, C196_slanted_raises, C196_ring) and on 24-bit images for circles and discs outside of the image (C196_outside_wrong; exact: C196_truecolour). Boxes on 8-bit images search the palette (C22). Calls as in C180 (Safe)."
  },
  {
   "property": "C197",
   "status": "partial",
   "theorems": [
    "Verif.Props.Stencils.C197_layers",
    "Verif.Props.Stencils.C197_unique",
    "Verif.Props.Stencils.C197_order",
    "Verif.Props.Stencils.C197_twice",
    "Verif.Props.Stencils.C197_hidden",
    "Verif.Props.Stencils.C197_erased",
    "Verif.Props.Stencils.C197_inverted",
    "Verif.Props.Stencils.C197_tone",
    "Verif.Props.Stencils.C197_palette",
    "Verif.Props.Stencils.C197_moved",
    "Verif.Props.Stencils.C197_cropped",
    "Verif.Props.Stencils.C197_enlarged",
    "Verif.Props.Stencils.C197_exchanged",
    "Verif.Props.Stencils.C197_pipeline",
    "Verif.Props.Stencils.C197_figure",
    "Verif.Props.Stencils.C197_plotxypointlist",
    "Verif.Props.Stencils.C197_plotlines",
    "Verif.Props.Stencils.C197_thicklines",
    "Verif.Props.Stencils.C197_plotpolylist",
    "Verif.Props.Stencils.C197_plotpoly",
    "Verif.Props.Stencils.C197_thickplotpoly",
    "Verif.Props.Stencils.C197_plotpolyfill",
    "Verif.Props.Stencils.C197_filledparallelogram",
    "Verif.Props.Stencils.C197_fillboundary",
    "Verif.Props.Stencils.C197_ellipse",
    "Verif.Props.Stencils.C197_filledellipse",
    "Verif.Props.Stencils.C197_thickellipserot",
    "Verif.Props.Stencils.C197_drawarc",
    "Verif.Props.Stencils.C197_fillarc",
    "Verif.Props.Stencils.C197_bspline",
    "Verif.Props.Stencils.C197_beziercurve",
    "Verif.Props.Stencils.C197_drawvec",
    "Verif.Props.Stencils.C197_thickvec",
    "Verif.Props.Stencils.C197_xygrid",
    "Verif.Props.Stencils.C197_fern",
    "Verif.Props.Stencils.C197_text",
    "Verif.Props.Stencils.C197_box_wrong"
   ],
   "note": "Each function for the calls of its own property (conditions of C24, C27, C92 to C99, C119 to C122, C135, C141, C153). Refuted for filled rectangles on 8-bit images, which search the palette (C197_box_wrong). C197_unique: the painted set is determined by the function."
  },
  {
   "property": "C198",
   "status": "partial",
   "theorems": [
    "Verif.Props.C198_load",
    "Verif.Props.C198_read_exact",
    "Verif.Props.C198_read_partial",
    "Verif.Props.C198_top_exact",
    "Verif.Props.C198_depth_exact",
    "Verif.Props.C198_palette_exact",
    "Verif.Props.C198_rows",
    "Verif.Props.C198_false",
    "Verif.Props.C198_palette_wrong",
    "Verif.Props.C198_disagree",
    "Verif.Props.C198_plot_wrong"
   ],
   "note": "Loading is proved. Whole-row functions are right for every place of the data and both orders of rows, except that mirrortop and mirrorbottom are exchanged for rows from the top. Pixels: right if the data begin where the library puts them and rows are stored from the bottom (C198_read_partial); false otherwise (C198_false, C198_plot_wrong, C198_palette_wrong), C198_read_exact, C198_top_exact and C198_palette_exact say what is read instead. Files from the top of at most 2^22 rows."
  },
  {
   "property": "C199",
   "status": "partial",
   "theorems": [
    "Verif.Props.C199_load",
    "Verif.Props.C199_read",
    "Verif.Props.C199_plot",
    "Verif.Props.C199_false"
   ],
   "note": "Proved for loading, reading and, on images with a palette, plotting; the header must be complete for pixels, the size field for loading. Refuted for plotting on 24-bit images (C199_false): a missing pixel is put at the end of the file, where it shows up at another place; C199_plot says exactly what happens."
  },
  {
   "property": "C20",
   "status": "partial",
   "theorems": [
    "Verif.Props.C20_vertline_partial",
    "Verif.Props.C20_below",
    "Verif.Props.C20_below_deletes",
    "Verif.Props.C20_exact",
    "Verif.Props.C20_below_iff",
    "Verif.Props.C20_safe_iff",
    "Verif.Props.C20_header"
   ],
   "note": "8/24-bit segments wholly below the image: nothing happens if they are near, far below bytes of the file are deleted, witness proved. C20_exact gives the result for every segment and depth: the painted set or the file without the deleted bytes; C20_below_iff says exactly when nothing is deleted."
  },
  {
   "property": "C200",
   "status": "partial",
   "theorems": [
    "Verif.Props.Abort.C200_plotxybit",
    "Verif.Props.Abort.C200_horiline",
    "Verif.Props.Abort.C200_vertline",
    "Verif.Props.Abort.C200_line",
    "Verif.Props.Abort.C200_plotlines",
    "Verif.Props.Abort.C200_plotpoly",
    "Verif.Props.Abort.C200_rectangle",
    "Verif.Props.Abort.C200_plotpolylist",
    "Verif.Props.Abort.C200_plot_safe",
    "Verif.Props.Abort.C200_horiline_safe",
    "Verif.Props.Abort.C200_vertline_left",
    "Verif.Props.Abort.C200_vertline_safe",
    "Verif.Props.Abort.C200_line_wide",
    "Verif.Props.Abort.C200_line_left",
    "Verif.Props.Abort.C200_line_safe",
    "Verif.Props.Abort.C200_diagonal_left",
    "Verif.Props.Abort.C200_plotlines_left",
    "Verif.Props.Abort.C200_plotpoly_left",
    "Verif.Props.Abort.C200_rectangle_safe",
    "Verif.Props.Abort.C200_filledrect",
    "Verif.Props.Abort.C200_circle",
    "Verif.Props.Abort.C200_filledcircle",
    "Verif.Props.Abort.C200_filledrect_safe",
    "Verif.Props.Abort.C200_circle_safe",
    "Verif.Props.Abort.C200_disc_wide",
    "Verif.Props.Abort.C200_disc_wrong",
    "Verif.Props.Abort.C200_false",
    "Verif.Props.Abort.C200_ellipse",
    "Verif.Props.Abort.C200_roundpen",
    "Verif.Props.Abort.C200_plotxypointlist",
    "Verif.Props.Abort.C200_thickroundline",
    "Verif.Props.Abort.C200_thickcircle",
    "Verif.Props.Abort.C200_xygrid",
    "Verif.Props.Abort.C200_vertlinevert",
    "Verif.Props.Abort.C200_horilinevert",
    "Verif.Props.Abort.C200_filledparallelogram",
    "Verif.Props.Abort.C200_ellipse_safe",
    "Verif.Props.Abort.C200_stroke_wide",
    "Verif.Props.Abort.C200_tyre_wide",
    "Verif.Props.Abort.C200_points_wide",
    "Verif.Props.Abort.C200_horilinevert_left",
    "Verif.Props.Abort.C200_vertlinevert_left",
    "Verif.Props.Abort.C200_grid_zero_x",
    "Verif.Props.Abort.C200_grid_zero_y",
    "Verif.Props.Abort.C200_grid_left",
    "Verif.Props.Abort.C200_grid_false",
    "Verif.Props.Abort.C200_negative_even",
    "Verif.Props.Abort.C200_negative_odd",
    "Verif.Props.Abort.C200_negative_corner",
    "Verif.Props.Abort.C200_negative_false",
    "Verif.Props.Abort.C200_setbmppal",
    "Verif.Props.Abort.C200_setbmppalwithBGRAlist",
    "Verif.Props.Abort.C200_setRGBpal",
    "Verif.Props.Abort.C200_setRGBpal_safe",
    "Verif.Props.Abort.C200_bgra_safe",
    "Verif.Props.Abort.C200_setbmppal_left",
    "Verif.Props.Abort.C200_palette_false",
    "Verif.Props.Abort.C200_plot8bitpattern",
    "Verif.Props.Abort.C200_plot8bitpatternupsidedown",
    "Verif.Props.Abort.C200_plot8bitpatternsideway",
    "Verif.Props.Abort.C200_plotitalic8bitpattern",
    "Verif.Props.Abort.C200_plotstring",
    "Verif.Props.Abort.C200_plotitalicstring",
    "Verif.Props.Abort.C200_plotstringupsidedown",
    "Verif.Props.Abort.C200_plotstringsideway",
    "Verif.Props.Abort.C200_text_left",
    "Verif.Props.Abort.C200_text_before",
    "Verif.Props.Abort.C200_italic_before",
    "Verif.Props.Abort.C200_upsidedown_after",
    "Verif.Props.Abort.C200_sideway_before",
    "Verif.Props.Abort.C200_pattern_wide",
    "Verif.Props.Abort.C200_text_wide",
    "Verif.Props.Abort.C200_text_false",
    "Verif.Props.Abort.C200_pattern_false",
    "Verif.Props.Session.C200_negative_exact"
   ],
   "note": "The functions are modelled a second time, statement by statement, and proved to agree with the first model (C200_plotxybit to C200_plotpolylist, C200_filledrect, C200_circle, C200_filledcircle, C200_ellipse to C200_filledparallelogram). Proved for all arguments for single pixels, horizontal lines, filled rectangles and circles; for slanted lines, rectangles and discs in numbers that are no colours of a 24-bit image, for vertical lines on images with a palette, and for lines that are not diagonal in colours of the image. Refuted (C200_false, C200_disc_wrong): C200_vertline_left and C200_line_left say which two of three colour components a failed vertical line overwrites on 24-bit images, C200_diagonal_left which points a failed diagonal leaves, C200_plotlines_left and C200_plotpoly_left which sides of a path stay, C200_grid_zero_y and C200_grid_left what a grid with step 0 or in no colour leaves, C200_horilinevert_left and C200_vertlinevert_left what lists of lines leave. Ellipses, thick lines, thick circles and points with a pen leave the picture as it is (C200_ellipse_safe, C200_stroke_wide, C200_tyre_wide, C200_points_wide). Slanted lines of 4-bit images in negative numbers: unharmed from an even column (C200_negative_even), refuted from an odd one (C200_negative_false), where only pixels of that column and the column before it change (C200_negative_odd, C200_negative_corner, pixel by pixel: C200_negative_exact). Palettes: single entries and lists of four numbers are safe (C200_setRGBpal_safe, C200_bgra_safe); setbmppal is refuted (C200_palette_false, exact: C200_setbmppal_left). Patterns and text: safe in numbers that are no colours of a 24-bit image (C200_pattern_wide, C200_text_wide); refuted for a character that the font does not have (C200_text_false, exact: C200_text_left, C200_text_before, C200_italic_before, C200_upsidedown_after, C200_sideway_before) and for lists of colours (C200_pattern_false). Missing: diagonals that overwrite the header."
  },
  {
   "property": "C201",
   "status": "partial",
   "theorems": [
    "Verif.Props.Padding.C201_figures",
    "Verif.Props.Padding.C201_text",
    "Verif.Props.Padding.C201_vertical",
    "Verif.Props.Padding.C201_horizontal_partial",
    "Verif.Props.Padding.C201_flipXY",
    "Verif.Props.Padding.C201_invert",
    "Verif.Props.Padding.C201_regions",
    "Verif.Props.Padding.C201_crop",
    "Verif.Props.Padding.C201_bigger",
    "Verif.Props.Padding.C201_upgrade",
    "Verif.Props.Padding.C201_filters",
    "Verif.Props.Padding.C201_compare",
    "Verif.Props.Padding.C201_statistics",
    "Verif.Props.Padding.C201_erase",
    "Verif.Props.Padding.C201_disc_vertical",
    "Verif.Props.Padding.C201_disc_horizontal",
    "Verif.Props.Padding.C201_disc_invert",
    "Verif.Props.Padding.C201_disc_brightness",
    "Verif.Props.Padding.C201_disc_copy",
    "Verif.Props.Padding.C201_horizontal_regions_partial",
    "Verif.Props.Padding.C201_rgb",
    "Verif.Props.Padding.C201_edges",
    "Verif.Props.Padding.C201_plotimgedges",
    "Verif.Props.Padding.C201_applysave",
    "Verif.Props.Padding.C201_chain",
    "Verif.Props.Padding.C201_false",
    "Verif.Props.Session.C201_session"
   ],
   "note": "Proved for lists of figures, text, vertical flips and mirrors of the image and of rectangles, exchanged axes, inversion, crop, enlargement, conversion to true colour, filters, comparison, pixel lists and histograms, erased lines, functions on discs, edges and pixels near a colour, and for files. Horizontal flips and mirrors of the image and of rectangles: proved for rows of whole bytes (C201_horizontal_partial, C201_horizontal_regions_partial), refuted for others (C201_false); C30_exact and C31_left_exact say which columns are taken from behind the row."
  },
  {
   "property": "C202",
   "status": "proved",
   "theorems": [
    "Verif.Props.Session.C202_session",
    "Verif.Props.Session.C202_ignored",
    "Verif.Props.Session.C202_palette",
    "Verif.Props.Session.C202_intact",
    "Verif.Props.Session.C202_untouched",
    "Verif.Props.Session.C202_last",
    "Verif.Props.Session.C202_untouched_all",
    "Verif.Props.Session.C202_last_all",
    "Verif.Props.Session.C202_false"
   ],
   "note": "24-bit images: C202_session; C202_ignored: with no stained pixels only the calls in colours count. Images with a palette: C202_palette. C202_intact: size, depth and palette stay. C202_untouched and C202_last: pixels that no call touches keep their colour, and the last figure over a pixel is seen; the _all theorems are for all calls. C202_false: the simpler claim that a call that raises leaves no trace is wrong, a column in no colour leaves its blue and green bytes."
  },
  {
   "property": "C203",
   "status": "partial",
   "theorems": [
    "Verif.Props.Session.C203_retry",
    "Verif.Props.Session.C203_order",
    "Verif.Props.Session.C203_covered",
    "Verif.Props.Session.C203_retry_ends",
    "Verif.Props.Session.C203_order_all",
    "Verif.Props.Session.C203_covered_all",
    "Verif.Props.Session.C203_any_order",
    "Verif.Props.Session.C203_retry_exact",
    "Verif.Props.Session.C203_retry_false"
   ],
   "note": "Exchanging calls and leaving them out is proved for all calls (C203_order_all, C203_any_order, C203_covered_all). Repetition is proved except for slanted lines in negative numbers on 4-bit images, for which it is refuted (C203_retry_false) and C203_retry_exact says exactly when it holds; at most fifteen attempts in a row change anything (C203_retry_ends, for all calls), and C200_negative_exact says what each attempt does."
  },
  {
   "property": "C21",
   "status": "partial",
   "theorems": [
    "Verif.Props.C21_filledrect_partial",
    "Verif.Props.C21_filledrect_8bit",
    "Verif.Props.C21_rejected",
    "Verif.Props.C21_4bit_wrong",
    "Verif.Props.C21_filledrect_4bit"
   ],
   "note": "1/24-bit unrestricted, 8-bit shape only (colour: see C22), 4-bit: the exact set for every rectangle; it is the rectangle for even left and odd right edges only"
  },
  {
   "property": "C22",
   "status": "partial",
   "theorems": [
    "Verif.Props.C22_wrong_index",
    "Verif.Props.C22_exact"
   ],
   "note": "The property is false of the code: witness proved. C22_exact states what is painted instead, for every palette."
  },
  {
   "property": "C23",
   "status": "partial",
   "theorems": [
    "Verif.Props.C23_iterline_partial",
    "Verif.Props.C23_twice",
    "Verif.Props.C23_diagonal",
    "Verif.Props.C23_diagonal_example"
   ],
   "note": "false for |dx| = |dy| > 0: exact behaviour proved for all such end points; the second end point is produced twice"
  },
  {
   "property": "C24",
   "status": "partial",
   "theorems": [
    "Verif.Props.C24_line_partial",
    "Verif.Props.C24_diagonal_header",
    "Verif.Props.C24_line_4bit",
    "Verif.Props.C24_diagonal",
    "Verif.Props.C24_diagonal_start",
    "Verif.Props.C24_lineSet",
    "Verif.Props.C24_diagonal_top",
    "Verif.Props.C24_diagonal_top_24",
    "Verif.Props.C24_diagonal_bottom",
    "Verif.Props.C24_diagonal_head",
    "Verif.Props.C24_diagonal_wide"
   ],
   "note": "Diagonals have another set of pixels, which is proved exactly (the start is missing, one point too many at the end). Diagonals that end in the first row raise IndexError on 4 and 8 bits and lengthen 24-bit files by three bytes; diagonals that end in the last row overwrite palette or header bytes (proved except for bytes 22 to 24 and 28) or, on wide images, set one more pixel in the first row (C24_diagonal_wide). The exact set of 4-bit horizontal lines is proved."
  },
  {
   "property": "C25",
   "status": "proved",
   "theorems": [
    "Verif.Props.C25_circle_points",
    "Verif.Props.C25_circle_accuracy",
    "Verif.Props.C25_circle_symmetric",
    "Verif.Props.C25_circle_covers",
    "Verif.Props.C25_circle_terminates"
   ],
   "note": "C25_circle_points is stronger: it gives the exact set of points"
  },
  {
   "property": "C26",
   "status": "proved",
   "theorems": [
    "Verif.Props.C26_circle"
   ],
   "note": "for colour numbers of the depth of the image"
  },
  {
   "property": "C27",
   "status": "partial",
   "theorems": [
    "Verif.Props.C27_scanlines",
    "Verif.Props.C27_filledcircle_partial",
    "Verif.Props.C27_4bit_wrong",
    "Verif.Props.C27_left_truncates",
    "Verif.Props.C27_filledcircle_4bit",
    "Verif.Props.C27_filledcircle_depths",
    "Verif.Props.C27_safe",
    "Verif.Props.C27_left_exact"
   ],
   "note": "The generator part is proved for all radii. Drawing: false on 4-bit images (exact set proved for centres up to the padding on the right, C27_filledcircle_depths) and for centres far left of 8/24-bit images (witnesses proved), proved otherwise. C27_safe proves the painted set for every centre for which no row deletes bytes or leaves the file; for discs left of the image C27_left_exact says exactly when the file is kept. Missing: the resulting file when a disc that reaches the image also has rows that delete bytes"
  },
  {
   "property": "C28",
   "status": "proved",
   "theorems": [
    "Verif.Props.C28_flipvertical"
   ],
   "note": ""
  },
  {
   "property": "C29",
   "status": "proved",
   "theorems": [
    "Verif.Props.C29_mirrortop",
    "Verif.Props.C29_mirrorbottom"
   ],
   "note": ""
  },
  {
   "property": "C30",
   "status": "partial",
   "theorems": [
    "Verif.Props.C30_fliphorizontal_partial",
    "Verif.Props.C30_4bit_wrong",
    "Verif.Props.C30_1bit_wrong",
    "Verif.Props.C30_exact",
    "Verif.Props.C30_undo"
   ],
   "note": "8/24-bit of any width and 4-bit of even width proved; false for 4-bit odd widths and for 1-bit, witnesses proved; C53_fliphorizontalregion_1bit gives the exact effect on whole 1-bit bytes; C30_exact describes the result for every width and depth, C30_undo that two flips restore the file in 4-, 8- and 24-bit images"
  },
  {
   "property": "C31",
   "status": "partial",
   "theorems": [
    "Verif.Props.C31_mirrorleft_partial",
    "Verif.Props.C31_mirrorright_partial",
    "Verif.Props.C31_4bit_wrong",
    "Verif.Props.C31_1bit_wrong",
    "Verif.Props.C31_left_exact",
    "Verif.Props.C31_right_exact"
   ],
   "note": "8/24-bit of any width and 4-bit widths divisible by four proved; false otherwise, witnesses proved; the exact theorems describe the result for every width and depth"
  },
  {
   "property": "C32",
   "status": "proved",
   "theorems": [
    "Verif.Props.C32_invertimagebits"
   ],
   "note": ""
  },
  {
   "property": "C33",
   "status": "proved",
   "theorems": [
    "Verif.Props.C33_invertregion",
    "Verif.Props.C33_twice",
    "Verif.Props.C33_rejected"
   ],
   "note": ""
  },
  {
   "property": "C34",
   "status": "partial",
   "theorems": [
    "Verif.Props.C34_flipXY_packed_partial",
    "Verif.Props.C34_flipXY_bytes",
    "Verif.Props.C34_false"
   ],
   "note": "1/4-bit images are transposed; 8/24-bit images are reflected in the other diagonal instead, exact effect and counterexample proved"
  },
  {
   "property": "C35",
   "status": "partial",
   "theorems": [
    "Verif.Props.C35_crop_partial",
    "Verif.Props.C35_outside",
    "Verif.Props.C35_looks_same_partial",
    "Verif.Props.C35_false"
   ],
   "note": "colour numbers and size for every selection; 8-bit crops get the default palette instead of the source palette, so the RGB part fails there, counterexample proved"
  },
  {
   "property": "C36",
   "status": "partial",
   "theorems": [
    "Verif.Props.C36_paste_exact",
    "Verif.Props.C36_paste_partial",
    "Verif.Props.C36_round_trip_above",
    "Verif.Props.C36_outside",
    "Verif.Props.C36_false",
    "Verif.Props.C36_copy_exact",
    "Verif.Props.C36_paste_any",
    "Verif.Props.C36_endless"
   ],
   "note": "exact effect for rectangles of whole bytes with rows below 256 bytes: pasted one row too low (and modulo 256 rows); round trip false as stated, counterexample proved; C36_copy_exact and C36_paste_any drop the whole-byte restriction: columns that are not whole bytes lose their rest and one row too many is copied; C36_endless: for rows of 256, 512, ... bytes the loop of pasterect never ends"
  },
  {
   "property": "C37",
   "status": "partial",
   "theorems": [
    "Verif.Props.C37_upgrade_exact",
    "Verif.Props.C37_upgrade_partial",
    "Verif.Props.C37_empty",
    "Verif.Props.C37_false"
   ],
   "note": "exact effect for every image; true when rows consist of whole bytes, otherwise the last columns turn black, counterexample proved"
  },
  {
   "property": "C38",
   "status": "proved",
   "theorems": [
    "Verif.Props.C38_iterimagecolor",
    "Verif.Props.C38_exactly_once"
   ],
   "note": ""
  },
  {
   "property": "C39",
   "status": "partial",
   "theorems": [
    "Verif.Props.C39_iterimageRGB_partial",
    "Verif.Props.C39_only_bottom_row",
    "Verif.Props.C39_false"
   ],
   "note": "true when rows consist of whole bytes; otherwise only the bottom row is produced, exact effect and counterexample proved"
  },
  {
   "property": "C40",
   "status": "partial",
   "theorems": [
    "Verif.Props.C40_resize_exact",
    "Verif.Props.C40_resize_partial",
    "Verif.Props.C40_false",
    "Verif.Props.C40_24bit_odd_false"
   ],
   "note": "exact effect for every image and factor; true for 8-bit images and 4/24-bit images of even width; counterexamples otherwise"
  },
  {
   "property": "C41",
   "status": "proved",
   "theorems": [
    "Verif.Props.C41_unpack_pack",
    "Verif.Props.C41_pack_unpack",
    "Verif.Props.C41_arrays",
    "Verif.Props.C41_injective",
    "Verif.Props.C41_RGB2BGRarr_rejects"
   ],
   "note": "All integers and all triples."
  },
  {
   "property": "C42",
   "status": "partial",
   "theorems": [
    "Verif.Props.C42_exact_match",
    "Verif.Props.C42_nearest_partial",
    "Verif.Props.C42_valid_index",
    "Verif.Props.C42_false"
   ],
   "note": "False as stated: black palette entries are skipped by the search, and a black colour that is not in the palette gives index 0. The partial theorem gives the first nearest among the entries that are not black."
  },
  {
   "property": "C43",
   "status": "partial",
   "theorems": [
    "Verif.Props.C43_nibbles",
    "Verif.Props.C43_rotatebits_exact",
    "Verif.Props.C43_rotatebits_partial",
    "Verif.Props.C43_flipbuf_exact",
    "Verif.Props.C43_false"
   ],
   "note": "rotatebits drops bit 0, so one-bit reversal loses the first pixel of each byte of the result. The other depths are reversed exactly."
  },
  {
   "property": "C44",
   "status": "proved",
   "theorems": [
    "Verif.Props.C44_depth",
    "Verif.Props.C44_rect_guards",
    "Verif.Props.C44_unchanged"
   ],
   "note": "Any decorated function and all integer corners. The type checks succeed on integers and are not modelled."
  },
  {
   "property": "C45",
   "status": "partial",
   "theorems": [
    "Verif.Props.C45_circle_guards",
    "Verif.Props.C45_entirecircle_exact",
    "Verif.Props.C45_entirecircle_partial",
    "Verif.Props.C45_false"
   ],
   "note": "entirecircleinboundary compares both coordinates with the width; the other two decorators are right."
  },
  {
   "property": "C46",
   "status": "partial",
   "theorems": [
    "Verif.Props.C46_isinrectbnd",
    "Verif.Props.C46_exact",
    "Verif.Props.C46_partial",
    "Verif.Props.C46_false"
   ],
   "note": "Both list predicates always return True."
  },
  {
   "property": "C47",
   "status": "proved",
   "theorems": [
    "Verif.Props.C47_one_sided",
    "Verif.Props.C47_clamps",
    "Verif.Props.C47_agree",
    "Verif.Props.C47_isinrange",
    "Verif.Props.C47_sortrecpoints"
   ],
   "note": "Integers; floats are not modelled."
  },
  {
   "property": "C48",
   "status": "proved",
   "theorems": [
    "Verif.Props.C48_plot8bitpattern",
    "Verif.Props.C48_colours",
    "Verif.Props.C48_no_colours"
   ],
   "note": "Any depth, position and pattern of non-negative rows."
  },
  {
   "property": "C49",
   "status": "proved",
   "theorems": [
    "Verif.Props.C49_imagediff",
    "Verif.Props.C49_showsimilarparts",
    "Verif.Props.C49_zero_iff",
    "Verif.Props.C49_symmetric",
    "Verif.Props.C49_self",
    "Verif.Props.C49_geometry"
   ],
   "note": "All depths; pixel-wise exclusive or / and. The zero test is on the image bytes, padding included, as in the code."
  },
  {
   "property": "C50",
   "status": "proved",
   "theorems": [
    "Verif.Props.C50_monofilter",
    "Verif.Props.C50_image",
    "Verif.Props.C50_idempotent",
    "Verif.Props.C50_rejected"
   ],
   "note": "All 24-bit images and rectangles."
  },
  {
   "property": "C51",
   "status": "proved",
   "theorems": [
    "Verif.Props.C51_colorhistogram"
   ],
   "note": "The order, the counts, the set of colours and the sum of the counts."
  },
  {
   "property": "C52",
   "status": "partial",
   "theorems": [
    "Verif.Props.C52_exact",
    "Verif.Props.C52_partial",
    "Verif.Props.C52_false"
   ],
   "note": "Neighbours in row 0 and column 0 are left out. The exact theorem covers all points and sizes."
  },
  {
   "property": "C53",
   "status": "partial",
   "theorems": [
    "Verif.Props.C53_fliphorizontalregion_partial",
    "Verif.Props.C53_fliphorizontalregion_1bit",
    "Verif.Props.C53_rejected",
    "Verif.Props.C53_4bit_wrong",
    "Verif.Props.C53_1bit_wrong",
    "Verif.Props.C53_exact",
    "Verif.Props.C53_undo"
   ],
   "note": "all rectangles in 8/24-bit images, whole bytes in 4-bit; false otherwise, witnesses and the exact 1-bit effect proved; C53_exact describes the result for every rectangle and depth, C53_undo that two flips restore the file in 4-, 8- and 24-bit images"
  },
  {
   "property": "C54",
   "status": "partial",
   "theorems": [
    "Verif.Props.C54_mirrorleftinregion_partial",
    "Verif.Props.C54_mirrorrightinregion_partial",
    "Verif.Props.C53_rejected",
    "Verif.Props.C54_4bit_wrong",
    "Verif.Props.C54_left_exact",
    "Verif.Props.C54_right_exact"
   ],
   "note": "all rectangles in 8/24-bit images, an even number of whole bytes in 4-bit; false otherwise; the exact theorems describe the result for every rectangle and depth"
  },
  {
   "property": "C55",
   "status": "partial",
   "theorems": [
    "Verif.Props.C55_flipverticalregion_partial",
    "Verif.Props.C55_mirrortopinregion_partial",
    "Verif.Props.C55_mirrorbottominregion_partial",
    "Verif.Props.C55_flipverticalregion_exact",
    "Verif.Props.C55_mirrortopinregion_exact",
    "Verif.Props.C55_mirrorbottominregion_exact",
    "Verif.Props.C55_aligned",
    "Verif.Props.C55_rejected",
    "Verif.Props.C55_4bit_wrong"
   ],
   "note": "all rectangles in 8/24-bit images, whole bytes in 1/4-bit; false otherwise, witness proved. The _exact theorems say for every rectangle in every depth which columns are treated."
  },
  {
   "property": "C56",
   "status": "partial",
   "theorems": [
    "Verif.Props.C56_mirrortopleft_partial",
    "Verif.Props.C56_mirrortopright_partial",
    "Verif.Props.C56_mirrorbottomleft_partial",
    "Verif.Props.C56_mirrorbottomright_partial",
    "Verif.Props.C56_1bit_wrong",
    "Verif.Props.C56_exact",
    "Verif.Props.C56_region_partial",
    "Verif.Props.C56_region_exact",
    "Verif.Props.C56_rejected"
   ],
   "note": "Same exceptions as C31. What the code does is proved for every depth, size and rectangle (C56_exact, C56_region_exact): whole bytes are mirrored, and 1-bit images lose the first column of each byte."
  },
  {
   "property": "C57",
   "status": "partial",
   "theorems": [
    "Verif.Props.C57_convertselection_exact",
    "Verif.Props.C57_false",
    "Verif.Props.C57_any"
   ],
   "note": "exact effect proved, for whole bytes and, in C57_any, for every rectangle of at most 253 columns with rows below 256 bytes; false as stated: image is 2 wider and 1 higher with the pixels one row too low"
  },
  {
   "property": "C58",
   "status": "partial",
   "theorems": [
    "Verif.Props.C58_exact",
    "Verif.Props.C58_colorfilter_partial",
    "Verif.Props.C58_false",
    "Verif.Props.C58_rejected"
   ],
   "note": "The last column of the rectangle is not filtered. Factors are arbitrary functions that keep the byte range; for float factors see C104_factor."
  },
  {
   "property": "C59",
   "status": "proved",
   "theorems": [
    "Verif.Props.C59_brightness",
    "Verif.Props.C59_identity",
    "Verif.Props.C59_rejected"
   ],
   "note": "The multiplication by a float is an arbitrary function on bytes; the theorem covers the clamp, the region and the frame."
  },
  {
   "property": "C60",
   "status": "partial",
   "theorems": [
    "Verif.Props.C60_vertgradient_partial",
    "Verif.Props.C60_one_row",
    "Verif.Props.C60_rejected"
   ],
   "note": "Rectangles of one row raise ZeroDivisionError (proved). Row factors are arbitrary functions; C171 has the floats."
  },
  {
   "property": "C61",
   "status": "partial",
   "theorems": [
    "Verif.Props.C61_pattern_partial"
   ],
   "note": "Any depth for single-pixel dots; bigger squares on 1-bit and 24-bit images (filledrect is wrong on the others, C21 and C22; C134_glyph_depths says what is painted there). Squares partly outside the image are not painted at all."
  },
  {
   "property": "C62",
   "status": "partial",
   "theorems": [
    "Verif.Props.C62_upsidedown_partial"
   ],
   "note": "Same cases as C61, the others by C134_glyph_depths; complete for single-pixel dots."
  },
  {
   "property": "C63",
   "status": "partial",
   "theorems": [
    "Verif.Props.C63_exact",
    "Verif.Props.C63_mirrored_partial",
    "Verif.Props.C63_false"
   ],
   "note": "rotatebits loses the lowest bit, so the last column disappears."
  },
  {
   "property": "C64",
   "status": "partial",
   "theorems": [
    "Verif.Props.C64_sideway_partial",
    "Verif.Props.C64_colours_exact",
    "Verif.Props.C64_colours_wrong",
    "Verif.Props.C64_italic_exact",
    "Verif.Props.C64_italic_directions"
   ],
   "note": "Positions are right; the colour list advances eight times per row; the italic slant changes direction between scale 1 and bigger scales."
  },
  {
   "property": "C65",
   "status": "partial",
   "theorems": [
    "Verif.Props.C65_italic_partial",
    "Verif.Props.C65_slant",
    "Verif.Props.C65_reversed_exact",
    "Verif.Props.C65_upsidedown_exact",
    "Verif.Props.C65_upsidedown_left"
   ],
   "note": "Same depths as C61, the others by C134_glyph_depths. The reversed variant loses the last column and the upside down variant goes to the left of x."
  },
  {
   "property": "C66",
   "status": "partial",
   "theorems": [
    "Verif.Props.C66_plotstring_partial",
    "Verif.Props.C66_vertical_partial",
    "Verif.Props.C66_sideway_partial",
    "Verif.Props.C66_italic_partial",
    "Verif.Props.C66_unknown"
   ],
   "note": "Any depth for single-pixel dots; bigger dots on 1-bit and 24-bit images, the others by C135_text_depths. One colour."
  },
  {
   "property": "C67",
   "status": "partial",
   "theorems": [
    "Verif.Props.C67_textimage_partial",
    "Verif.Props.C67_italicimage_partial",
    "Verif.Props.C67_textsize"
   ],
   "note": "Any depth for single-pixel dots; bigger dots and backgrounds on 1-bit and 24-bit images, the others by C136_textfile_depths. The saving of the file is C15."
  },
  {
   "property": "C68",
   "status": "partial",
   "theorems": [
    "Verif.Props.C68_invertcirc_exact",
    "Verif.Props.C68_invertcirc_partial",
    "Verif.Props.C68_false",
    "Verif.Props.C68_left_wraps"
   ],
   "note": "The set of pixels inverted is described exactly; it misses the right end of each row. Restoring by a second call is proved for every disc whose centre is not far left of the image."
  },
  {
   "property": "C69",
   "status": "partial",
   "theorems": [
    "Verif.Props.C69_brightness_exact",
    "Verif.Props.C69_colorfilter_exact",
    "Verif.Props.C69_rejected",
    "Verif.Props.C69_brightness_partial",
    "Verif.Props.C69_false"
   ],
   "note": "The right end of each row is not filtered."
  },
  {
   "property": "C70",
   "status": "partial",
   "theorems": [
    "Verif.Props.C70_monocircle_partial",
    "Verif.Props.C70_typeError",
    "Verif.Props.C70_false"
   ],
   "note": "Holds up to the right end of the rows for discs inside the image; a disc that leaves the image raises TypeError."
  },
  {
   "property": "C71",
   "status": "partial",
   "theorems": [
    "Verif.Props.C71_paste_exact",
    "Verif.Props.C71_copy_exact",
    "Verif.Props.C71_copy_partial",
    "Verif.Props.C71_rejected",
    "Verif.Props.C71_false"
   ],
   "note": "Without the right end of the rows, for moves by whole bytes; the guard compares y with the width."
  },
  {
   "property": "C72",
   "status": "partial",
   "theorems": [
    "Verif.Props.C72_vert_exact",
    "Verif.Props.C72_vert_partial",
    "Verif.Props.C72_flip_twice",
    "Verif.Props.C72_rejected",
    "Verif.Props.C72_false"
   ],
   "note": "Without the right end of the rows, for discs inside the image; the guard compares y with the width, so on wide images the header can be overwritten."
  },
  {
   "property": "C73",
   "status": "partial",
   "theorems": [
    "Verif.Props.C73_columns",
    "Verif.Props.C73_hori_exact",
    "Verif.Props.C73_hori_partial",
    "Verif.Props.C73_flip_twice",
    "Verif.Props.C73_rejected",
    "Verif.Props.C73_false"
   ],
   "note": "The ends of the outer columns are not mirrored."
  },
  {
   "property": "C74",
   "status": "partial",
   "theorems": [
    "Verif.Props.C74_turn_exact",
    "Verif.Props.C74_four_times",
    "Verif.Props.C74_packed_partial",
    "Verif.Props.C74_rejected",
    "Verif.Props.C74_false"
   ],
   "note": "On 8- and 24-bit images the disc is turned by a quarter instead; on 1- and 4-bit images the axes are exchanged for whole bytes and aligned centres."
  },
  {
   "property": "C75",
   "status": "partial",
   "theorems": [
    "Verif.Props.C75_outline_exact",
    "Verif.Props.C75_outline_partial"
   ],
   "note": "The right end of each row keeps its colour."
  },
  {
   "property": "C76",
   "status": "partial",
   "theorems": [
    "Verif.Props.C76_vert_exact",
    "Verif.Props.C76_hori_exact",
    "Verif.Props.C76_gradients_partial",
    "Verif.Props.C76_rejected",
    "Verif.Props.C76_radius0"
   ],
   "note": "Exact sets of pixels are proved; the right end of each row (vertical) and the ends of the outer columns (horizontal) are missed, and the radius 0 raises ZeroDivisionError."
  },
  {
   "property": "C77",
   "status": "partial",
   "theorems": [
    "Verif.Props.C77_quarter_partial",
    "Verif.Props.C77_exact"
   ],
   "note": "For the pixels that both passes reach; see C72 and C73. C77_exact describes every pixel in every depth; images of 1 and 4 bits only get the vertical pass."
  },
  {
   "property": "C78",
   "status": "partial",
   "theorems": [
    "Verif.Props.C78_erase_exact",
    "Verif.Props.C78_every_partial",
    "Verif.Props.C78_zero",
    "Verif.Props.C78_false"
   ],
   "note": "The exact set is proved for all depths; the last line of the image is never erased, and n = 0 raises ZeroDivisionError."
  },
  {
   "property": "C79",
   "status": "partial",
   "theorems": [
    "Verif.Props.C79_region_all",
    "Verif.Props.C79_region_exact",
    "Verif.Props.C79_rejected",
    "Verif.Props.C79_false"
   ],
   "note": "The exact set is proved for every rectangle in every depth (columns of whole bytes); the last line of the rectangle is never erased."
  },
  {
   "property": "C80",
   "status": "partial",
   "theorems": [
    "Verif.Props.C80_circ_exact",
    "Verif.Props.C80_circ_partial",
    "Verif.Props.C80_rejected",
    "Verif.Props.C80_false"
   ],
   "note": "Lines are counted from 0 at the top of the image, not of the disc; the right end of each row keeps its colour."
  },
  {
   "property": "C81",
   "status": "partial",
   "theorems": [
    "Verif.Props.C81_outline_partial",
    "Verif.Props.C81_image",
    "Verif.Props.C81_rejected",
    "Verif.Props.C81_false",
    "Verif.Props.C81_exact",
    "Verif.Props.C81_image_exact"
   ],
   "note": "For corners in order on byte boundaries; corners in another order overwrite lines outside of the rectangle. The first line becomes 0. C81_exact and C81_image_exact describe every rectangle with corners in order: if the columns are not whole bytes, the line above the rectangle is cleared too."
  },
  {
   "property": "C82",
   "status": "partial",
   "theorems": [
    "Verif.Props.C82_horizontal_partial",
    "Verif.Props.C82_vertical_partial",
    "Verif.Props.C82_twice",
    "Verif.Props.C82_rejected",
    "Verif.Props.C82_reversed"
   ],
   "note": "For corners in order; with any other order nothing is mirrored."
  },
  {
   "property": "C83",
   "status": "partial",
   "theorems": [
    "Verif.Props.C83_region",
    "Verif.Props.C83_image",
    "Verif.Props.C83_rejected",
    "Verif.Props.C83_circ_exact",
    "Verif.Props.C83_circ_partial"
   ],
   "note": "Proved for rectangles and whole images; in a disc the right end of each row keeps its colour. The float quotient is assumed to be the exact one rounded down or one less; C105_scales proves this for 53-bit floats."
  },
  {
   "property": "C84",
   "status": "partial",
   "theorems": [
    "Verif.Props.C84_region",
    "Verif.Props.C84_image",
    "Verif.Props.C84_grey",
    "Verif.Props.C84_rejected",
    "Verif.Props.C84_circ_exact",
    "Verif.Props.C84_circ_partial"
   ],
   "note": "Proved for rectangles and whole images, for any correction function; in a disc the right end of each row keeps its colour."
  },
  {
   "property": "C85",
   "status": "partial",
   "theorems": [
    "Verif.Props.C85_horigradient_exact",
    "Verif.Props.C85_horigradient_partial",
    "Verif.Props.C85_false",
    "Verif.Props.C85_one_column",
    "Verif.Props.C85_rejected",
    "Verif.Props.C85_images"
   ],
   "note": "The top row of the rectangle is never changed; a rectangle of one column raises ZeroDivisionError."
  },
  {
   "property": "C86",
   "status": "proved",
   "theorems": [
    "Verif.Props.C86_images",
    "Verif.Props.C86_regions",
    "Verif.Props.C86_discs",
    "Verif.Props.C86_colours",
    "Verif.Props.C86_truecolour"
   ],
   "note": "All functions are listed in four theorems by their arguments; missing source, non-bitmap source, and frame, plus the true-colour refusal. Two names never stand for one file (no links)."
  },
  {
   "property": "C87",
   "status": "partial",
   "theorems": [
    "Verif.Props.C87_invertbits2file",
    "Verif.Props.C87_flipvertical2file",
    "Verif.Props.C87_mirrortop2file",
    "Verif.Props.C87_mirrorbottom2file",
    "Verif.Props.C87_mirrortopleft2file_partial",
    "Verif.Props.C87_mirrortopright2file_partial",
    "Verif.Props.C87_mirrorbottomleft2file_partial",
    "Verif.Props.C87_mirrorbottomright2file_partial",
    "Verif.Props.C87_mirrorleft2file_partial",
    "Verif.Props.C87_mirrorright2file_partial",
    "Verif.Props.C87_fliphorizontal2file_partial",
    "Verif.Props.C87_outline2file",
    "Verif.Props.C87_eraseeverynthhoriline2file_partial",
    "Verif.Props.C87_palshift2file",
    "Verif.Props.C87_gradients_partial",
    "Verif.Props.C87_twice",
    "Verif.Props.C87_horizontal_exact",
    "Verif.Props.C87_corners_exact",
    "Verif.Props.C87_outline2file_exact"
   ],
   "note": "Inherits the limits of the in-memory theorems (horizontal mirrors and flips on 8, 24 bits and aligned 4 bits, whole bytes for outlines, the untreated top row of the horizontal gradient); the exact effect is proved for every depth and width."
  },
  {
   "property": "C88",
   "status": "partial",
   "theorems": [
    "Verif.Props.C88_flipverticalregion2file_partial",
    "Verif.Props.C88_fliphorizontalregion2file_partial",
    "Verif.Props.C88_mirrorleftinregion2file_partial",
    "Verif.Props.C88_mirrorrightinregion2file_partial",
    "Verif.Props.C88_mirrortopinregion2file_partial",
    "Verif.Props.C88_mirrorbottominregion2file_partial",
    "Verif.Props.C88_invertregion2file",
    "Verif.Props.C88_adjustbrightnessinregion2file",
    "Verif.Props.C88_adjustthresholdinregion2file",
    "Verif.Props.C88_colorfilterinregion2file",
    "Verif.Props.C88_monofilterinregion2file",
    "Verif.Props.C88_gammaadjtoregion2file",
    "Verif.Props.C88_filledrect2file_partial",
    "Verif.Props.C88_outlineregion2file_partial",
    "Verif.Props.C88_horizontalbrightnessgradregion2file",
    "Verif.Props.C88_verticalbrightnessgradregion2file_partial",
    "Verif.Props.C88_corners_partial",
    "Verif.Props.C88_eraseeverynthhorilineinregion2file_partial",
    "Verif.Props.C88_flipverticalregion2file_exact",
    "Verif.Props.C88_mirrortopinregion2file_exact",
    "Verif.Props.C88_mirrorbottominregion2file_exact",
    "Verif.Props.C88_eraseeverynthhorilineinregion2file_exact",
    "Verif.Props.C88_rejected",
    "Verif.Props.C56_region_partial",
    "Verif.Props.C88_horizontal_exact",
    "Verif.Props.C88_corners_exact",
    "Verif.Props.C88_outlineregion2file_exact",
    "Verif.Props.C88_rejected_all",
    "Verif.Props.C88_rejected_24"
   ],
   "note": "Inherits the limits of the in-memory theorems (rectangles aligned to bytes on packed depths, the unfiltered last column of the colour filter); the exact effect of flips, mirrors, corner mirrors and outlines is proved for every rectangle, and the exact copy for every program."
  },
  {
   "property": "C89",
   "status": "partial",
   "theorems": [
    "Verif.Props.C89_monochromecircregion2file_partial",
    "Verif.Props.C89_invertbitsincircregion2file_partial",
    "Verif.Props.C89_colorfiltercircregion2file",
    "Verif.Props.C89_thresholdadjcircregion2file_partial",
    "Verif.Props.C89_gammacorrectcircregion2file_partial",
    "Verif.Props.C89_filledcircle2file_partial",
    "Verif.Props.C89_circle2file",
    "Verif.Props.C89_brightnessadjcircregion2file_partial",
    "Verif.Props.C89_vertbrightnessgrad2circregion2file",
    "Verif.Props.C89_horibrightnessgrad2circregion2file",
    "Verif.Props.C89_eraseeverynthhorilineinccircregion2file_partial",
    "Verif.Props.C89_outlinecircregion2file_partial",
    "Verif.Props.C89_flipXYcircregion2file",
    "Verif.Props.C89_flipXYcircregion2file_packed_partial",
    "Verif.Props.C89_copycircregion2file",
    "Verif.Props.C89_vertical_partial",
    "Verif.Props.C89_horizontal_partial",
    "Verif.Props.C89_quarters_partial",
    "Verif.Props.C89_rejected",
    "Verif.Props.C89_rejected_all",
    "Verif.Props.C89_rows_exact"
   ],
   "note": "Inherits the limits of the disc theorems (8 and 24 bits, right end of each row). C89_rows_exact has the exact set of pixels in every depth; C89_rejected_all the exact copies."
  },
  {
   "property": "C90",
   "status": "partial",
   "theorems": [
    "Verif.Props.C90_monochrome_palette",
    "Verif.Props.C90_monochrome_truecolour",
    "Verif.Props.C90_monochrome_depths_false",
    "Verif.Props.C90_colorfilter_palette",
    "Verif.Props.C90_colorfilter_truecolour",
    "Verif.Props.C90_bright_gamma_palette",
    "Verif.Props.C90_bright_truecolour",
    "Verif.Props.C90_gamma_truecolour",
    "Verif.Props.C90_threshold_palette",
    "Verif.Props.C90_threshold_truecolour"
   ],
   "note": "One rule per depth class is proved; the rules differ between palette and true colour for monochrome (rounding), the colour filter (last column) and the threshold (limits clipped or modulo 256). False across depths for monochrome."
  },
  {
   "property": "C91",
   "status": "partial",
   "theorems": [
    "Verif.Props.C91_upgradeto24bitimage2file",
    "Verif.Props.C91_upgrade_wholebytes_partial",
    "Verif.Props.C91_flipXY2file_partial",
    "Verif.Props.C91_flipXY2file_bytes",
    "Verif.Props.C91_resize_partial",
    "Verif.Props.C91_crop_partial",
    "Verif.Props.C91_rectbnd_exact",
    "Verif.Props.C91_rectbnd_false",
    "Verif.Props.C91_compare",
    "Verif.Props.C91_compare_refused"
   ],
   "note": "Crop keeps the palette below 8 bits only; the variant with corner points takes one column and one row too many and is refuted; enlarging needs an even width."
  },
  {
   "property": "C92",
   "status": "partial",
   "theorems": [
    "Verif.Props.C92_roundpen_partial",
    "Verif.Props.C92_pointlist_partial",
    "Verif.Props.Far.C92_roundpen_safe",
    "Verif.Props.Far.C92_pointlist_safe"
   ],
   "note": "All depths, with the exact 4-bit rows of C19. Pens above 1 inherit the limits of C27: missing are only places at which a row of the pen deletes bytes of the file or raises an exception (C19); the _safe theorems cover all others."
  },
  {
   "property": "C93",
   "status": "partial",
   "theorems": [
    "Verif.Props.C93_plotlines_partial",
    "Verif.Props.C93_plotpoly_partial",
    "Verif.Props.C93_empty",
    "Verif.Props.C93_plotpolylist_partial",
    "Verif.Props.Edge.C93_plotlines_narrow",
    "Verif.Props.Edge.C93_plotpoly_narrow",
    "Verif.Props.Edge.C93_plotpolylist_narrow"
   ],
   "note": "All depths, with the exact sets of C24; only diagonals that end in the first row or, unless the image is wide, in the last row of images of more than one bit are missing; on images with a palette that are not too wide (176 pixels with 4 bits, 1048 with 8 bits) the _narrow theorems cover all lines: diagonals that end in the first row raise IndexError, those that end in the last row overwrite a byte of the palette and are drawn."
  },
  {
   "property": "C94",
   "status": "proved",
   "theorems": [
    "Verif.Props.C94_rectangle"
   ],
   "note": "All four depths: the vertical sides repair the ends that 4-bit horizontal lines miss."
  },
  {
   "property": "C95",
   "status": "partial",
   "theorems": [
    "Verif.Props.C95_thickroundline_partial",
    "Verif.Props.C95_plotlines_partial",
    "Verif.Props.C95_thickplotpoly_partial",
    "Verif.Props.C95_thickcircle_partial",
    "Verif.Props.Far.C95_thickroundline_safe",
    "Verif.Props.Far.C95_plotlines_safe",
    "Verif.Props.Far.C95_thickplotpoly_safe",
    "Verif.Props.Far.C95_thickcircle_safe"
   ],
   "note": "All depths, with the exact 4-bit rows of C19. Inherits the limits of C27: missing are only places at which a row of the pen deletes bytes of the file or raises an exception (C19); the _safe theorems cover all others. Holds for diagonal lines too, with the points that iterline really gives."
  },
  {
   "property": "C96",
   "status": "partial",
   "theorems": [
    "Verif.Props.C96_xygrid_partial",
    "Verif.Props.C96_outside",
    "Verif.Props.C96_zero_step",
    "Verif.Props.C96_negative_steps",
    "Verif.Props.C96_closing_wrong",
    "Verif.Props.C96_vertlinevert_partial",
    "Verif.Props.C96_vertlinevert_safe",
    "Verif.Props.C96_horilinevert_partial",
    "Verif.Props.C96_fillboundary_partial",
    "Verif.Props.Far.C96_fillboundary_safe"
   ],
   "note": "All depths, with the exact 4-bit rows of C19; missing are only places at which a row deletes bytes of the file or raises an exception (C19); C96_fillboundary_safe covers all others. The closing lines of a grid are refuted."
  },
  {
   "property": "C97",
   "status": "partial",
   "theorems": [
    "Verif.Props.C97_flat_partial",
    "Verif.Props.C97_path",
    "Verif.Props.C97_rows",
    "Verif.Props.C97_reach_wrong",
    "Verif.Props.C97_endless"
   ],
   "note": "Path and rows hold for the whole quarter; accuracy only where the ellipse is flat. Accuracy and reach of the steep part are refuted. Half axes 0 and 0 never end."
  },
  {
   "property": "C98",
   "status": "partial",
   "theorems": [
    "Verif.Props.C98_ellipse_partial",
    "Verif.Props.C98_guard_wrong",
    "Verif.Props.C98_circle_wrong",
    "Verif.Props.C98_filledellipse_partial",
    "Verif.Props.Far.C98_filledellipse_safe"
   ],
   "note": "Refuted on 8 and 24 bits for ellipses that pass the exchanged test and leave the image, and for circles whose wrong reach leaves the image."
  },
  {
   "property": "C99",
   "status": "partial",
   "theorems": [
    "Verif.Props.C99_translate",
    "Verif.Props.C99_segments",
    "Verif.Props.C99_filledparallelogram_partial",
    "Verif.Props.C99_holes"
   ],
   "note": "The union of the segments has holes, so the area itself is refuted; lines as in C24."
  }
 ]
}