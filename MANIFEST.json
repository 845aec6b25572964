{
 "claims": [
  {
   "property": "C01",
   "status": "proved",
   "theorems": [
    "Imgproc.c01_writes_are_a_map"
   ],
   "note": ""
  },
  {
   "property": "C02",
   "status": "proved",
   "theorems": [
    "Imgproc.c02_get_pixel",
    "Imgproc.c02_get_pixel_mut",
    "Imgproc.c02_set_pixel"
   ],
   "note": ""
  },
  {
   "property": "C03",
   "status": "proved",
   "theorems": [
    "Imgproc.c03_addressing_agrees",
    "Imgproc.c03_disjoint",
    "Imgproc.c03_tiles"
   ],
   "note": ""
  },
  {
   "property": "C04",
   "status": "proved",
   "theorems": [
    "Imgproc.c04_from_vec",
    "Imgproc.c04_from_vec_of",
    "Imgproc.c04_from_pixels",
    "Imgproc.c04_blank",
    "Imgproc.c04_blank_overflow"
   ],
   "note": ""
  },
  {
   "property": "C05",
   "status": "proved",
   "theorems": [
    "Imgproc.c05_map_channels",
    "Imgproc.c05_map_channels_if_alpha"
   ],
   "note": ""
  },
  {
   "property": "C06",
   "status": "proved",
   "theorems": [
    "Imgproc.c06_map_pixels",
    "Imgproc.c06_map_pixels_if_alpha",
    "Imgproc.c06_map_pixels_if_no_alpha",
    "Imgproc.c06_zero_size_panics"
   ],
   "note": ""
  },
  {
   "property": "C07",
   "status": "proved",
   "theorems": [
    "Imgproc.c07_apply_pixels",
    "Imgproc.c07_apply_pixels_if_alpha",
    "Imgproc.c07_apply_channels",
    "Imgproc.c07_apply_channels_if_alpha"
   ],
   "note": ""
  },
  {
   "property": "C08",
   "status": "proved",
   "theorems": [
    "Imgproc.c08_edit_channel"
   ],
   "note": ""
  },
  {
   "property": "C09",
   "status": "proved",
   "theorems": [
    "Imgproc.c09_iterator"
   ],
   "note": ""
  },
  {
   "property": "C10",
   "status": "partial",
   "theorems": [
    "Imgproc.c10_size_hint_partial",
    "Imgproc.c10_violated"
   ],
   "note": "Violated by the code: size_hint is constant, so the std contract holds exactly at position 0; counterexample c10_violated."
  },
  {
   "property": "C11",
   "status": "partial",
   "theorems": [
    "Imgproc.c11_exact",
    "Imgproc.c11_subimage_partial",
    "Imgproc.c11_violated"
   ],
   "note": "Violated by the code: get_subimage stores columns but reads rows (c11_exact, c11_violated); true part: rectangles with a side of 1."
  },
  {
   "property": "C12",
   "status": "partial",
   "theorems": [
    "Imgproc.c12_exact_2d",
    "Imgproc.c12_neighborhood_partial",
    "Imgproc.c12_violated"
   ],
   "note": "Violated by the code for windows larger than 3 at the border: out-of-range coordinates are replaced by the centre, not the edge (c12_exact_2d, c12_violated)."
  },
  {
   "property": "C13",
   "status": "proved",
   "theorems": [
    "Imgproc.c13_pixel_helpers",
    "Imgproc.c13_apply_eq_map",
    "Imgproc.c13_is_black",
    "Imgproc.c13_empty_panics",
    "Imgproc.c13_apply_alpha_empty_release"
   ],
   "note": ""
  },
  {
   "property": "C14",
   "status": "proved",
   "theorems": [
    "Imgproc.c14_f32_round_trip",
    "Imgproc.c14_f64_round_trip"
   ],
   "note": ""
  },
  {
   "property": "C15",
   "status": "proved",
   "theorems": [
    "Imgproc.c15_f32_to_u8",
    "Imgproc.c15_f64_to_u8",
    "Imgproc.c15_spec_unique",
    "Imgproc.c15_monotone"
   ],
   "note": ""
  },
  {
   "property": "C16",
   "status": "proved",
   "theorems": [
    "Imgproc.c16_scale_round_trip"
   ],
   "note": ""
  },
  {
   "property": "C17",
   "status": "proved",
   "theorems": [
    "Imgproc.c17_min_to_min",
    "Imgproc.c17_max_to_max",
    "Imgproc.c17_scale_channels",
    "Imgproc.c17_affine_exact"
   ],
   "note": ""
  },
  {
   "property": "C18",
   "status": "proved",
   "theorems": [
    "Imgproc.c18_exact",
    "Imgproc.c18_injective",
    "Imgproc.c18_loss"
   ],
   "note": ""
  },
  {
   "property": "C19",
   "status": "partial",
   "theorems": [
    "Imgproc.c19_brightness_partial",
    "Imgproc.c19_brightness_violated",
    "Imgproc.c19_brightness_lab_partial",
    "Imgproc.c19_saturation",
    "Imgproc.c19_contrast",
    "Imgproc.c19_contrast_lab",
    "Imgproc.c19_gamma",
    "Imgproc.c19_histogram_equalization"
   ],
   "note": "Proved except bias = i16::MIN in debug builds, where abs() overflows and panics."
  },
  {
   "property": "C20",
   "status": "proved",
   "theorems": [
    "Imgproc.c20_brightness",
    "Imgproc.c20_satAdd"
   ],
   "note": ""
  },
  {
   "property": "C21",
   "status": "partial",
   "theorems": [
    "Imgproc.c21_brightness_simd_partial",
    "Imgproc.c21_exact",
    "Imgproc.c21_violated_tail",
    "Imgproc.c21_violated_alpha"
   ],
   "note": "Violated by the code: tail bytes become 0 and the alpha mask assumes four channels (c21_exact, c21_violated_tail, c21_violated_alpha); equality proved on full 32-byte blocks."
  },
  {
   "property": "C22",
   "status": "proved",
   "theorems": [
    "Imgproc.c22_contrast",
    "Imgproc.c22_contrast_nan"
   ],
   "note": ""
  },
  {
   "property": "C23",
   "status": "proved",
   "theorems": [
    "Imgproc.c23_gamma_shape",
    "Imgproc.c23_gamma_one"
   ],
   "note": ""
  },
  {
   "property": "C24",
   "status": "proved",
   "theorems": [
    "Imgproc.c24_saturation",
    "Imgproc.c24_keeps_max",
    "Imgproc.c24_desaturates"
   ],
   "note": ""
  },
  {
   "property": "C25",
   "status": "partial",
   "theorems": [
    "Imgproc.c25_saturation_simd_partial",
    "Imgproc.c25_violated_ub",
    "Imgproc.c25_violated_tail"
   ],
   "note": "Violated by the code: out-of-bounds access for RGB images (c25_violated_ub), black tail (c25_violated_tail); equality proved for RGBA with full blocks."
  },
  {
   "property": "C26",
   "status": "partial",
   "theorems": [
    "Imgproc.c26_exact",
    "Imgproc.c26_monotone_partial",
    "Imgproc.c26_violated"
   ],
   "note": "Violated by the code: or_insert(1) followed by += 1 counts every distinct key once too often (c26_exact); the top value exceeds 1 on every non-empty image (c26_violated). Monotone and positive: proved."
  },
  {
   "property": "C27",
   "status": "proved",
   "theorems": [
    "Imgproc.c27_total"
   ],
   "note": ""
  },
  {
   "property": "C28",
   "status": "proved",
   "theorems": [
    "Imgproc.c28_brightness_lab",
    "Imgproc.c28_contrast_lab",
    "Imgproc.c28_lab_chain"
   ],
   "note": ""
  },
  {
   "property": "C29",
   "status": "partial",
   "theorems": [
    "Imgproc.c29_grayscale_partial",
    "Imgproc.c29_between",
    "Imgproc.c29_violated"
   ],
   "note": "Proved for up to 128 colour channels; beyond that the i16 sum overflows (c29_violated)."
  },
  {
   "property": "C30",
   "status": "partial",
   "theorems": [
    "Imgproc.c30_exact",
    "Imgproc.c30_simd_partial",
    "Imgproc.c30_violated_value",
    "Imgproc.c30_violated_tail"
   ],
   "note": "Violated by the code: the AVX2 path computes avg(avg(r,g),b) and drops the tail (c30_exact, c30_violated_value, c30_violated_tail); equality proved for grey images with full blocks."
  },
  {
   "property": "C31",
   "status": "partial",
   "theorems": [
    "Imgproc.c31_memory_safe_partial",
    "Imgproc.c31_violated"
   ],
   "note": "Violated by the code for one-channel images (c31_violated: out-of-bounds write); safety proved for 3+ channels (4+ with alpha)."
  },
  {
   "property": "C32",
   "status": "proved",
   "theorems": [
    "Imgproc.c32_rgb_to_hsv_pixel",
    "Imgproc.c32_hsv_to_rgb_pixel",
    "Imgproc.c32_rgb_to_hsv",
    "Imgproc.c32_hsv_to_rgb"
   ],
   "note": ""
  },
  {
   "property": "C33",
   "status": "proved",
   "theorems": [
    "Imgproc.c33_pixel_round_trip",
    "Imgproc.c33_image_round_trip"
   ],
   "note": ""
  },
  {
   "property": "C34",
   "status": "proved",
   "theorems": [
    "Imgproc.c34_ranges",
    "Imgproc.c34_back_pixel",
    "Imgproc.c34_round_trip",
    "Imgproc.c34_accuracy_pixel",
    "Imgproc.c34_accuracy",
    "Imgproc.c34_not_lossless"
   ],
   "note": ""
  },
  {
   "property": "C35",
   "status": "proved",
   "theorems": [
    "Imgproc.c35_to_xyz",
    "Imgproc.c35_to_srgb_lin",
    "Imgproc.c35_panics",
    "Imgproc.c35_exact_matrices",
    "Imgproc.c35_inverse"
   ],
   "note": ""
  },
  {
   "property": "C36",
   "status": "proved",
   "theorems": [
    "Imgproc.c36_xyz_round_trip",
    "Imgproc.c36_lab_round_trip",
    "Imgproc.c36_image"
   ],
   "note": "Proved in exact (real) arithmetic; the f32 version only agrees up to rounding."
  },
  {
   "property": "C37",
   "status": "proved",
   "theorems": [
    "Imgproc.c37_linearize",
    "Imgproc.c37_round_trip"
   ],
   "note": ""
  },
  {
   "property": "C38",
   "status": "proved",
   "theorems": [
    "Imgproc.c38_get_2d_coords",
    "Imgproc.c38_get_2d_coords_inv",
    "Imgproc.c38_get_2d_coords_zero"
   ],
   "note": ""
  },
  {
   "property": "C39",
   "status": "proved",
   "theorems": [
    "Imgproc.c39_exact",
    "Imgproc.c39_ieee",
    "Imgproc.c39_u8",
    "Imgproc.c39_rounding_counterexample"
   ],
   "note": ""
  },
  {
   "property": "C40",
   "status": "proved",
   "theorems": [
    "Imgproc.c40_exact",
    "Imgproc.c40_ieee",
    "Imgproc.c40_outside"
   ],
   "note": ""
  },
  {
   "property": "C41",
   "status": "proved",
   "theorems": [
    "Imgproc.c41_vector_mul",
    "Imgproc.c41_vector_mul_total",
    "Imgproc.c41_vector_mul_shape",
    "Imgproc.c41_vector_mul_empty",
    "Imgproc.c41_vector_mul_mut"
   ],
   "note": ""
  },
  {
   "property": "C42",
   "status": "proved",
   "theorems": [
    "Imgproc.c42_max_3",
    "Imgproc.c42_min_3",
    "Imgproc.c42_max_4",
    "Imgproc.c42_min_4"
   ],
   "note": ""
  },
  {
   "property": "C43",
   "status": "proved",
   "theorems": [
    "Imgproc.c43_gaussian",
    "Imgproc.c43_log",
    "Imgproc.c43_symmetric",
    "Imgproc.c43_even",
    "Imgproc.c43_too_large"
   ],
   "note": "Proved for size*size < 2^31; beyond that the i32 index arithmetic panics in debug builds (c43_too_large)."
  },
  {
   "property": "C44",
   "status": "partial",
   "theorems": [
    "Imgproc.c44_spatial_mat_partial",
    "Imgproc.c44_centre_counterexample",
    "Imgproc.c44_even_panics"
   ],
   "note": "Violated by the code: the centre entry stays 0 (c44_centre_counterexample) and even sizes panic (c44_even_panics); every other entry is proved (c44_spatial_mat_partial)."
  },
  {
   "property": "C45",
   "status": "proved",
   "theorems": [
    "Imgproc.c45_apply_1d",
    "Imgproc.c45_apply_1d_err",
    "Imgproc.c45_apply_2d",
    "Imgproc.c45_apply_2d_err"
   ],
   "note": ""
  },
  {
   "property": "C46",
   "status": "proved",
   "theorems": [
    "Imgproc.c46_separable_eq",
    "Imgproc.c46_linear_eq_unseparable"
   ],
   "note": ""
  },
  {
   "property": "C47",
   "status": "partial",
   "theorems": [
    "Imgproc.c47_filter_1d_partial",
    "Imgproc.c47_filter_1d_even",
    "Imgproc.c47_separable_partial",
    "Imgproc.c47_separable_err",
    "Imgproc.c47_unseparable_even",
    "Imgproc.c47_unseparable_small",
    "Imgproc.c47_unseparable_nonsquare_small",
    "Imgproc.c47_unseparable_large_partial",
    "Imgproc.c47_unseparable_nonsquare"
   ],
   "note": "Proved for odd kernel sides up to 65535 (also where the kernel length is not exact in f32) with side + image side at most 2^31; beyond that the code's i32 arithmetic is not covered. Non-square lengths up to 2^32 are rejected (c47_unseparable_nonsquare)."
  },
  {
   "property": "C48",
   "status": "partial",
   "theorems": [
    "Imgproc.c48_bilateral",
    "Imgproc.c48_unseparable_square",
    "Imgproc.c48_unseparable_violated",
    "Imgproc.c48_crop_partial",
    "Imgproc.c48_crop_debug",
    "Imgproc.c48_crop_release_counterexample",
    "Imgproc.c48_scale_partial",
    "Imgproc.c48_scale_lanczos_partial",
    "Imgproc.c48_filter_1d",
    "Imgproc.c48_separable",
    "Imgproc.c48_unseparable"
   ],
   "note": "Proved for filters and bilateral. Violated in two corners: crop in release builds with overflowing x+width (c48_crop_release_counterexample), and unseparable_filter with some non-square kernel lengths above 2^24, where the sequential build gives an error and the rayon build panics (c48_unseparable_violated). Scale assumes the output size fits u32 in release builds."
  },
  {
   "property": "C49",
   "status": "partial",
   "theorems": [
    "Imgproc.c49_exact",
    "Imgproc.c49_box_partial",
    "Imgproc.c49_even",
    "Imgproc.c49_violated"
   ],
   "note": "Violated by the code: box_filter(size) averages a size^2 x size^2 window (c49_exact, c49_violated); true only for size 1."
  },
  {
   "property": "C50",
   "status": "proved",
   "theorems": [
    "Imgproc.c50_kernel",
    "Imgproc.c50_even",
    "Imgproc.c50_normalised",
    "Imgproc.c50_constant"
   ],
   "note": ""
  },
  {
   "property": "C51",
   "status": "proved",
   "theorems": [
    "Imgproc.c51_sharpen_exact",
    "Imgproc.c51_laplacian_exact",
    "Imgproc.c51_unsharp_exact",
    "Imgproc.c51_constants"
   ],
   "note": ""
  },
  {
   "property": "C52",
   "status": "proved",
   "theorems": [
    "Imgproc.c52_threshold",
    "Imgproc.c52_error",
    "Imgproc.c52_above_finite",
    "Imgproc.c52_above_nan",
    "Imgproc.c52_above_inf"
   ],
   "note": ""
  },
  {
   "property": "C53",
   "status": "proved",
   "theorems": [
    "Imgproc.c53_error",
    "Imgproc.c53_residual",
    "Imgproc.c53_residual_float",
    "Imgproc.c53_residual_u8_release",
    "Imgproc.c53_residual_u8_debug",
    "Imgproc.c53_residual_u8_panic"
   ],
   "note": ""
  },
  {
   "property": "C54",
   "status": "partial",
   "theorems": [
    "Imgproc.c54_derivative_mask_partial",
    "Imgproc.c54_error",
    "Imgproc.c54_kernel_error",
    "Imgproc.c54_violated_alpha",
    "Imgproc.c54_constant_zero"
   ],
   "note": "One-channel images proved; grayscale images with alpha panic (c54_violated_alpha)."
  },
  {
   "property": "C55",
   "status": "partial",
   "theorems": [
    "Imgproc.c55_normalize_partial",
    "Imgproc.c55_error",
    "Imgproc.c55_empty",
    "Imgproc.c55_nan",
    "Imgproc.c55_violated_single_nan"
   ],
   "note": "Proved for images with two different finite values; a single NaN pixel does not panic (c55_violated_single_nan)."
  },
  {
   "property": "C56",
   "status": "partial",
   "theorems": [
    "Imgproc.c56_exact",
    "Imgproc.c56_first_row_partial",
    "Imgproc.c56_monotone_partial",
    "Imgproc.c56_rank_partial",
    "Imgproc.c56_constant_partial",
    "Imgproc.c56_violated"
   ],
   "note": "Violated by the code (c56_violated: radius 0 changes a column 5,3 into 5,5). c56_exact gives the exact result for every image, radius and block size: the window median, except that the value of the row above is kept when exactly size^2/2+1 window values are below it; and the last output column shows the last column of the last block. Right in row 0, along columns whose median does not decrease, on constant images; otherwise never below the median and at most one rank above."
  },
  {
   "property": "C57",
   "status": "proved",
   "theorems": [
    "Imgproc.c57_counts",
    "Imgproc.c57_bound"
   ],
   "note": "c57_counts: any sequence of additions and removals, any odd block size, radius and channel; counters must stay within i32."
  },
  {
   "property": "C58",
   "status": "partial",
   "theorems": [
    "Imgproc.c58_odd_alpha",
    "Imgproc.c58_large_alpha",
    "Imgproc.c58_one_row_exact",
    "Imgproc.c58_one_row_partial",
    "Imgproc.c58_one_row_small_alpha_partial",
    "Imgproc.c58_constant_partial",
    "Imgproc.c58_alpha_zero_panics",
    "Imgproc.c58_violated",
    "Imgproc.c58_first_row_exact",
    "Imgproc.c58_first_row_partial",
    "Imgproc.c58_panics",
    "Imgproc.c58_violated_first_row",
    "Imgproc.c58_alpha_two_partial"
   ],
   "note": "The code violates the property. Proved for all inputs: odd or too large alpha is refused; on one-row images the exact value the code computes (c58_one_row_exact), which is the rounded trimmed mean when the upper trimming boundary is clean (c58_one_row_partial) and always for alpha <= 2; constant images come back unchanged for every size and even alpha >= 2 (c58_constant_partial; mean exactness shown for exact arithmetic and for f32 up to radius 127). On images of any height, whenever the filter returns, row 0 is exactly the value computed from a window holding row 0 of the image 2r+1 times (c58_first_row_exact), right when rows 1..r equal row 0 (c58_first_row_partial). Violations proved: alpha = 0 panics on every image of two or more rows (c58_alpha_zero_panics); a valid alpha = 8 panics on a 1x8 image (c58_panics, with std's binary search); wrong value 30 instead of 20 on one row (c58_violated); 0 instead of 26 on two rows with alpha = 2 (c58_violated_first_row). For alpha = 2 every row of an image of any height is exactly the rounded trimmed mean, if rows 1..r equal row 0 (c58_alpha_two_partial; std's binary search contract is a hypothesis, proved of its source). Missing: rows below the first for alpha >= 4 on non-constant images, where the code's bookkeeping of the upper values is wrong."
  },
  {
   "property": "C59",
   "status": "partial",
   "theorems": [
    "Imgproc.c59_negative",
    "Imgproc.c59_returns_partial",
    "Imgproc.c59_even_panics",
    "Imgproc.c59_quarter_panics",
    "Imgproc.c59_small_spatial_black"
   ],
   "note": "Proved when the derived window size is odd; even window sizes panic (c59_even_panics, c59_quarter_panics). With window size 1 (spatial below 1/4) the accepted call returns all-zero bytes, alpha included (c59_small_spatial_black)."
  },
  {
   "property": "C60",
   "status": "proved",
   "theorems": [
    "Imgproc.c60_crop_inside",
    "Imgproc.c60_crop_rejects",
    "Imgproc.c60_crop_overflow_debug",
    "Imgproc.c60_crop_sound"
   ],
   "note": ""
  },
  {
   "property": "C61",
   "status": "partial",
   "theorems": [
    "Imgproc.c61_crop_inside_partial",
    "Imgproc.c61_violated"
   ],
   "note": "Violated by the code: crop rejects rectangles that touch the right or bottom edge (c61_violated); proved for rectangles strictly inside."
  },
  {
   "property": "C62",
   "status": "partial",
   "theorems": [
    "Imgproc.c62_always_rejected",
    "Imgproc.c62_never_blends"
   ],
   "note": "Violated by the code: superimpose rejects every pair of images (c62_always_rejected), so the blending clause never applies."
  },
  {
   "property": "C63",
   "status": "proved",
   "theorems": [
    "Imgproc.c63_overlay",
    "Imgproc.c63_overlay_channels",
    "Imgproc.c63_overlay_overflow_debug"
   ],
   "note": ""
  },
  {
   "property": "C64",
   "status": "proved",
   "theorems": [
    "Imgproc.c64_translate",
    "Imgproc.c64_translate_compose"
   ],
   "note": ""
  },
  {
   "property": "C65",
   "status": "proved",
   "theorems": [
    "Imgproc.c65_reflect",
    "Imgproc.c65_reflect_involution",
    "Imgproc.c65_reflect_comm"
   ],
   "note": ""
  },
  {
   "property": "C66",
   "status": "proved",
   "theorems": [
    "Imgproc.c66_nearest_integer",
    "Imgproc.c66_identity",
    "Imgproc.c66_value",
    "Imgproc.c66_compose"
   ],
   "note": ""
  },
  {
   "property": "C67",
   "status": "partial",
   "theorems": [
    "Imgproc.c67_bicubic_lanczos_partial",
    "Imgproc.c67_bilinear_partial",
    "Imgproc.c67_nearest_integer_partial",
    "Imgproc.c67_negative",
    "Imgproc.c67_nearest_violated",
    "Imgproc.c67_nearest_iff"
   ],
   "note": "Violated by the code: nearest-neighbour scaling panics when W*f rounds up (c67_nearest_violated: 1x1 image, factor 1.5) and, when shrinking, when (x+1)/f rounds past the edge (c135_shrink_violated: 61 columns to 1, 22 columns to 13). Proved: bicubic and Lanczos for all factors incl. NaN, bilinear for outputs up to 2^22 per side, nearest neighbour for integer factors, negative factors rejected."
  },
  {
   "property": "C68",
   "status": "partial",
   "theorems": [
    "Imgproc.c68_value_partial",
    "Imgproc.c68_between_partial",
    "Imgproc.c68_identity_partial",
    "Imgproc.c68_constant_partial",
    "Imgproc.c68_violated",
    "Imgproc.c68_violated_ieee"
   ],
   "note": "The interpolation clause is violated: the weights of the neighbours are exchanged (c68_violated). c68_value_partial says exactly what is computed; range, factor 1 and constant images proved in exact arithmetic. The exchange is also shown in f32 arithmetic (c68_violated_ieee); f32 error bounds are C113."
  },
  {
   "property": "C69",
   "status": "proved",
   "theorems": [
    "Imgproc.c69_partition",
    "Imgproc.c69_value",
    "Imgproc.c69_range"
   ],
   "note": "Exact arithmetic (F := R)."
  },
  {
   "property": "C70",
   "status": "proved",
   "theorems": [
    "Imgproc.c70_identity",
    "Imgproc.c70_shear",
    "Imgproc.c70_horizontal",
    "Imgproc.c70_vertical"
   ],
   "note": "Identity in IEEE f32; the general description in exact arithmetic."
  },
  {
   "property": "C71",
   "status": "partial",
   "theorems": [
    "Imgproc.c71_describe_partial",
    "Imgproc.c71_single_partial",
    "Imgproc.c71_violated",
    "Imgproc.c71_f32_describe_partial",
    "Imgproc.c71_f32_violated"
   ],
   "note": "Violated by the code for every image of at least two rows whose last row is not zero (c71_violated). c71_describe_partial says exactly what rotate(img,0) returns; 1x1 images are returned unchanged. The same description and violation are proved in f32 (c71_f32_describe_partial, c71_f32_violated)."
  },
  {
   "property": "C72",
   "status": "proved",
   "theorems": [
    "Imgproc.c72_erode",
    "Imgproc.c72_erode_exact",
    "Imgproc.c72_rounding_counterexample",
    "Imgproc.c72_not_grayscale"
   ],
   "note": "Proved in IEEE f32 within the stated size bound (c72_erode) and in exact arithmetic without it; c72_rounding_counterexample shows why a bound is needed."
  },
  {
   "property": "C73",
   "status": "partial",
   "theorems": [
    "Imgproc.c73_exact_window",
    "Imgproc.c73_radius_one_partial",
    "Imgproc.c73_interior_partial",
    "Imgproc.c73_violated",
    "Imgproc.c73_radius_panics"
   ],
   "note": "Violated by the code for radius >= 2 near the border (c73_violated) and for radius larger than a side (panic, c73_radius_panics); proved for radius <= 1 and in the interior; c73_exact_window describes the code for every radius."
  },
  {
   "property": "C74",
   "status": "partial",
   "theorems": [
    "Imgproc.c74_is_dilate",
    "Imgproc.c74_majority_partial",
    "Imgproc.c74_violated"
   ],
   "note": "Violated by the code: majority is dilate (c74_is_dilate, c74_violated); one direction holds."
  },
  {
   "property": "C75",
   "status": "partial",
   "theorems": [
    "Imgproc.c75_erode_dilate",
    "Imgproc.c75_monotone",
    "Imgproc.c75_open",
    "Imgproc.c75_close_partial",
    "Imgproc.c75_close_violated"
   ],
   "note": "erode <= input <= dilate, monotonicity and open <= input proved; input <= close is violated at the border (c75_close_violated), proved in the interior."
  },
  {
   "property": "C76",
   "status": "proved",
   "theorems": [
    "Imgproc.c76_gradient"
   ],
   "note": "Proved in IEEE f32 for every one-channel image of any size, for radii in range."
  },
  {
   "property": "C77",
   "status": "proved",
   "theorems": [
    "Imgproc.c77_round_trip",
    "Imgproc.c77_rejects_layout",
    "Imgproc.c77_rejects_short",
    "Imgproc.c77_only_that_file",
    "Imgproc.c77_read"
   ],
   "note": ""
  },
  {
   "property": "C78",
   "status": "proved",
   "theorems": [
    "Imgproc.c78_lookup_table",
    "Imgproc.c78_table_map"
   ],
   "note": ""
  },
  {
   "property": "C79",
   "status": "proved",
   "theorems": [
    "Imgproc.c79_rotate_ok"
   ],
   "note": "Exact arithmetic; sin and cos are the real functions, the angle uses the f32 constant for pi."
  },
  {
   "property": "C80",
   "status": "proved",
   "theorems": [
    "Imgproc.c80_size",
    "Imgproc.c80_full_size",
    "Imgproc.c80_channels_non_alpha",
    "Imgproc.c80_data_length"
   ],
   "note": ""
  },
  {
   "property": "C81",
   "status": "proved",
   "theorems": [
    "Imgproc.c81_get_pixel",
    "Imgproc.c81_to_vec",
    "Imgproc.c81_to_vec_channels"
   ],
   "note": ""
  },
  {
   "property": "C82",
   "status": "proved",
   "theorems": [
    "Imgproc.c82_open_value",
    "Imgproc.c82_open_idempotent",
    "Imgproc.c82_close_idempotent",
    "Imgproc.c82_erode_compose",
    "Imgproc.c82_dilate_repeat"
   ],
   "note": ""
  },
  {
   "property": "C83",
   "status": "proved",
   "theorems": [
    "Imgproc.c83_crop_crop",
    "Imgproc.c83_overlay_crop",
    "Imgproc.c83_crop_overlay",
    "Imgproc.c83_overlay_twice",
    "Imgproc.c83_overlay_comm",
    "Imgproc.c83_translate_overlay",
    "Imgproc.c83_crop_translate"
   ],
   "note": ""
  },
  {
   "property": "C84",
   "status": "proved",
   "theorems": [
    "Imgproc.c84_kernel",
    "Imgproc.c84_scale_lanczos",
    "Imgproc.c84_scale",
    "Imgproc.c84_size_zero",
    "Imgproc.c84_total",
    "Imgproc.c84_violated_size"
   ],
   "note": "Value theorem in exact arithmetic, totality in IEEE f32; sizes 2^31-1..2^31+1 overflow i32 and panic with overflow checks (c84_violated_size)."
  },
  {
   "property": "C85",
   "status": "partial",
   "theorems": [
    "Imgproc.c85_bilinear_partial",
    "Imgproc.c85_lanczos_partial",
    "Imgproc.c85_scale_lanczos_partial",
    "Imgproc.c85_bicubic",
    "Imgproc.c85_violated",
    "Imgproc.c85_nearest_partial",
    "Imgproc.c85_bilinear_ieee_partial"
   ],
   "note": "Nearest: IEEE; bilinear: exact arithmetic; Lanczos: within 3e-7 of the largest value (f32 pi); violated by bicubic, which blurs with 1/6, 4/6, 1/6 (c85_bicubic, c85_violated)."
  },
  {
   "property": "C86",
   "status": "partial",
   "theorems": [
    "Imgproc.c86_bilinear_partial",
    "Imgproc.c86_bicubic_partial",
    "Imgproc.c86_lanczos_value",
    "Imgproc.c86_violated",
    "Imgproc.c86_nearest_partial"
   ],
   "note": "Nearest: any arithmetic; bilinear and bicubic: exact arithmetic; violated by Lanczos, whose weights do not sum to 1 (c86_lanczos_value, c86_violated)."
  },
  {
   "property": "C87",
   "status": "proved",
   "theorems": [
    "Imgproc.c87_curve",
    "Imgproc.c87_linearize",
    "Imgproc.c87_round_trip"
   ],
   "note": ""
  },
  {
   "property": "C88",
   "status": "proved",
   "theorems": [
    "Imgproc.c88_xyz",
    "Imgproc.c88_lab",
    "Imgproc.c88_brightness_zero",
    "Imgproc.c88_contrast_one",
    "Imgproc.c88_white"
   ],
   "note": ""
  },
  {
   "property": "C89",
   "status": "proved",
   "theorems": [
    "Imgproc.c89_value",
    "Imgproc.c89_monotone",
    "Imgproc.c89_alpha_zero"
   ],
   "note": ""
  },
  {
   "property": "C90",
   "status": "proved",
   "theorems": [
    "Imgproc.c90_value",
    "Imgproc.c90_between",
    "Imgproc.c90_constant"
   ],
   "note": ""
  },
  {
   "property": "C91",
   "status": "proved",
   "theorems": [
    "Imgproc.c91_filter_1d",
    "Imgproc.c91_separable",
    "Imgproc.c91_unseparable",
    "Imgproc.c91_linear_filter",
    "Imgproc.c91_kernel",
    "Imgproc.c91_local",
    "Imgproc.c91_channel"
   ],
   "note": ""
  },
  {
   "property": "C92",
   "status": "proved",
   "theorems": [
    "Imgproc.c92_averaging_kernel",
    "Imgproc.c92_weighted_avg",
    "Imgproc.c92_box",
    "Imgproc.c92_gaussian_constant",
    "Imgproc.c92_gaussian_not_averaging",
    "Imgproc.c92_violated"
   ],
   "note": ""
  },
  {
   "property": "C93",
   "status": "proved",
   "theorems": [
    "Imgproc.c93_zero",
    "Imgproc.c93_add",
    "Imgproc.c93_undo",
    "Imgproc.c93_monotone"
   ],
   "note": ""
  },
  {
   "property": "C94",
   "status": "proved",
   "theorems": [
    "Imgproc.c94_to_zero_idempotent",
    "Imgproc.c94_trunc_idempotent",
    "Imgproc.c94_binary",
    "Imgproc.c94_split"
   ],
   "note": ""
  },
  {
   "property": "C95",
   "status": "proved",
   "theorems": [
    "Imgproc.c95_tone",
    "Imgproc.c95_colour",
    "Imgproc.c95_grayscale",
    "Imgproc.c95_threshold",
    "Imgproc.c95_linearize",
    "Imgproc.c95_unseparable",
    "Imgproc.c95_separable",
    "Imgproc.c95_fixed_kernels",
    "Imgproc.c95_averages",
    "Imgproc.c95_derivative_mask",
    "Imgproc.c95_sobel_prewitt",
    "Imgproc.c95_erode",
    "Imgproc.c95_dilate",
    "Imgproc.c95_open_close",
    "Imgproc.c95_median_violated"
   ],
   "note": "Proved for the operations listed; the median filter violates it (c95_median_violated), as the statement says."
  },
  {
   "property": "C96",
   "status": "proved",
   "theorems": [
    "Imgproc.c96_values",
    "Imgproc.c96_invariant",
    "Imgproc.c96_remap"
   ],
   "note": ""
  },
  {
   "property": "C97",
   "status": "proved",
   "theorems": [
    "Imgproc.c97_value",
    "Imgproc.c97_curve",
    "Imgproc.c97_one"
   ],
   "note": ""
  },
  {
   "property": "C98",
   "status": "proved",
   "theorems": [
    "Imgproc.c98_value",
    "Imgproc.c98_weights",
    "Imgproc.c98_affine",
    "Imgproc.c98_ramp",
    "Imgproc.c98_range"
   ],
   "note": ""
  },
  {
   "property": "C99",
   "status": "partial",
   "theorems": [
    "Imgproc.c99_value",
    "Imgproc.c99_even",
    "Imgproc.c99_violated"
   ],
   "note": "Violated by the code: the kernel has 1 + d/(2 sigma^2) where the formula has 1 - d/(2 sigma^2), so every weight is negative and every positive image becomes strictly negative (c99_violated, for every odd size and sigma > 0). What the code does compute is proved (c99_value, c99_even)."
  },
  {
   "property": "C100",
   "status": "proved",
   "theorems": [
    "Imgproc.c100_value",
    "Imgproc.c100_mean",
    "Imgproc.c100_ieee"
   ],
   "note": ""
  },
  {
   "property": "C101",
   "status": "proved",
   "theorems": [
    "Imgproc.c101_back_pixel",
    "Imgproc.c101_hue_one",
    "Imgproc.c101_forward_pixel",
    "Imgproc.c101_round_trip_pixel",
    "Imgproc.c101_round_trip"
   ],
   "note": ""
  },
  {
   "property": "C102",
   "status": "proved",
   "theorems": [
    "Imgproc.c102_u8",
    "Imgproc.c102_u32",
    "Imgproc.c102_usize",
    "Imgproc.c102_signed",
    "Imgproc.c102_checks",
    "Imgproc.c102_float_checks"
   ],
   "note": ""
  },
  {
   "property": "C103",
   "status": "proved",
   "theorems": [
    "Imgproc.c103_mut",
    "Imgproc.c103_dims",
    "Imgproc.c103_integers",
    "Imgproc.c103_real"
   ],
   "note": ""
  },
  {
   "property": "C104",
   "status": "proved",
   "theorems": [
    "Imgproc.c104_samples"
   ],
   "note": ""
  },
  {
   "property": "C105",
   "status": "proved",
   "theorems": [
    "Imgproc.c105_separable",
    "Imgproc.c105_gaussian3",
    "Imgproc.c105_gaussian5",
    "Imgproc.c105_range"
   ],
   "note": ""
  },
  {
   "property": "C106",
   "status": "proved",
   "theorems": [
    "Imgproc.c106_linearize_accuracy",
    "Imgproc.c106_linear_trip",
    "Imgproc.c106_xyz",
    "Imgproc.c106_lab",
    "Imgproc.c106_brightness_zero",
    "Imgproc.c106_contrast_one"
   ],
   "note": ""
  },
  {
   "property": "C107",
   "status": "proved",
   "theorems": [
    "Imgproc.c107_matrices",
    "Imgproc.c107_lab"
   ],
   "note": ""
  },
  {
   "property": "C108",
   "status": "proved",
   "theorems": [
    "Imgproc.c108_gamma"
   ],
   "note": ""
  },
  {
   "property": "C109",
   "status": "proved",
   "theorems": [
    "Imgproc.c109_filter_1d",
    "Imgproc.c109_unseparable",
    "Imgproc.c109_separable",
    "Imgproc.c109_separable_vs_unseparable"
   ],
   "note": ""
  },
  {
   "property": "C110",
   "status": "proved",
   "theorems": [
    "Imgproc.c110_averaging_kernel",
    "Imgproc.c110_weighted_avg",
    "Imgproc.c110_box"
   ],
   "note": ""
  },
  {
   "property": "C111",
   "status": "proved",
   "theorems": [
    "Imgproc.c111_gradient"
   ],
   "note": ""
  },
  {
   "property": "C112",
   "status": "proved",
   "theorems": [
    "Imgproc.c112_value",
    "Imgproc.c112_alpha_zero",
    "Imgproc.c112_order"
   ],
   "note": ""
  },
  {
   "property": "C113",
   "status": "proved",
   "theorems": [
    "Imgproc.c113_bilinear_value",
    "Imgproc.c113_bilinear_range",
    "Imgproc.c113_bilinear_constant"
   ],
   "note": ""
  },
  {
   "property": "C114",
   "status": "proved",
   "theorems": [
    "Imgproc.c114_bicubic_value",
    "Imgproc.c114_bicubic_range",
    "Imgproc.c114_bicubic_constant"
   ],
   "note": ""
  },
  {
   "property": "C115",
   "status": "proved",
   "theorems": [
    "Imgproc.c115_lanczos_value",
    "Imgproc.c115_lanczos_scale",
    "Imgproc.c115_lanczos_identity"
   ],
   "note": ""
  },
  {
   "property": "C116",
   "status": "proved",
   "theorems": [
    "Imgproc.c116_gaussian_value",
    "Imgproc.c116_log_value"
   ],
   "note": ""
  },
  {
   "property": "C117",
   "status": "proved",
   "theorems": [
    "Imgproc.c117_gaussian_blur",
    "Imgproc.c117_log",
    "Imgproc.c117_gaussian_darkens",
    "Imgproc.c117_gaussian_brightens"
   ],
   "note": ""
  },
  {
   "property": "C118",
   "status": "proved",
   "theorems": [
    "Imgproc.c118_spatial_value",
    "Imgproc.c118_mean",
    "Imgproc.c118_between"
   ],
   "note": ""
  },
  {
   "property": "C119",
   "status": "proved",
   "theorems": [
    "Imgproc.c119_lab_accurate",
    "Imgproc.c119_exact_lightness",
    "Imgproc.c119_lightness_range"
   ],
   "note": ""
  },
  {
   "property": "C120",
   "status": "proved",
   "theorems": [
    "Imgproc.c120_isolated_black",
    "Imgproc.c120_grey_on_white"
   ],
   "note": ""
  },
  {
   "property": "C121",
   "status": "proved",
   "theorems": [
    "Imgproc.c121_unseparable",
    "Imgproc.c121_filter_1d",
    "Imgproc.c121_separable"
   ],
   "note": ""
  },
  {
   "property": "C122",
   "status": "proved",
   "theorems": [
    "Imgproc.c122_shear",
    "Imgproc.c122_dyadic",
    "Imgproc.c122_violated"
   ],
   "note": ""
  },
  {
   "property": "C123",
   "status": "proved",
   "theorems": [
    "Imgproc.c123_table",
    "Imgproc.c123_rectangle"
   ],
   "note": ""
  },
  {
   "property": "C124",
   "status": "proved",
   "theorems": [
    "Imgproc.c124_exact",
    "Imgproc.c124_rotate",
    "Imgproc.c124_every_angle"
   ],
   "note": ""
  },
  {
   "property": "C125",
   "status": "proved",
   "theorems": [
    "Imgproc.c125_back_pixel",
    "Imgproc.c125_forward_pixel",
    "Imgproc.c125_forward",
    "Imgproc.c125_back"
   ],
   "note": ""
  },
  {
   "property": "C126",
   "status": "proved",
   "theorems": [
    "Imgproc.c126_curve",
    "Imgproc.c126_f32",
    "Imgproc.c126_drop",
    "Imgproc.c126_exact"
   ],
   "note": ""
  },
  {
   "property": "C127",
   "status": "proved",
   "theorems": [
    "Imgproc.c127_equalize",
    "Imgproc.c127_exact",
    "Imgproc.c127_f32",
    "Imgproc.c127_brightness",
    "Imgproc.c127_levels",
    "Imgproc.c127_contrast",
    "Imgproc.c127_darkens"
   ],
   "note": ""
  },
  {
   "property": "C128",
   "status": "proved",
   "theorems": [
    "Imgproc.c128_channels",
    "Imgproc.c128_image",
    "Imgproc.c128_util",
    "Imgproc.c128_convert",
    "Imgproc.c128_colorspace",
    "Imgproc.c128_tone",
    "Imgproc.c128_transform",
    "Imgproc.c128_filter",
    "Imgproc.c128_order",
    "Imgproc.c128_morphology"
   ],
   "note": ""
  },
  {
   "property": "C129",
   "status": "proved",
   "theorems": [
    "Imgproc.c129_channels",
    "Imgproc.c129_image",
    "Imgproc.c129_util",
    "Imgproc.c129_convert",
    "Imgproc.c129_colorspace",
    "Imgproc.c129_tone",
    "Imgproc.c129_transform",
    "Imgproc.c129_filter",
    "Imgproc.c129_order",
    "Imgproc.c129_morphology",
    "Imgproc.c129_io"
   ],
   "note": ""
  },
  {
   "property": "C130",
   "status": "proved",
   "theorems": [
    "Imgproc.c130_crop",
    "Imgproc.c130_nested",
    "Imgproc.c130_filter_1d",
    "Imgproc.c130_separable",
    "Imgproc.c130_box",
    "Imgproc.c130_derivative_mask",
    "Imgproc.c130_edge",
    "Imgproc.c130_threshold",
    "Imgproc.c130_unseparable",
    "Imgproc.c130_sharpen",
    "Imgproc.c130_kernels",
    "Imgproc.c130_linear",
    "Imgproc.c130_gaussian_blur",
    "Imgproc.c130_bilateral",
    "Imgproc.c130_erode",
    "Imgproc.c130_dilate",
    "Imgproc.c130_stitch"
   ],
   "note": ""
  },
  {
   "property": "C131",
   "status": "proved",
   "theorems": [
    "Imgproc.c131_call",
    "Imgproc.c131_history",
    "Imgproc.c131_same_header",
    "Imgproc.c131_three_colours",
    "Imgproc.c131_sizes",
    "Imgproc.c131_violated",
    "Imgproc.c131_crop_violated"
   ],
   "note": ""
  },
  {
   "property": "C132",
   "status": "proved",
   "theorems": [
    "Imgproc.c132_get_pixel",
    "Imgproc.c132_set_pixel",
    "Imgproc.c132_crop",
    "Imgproc.c132_crop_par",
    "Imgproc.c132_overlay",
    "Imgproc.c132_translate",
    "Imgproc.c132_reflect",
    "Imgproc.c132_shear",
    "Imgproc.c132_rotate",
    "Imgproc.c132_scale_nearest",
    "Imgproc.c132_scale_nearest_par",
    "Imgproc.c132_commute",
    "Imgproc.c132_only_moves",
    "Imgproc.c132_commute_float",
    "Imgproc.c132_only_moves_float"
   ],
   "note": ""
  },
  {
   "property": "C133",
   "status": "proved",
   "theorems": [
    "Imgproc.c133_filter_1d",
    "Imgproc.c133_filter_1d_par",
    "Imgproc.c133_separable",
    "Imgproc.c133_unseparable",
    "Imgproc.c133_unseparable_par",
    "Imgproc.c133_brighter",
    "Imgproc.c133_box",
    "Imgproc.c133_weighted_avg",
    "Imgproc.c133_median_violated",
    "Imgproc.c133_bilinear",
    "Imgproc.c133_bilinear_par"
   ],
   "note": ""
  },
  {
   "property": "C134",
   "status": "proved",
   "theorems": [
    "Imgproc.c134_filters",
    "Imgproc.c134_linear_filter",
    "Imgproc.c134_named",
    "Imgproc.c134_scale",
    "Imgproc.c134_derivative_mask",
    "Imgproc.c134_edges"
   ],
   "note": ""
  },
  {
   "property": "C135",
   "status": "proved",
   "theorems": [
    "Imgproc.c135_shrink",
    "Imgproc.c135_undo",
    "Imgproc.c135_shrink_violated"
   ],
   "note": ""
  },
  {
   "property": "C136",
   "status": "proved",
   "theorems": [
    "Imgproc.c136_transpose",
    "Imgproc.c136_crop",
    "Imgproc.c136_translate",
    "Imgproc.c136_reflect",
    "Imgproc.c136_overlay",
    "Imgproc.c136_nearest",
    "Imgproc.c136_bilinear",
    "Imgproc.c136_bicubic",
    "Imgproc.c136_lanczos",
    "Imgproc.c136_shear",
    "Imgproc.c136_tone",
    "Imgproc.c136_colour",
    "Imgproc.c136_grayscale",
    "Imgproc.c136_threshold",
    "Imgproc.c136_linearize",
    "Imgproc.c136_unseparable",
    "Imgproc.c136_separable",
    "Imgproc.c136_fixed_kernels",
    "Imgproc.c136_averages",
    "Imgproc.c136_derivative_mask",
    "Imgproc.c136_sobel_prewitt",
    "Imgproc.c136_summed_area",
    "Imgproc.c136_erode_dilate",
    "Imgproc.c136_open_close",
    "Imgproc.c136_median_violated",
    "Imgproc.c136_equalize"
   ],
   "note": ""
  },
  {
   "property": "C137",
   "status": "proved",
   "theorems": [
    "Imgproc.c137_tone",
    "Imgproc.c137_colour",
    "Imgproc.c137_grayscale",
    "Imgproc.c137_threshold",
    "Imgproc.c137_linearize",
    "Imgproc.c137_equalize"
   ],
   "note": ""
  },
  {
   "property": "C138",
   "status": "proved",
   "theorems": [
    "Imgproc.c138_crop",
    "Imgproc.c138_translate",
    "Imgproc.c138_reflect",
    "Imgproc.c138_overlay",
    "Imgproc.c138_reflect_crop",
    "Imgproc.c138_reflect_overlay"
   ],
   "note": ""
  },
  {
   "property": "C139",
   "status": "proved",
   "theorems": [
    "Imgproc.c139_pick",
    "Imgproc.c139_crop",
    "Imgproc.c139_translate",
    "Imgproc.c139_reflect",
    "Imgproc.c139_overlay",
    "Imgproc.c139_nearest",
    "Imgproc.c139_bilinear",
    "Imgproc.c139_bicubic",
    "Imgproc.c139_lanczos",
    "Imgproc.c139_shear",
    "Imgproc.c139_filter_1d",
    "Imgproc.c139_separable",
    "Imgproc.c139_unseparable",
    "Imgproc.c139_fixed_kernels",
    "Imgproc.c139_median",
    "Imgproc.c139_tone",
    "Imgproc.c139_linearize",
    "Imgproc.c139_grayscale"
   ],
   "note": ""
  },
  {
   "property": "C140",
   "status": "proved",
   "theorems": [
    "Imgproc.c140_gaussian3",
    "Imgproc.c140_gaussian5",
    "Imgproc.c140_integer_kernel",
    "Imgproc.c140_sharpen",
    "Imgproc.c140_unseparable",
    "Imgproc.c140_average_range",
    "Imgproc.c140_bilinear_range",
    "Imgproc.c140_gradient",
    "Imgproc.c140_threshold",
    "Imgproc.c140_bicubic_range",
    "Imgproc.c140_lanczos_identity",
    "Imgproc.c140_gaussian_blur",
    "Imgproc.c140_log_black"
   ],
   "note": ""
  },
  {
   "property": "C141",
   "status": "proved",
   "theorems": [
    "Imgproc.c141_brightness",
    "Imgproc.c141_gradient",
    "Imgproc.c141_integer_kernel",
    "Imgproc.c141_laplacian",
    "Imgproc.c141_gaussian"
   ],
   "note": ""
  },
  {
   "property": "C142",
   "status": "proved",
   "theorems": [
    "Imgproc.c142_fractions",
    "Imgproc.c142_weighted_mean",
    "Imgproc.c142_box_mean",
    "Imgproc.c142_brightness",
    "Imgproc.c142_monotone",
    "Imgproc.c142_same_bytes"
   ],
   "note": ""
  },
  {
   "property": "C143",
   "status": "proved",
   "theorems": [
    "Imgproc.c143_bilinear"
   ],
   "note": ""
  },
  {
   "property": "C144",
   "status": "proved",
   "theorems": [
    "Imgproc.c144_float_gray",
    "Imgproc.c144_versions"
   ],
   "note": ""
  }
 ]
}