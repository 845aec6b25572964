{
 "C10": {
  "note": "Violated by the code: size_hint is constant, so the std contract holds exactly at position 0; counterexample c10_violated."
 },
 "C11": {
  "note": "Violated by the code: get_subimage stores columns but reads rows (c11_exact, c11_violated); true part: rectangles with a side of 1."
 },
 "C12": {
  "note": "Violated by the code for windows larger than 3 at the border: out-of-range coordinates are replaced by the centre, not the edge (c12_exact_2d, c12_violated)."
 },
 "C61": {
  "note": "Violated by the code: crop rejects rectangles that touch the right or bottom edge (c61_violated); proved for rectangles strictly inside."
 },
 "C19": {
  "note": "Proved except bias = i16::MIN in debug builds, where abs() overflows and panics."
 },
 "C21": {
  "note": "Violated by the code: tail bytes become 0 and the alpha mask assumes four channels (c21_exact, c21_violated_tail, c21_violated_alpha); equality proved on full 32-byte blocks."
 },
 "C25": {
  "note": "Violated by the code: out-of-bounds access for RGB images (c25_violated_ub), black tail (c25_violated_tail); equality proved for RGBA with full blocks."
 },
 "C29": {
  "note": "Proved for up to 128 colour channels; beyond that the i16 sum overflows (c29_violated)."
 },
 "C30": {
  "note": "Violated by the code: the AVX2 path computes avg(avg(r,g),b) and drops the tail (c30_exact, c30_violated_value, c30_violated_tail); equality proved for grey images with full blocks."
 },
 "C31": {
  "note": "Violated by the code for one-channel images (c31_violated: out-of-bounds write); safety proved for 3+ channels (4+ with alpha)."
 },
 "C47": {
  "note": "Proved for odd kernel sides up to 65535 (also where the kernel length is not exact in f32) with side + image side at most 2^31; beyond that the code's i32 arithmetic is not covered. Non-square lengths up to 2^32 are rejected (c47_unseparable_nonsquare)."
 },
 "C26": {
  "note": "Violated by the code: or_insert(1) followed by += 1 counts every distinct key once too often (c26_exact); the top value exceeds 1 on every non-empty image (c26_violated). Monotone and positive: proved."
 },
 "C36": {
  "note": "Proved in exact (real) arithmetic; the f32 version only agrees up to rounding."
 },
 "C43": {
  "note": "Proved for size*size < 2^31; beyond that the i32 index arithmetic panics in debug builds (c43_too_large)."
 },
 "C44": {
  "note": "Violated by the code: the centre entry stays 0 (c44_centre_counterexample) and even sizes panic (c44_even_panics); every other entry is proved (c44_spatial_mat_partial)."
 },
 "C48": {
  "note": "Proved for filters and bilateral. Violated in two corners: crop in release builds with overflowing x+width (c48_crop_release_counterexample), and unseparable_filter with some non-square kernel lengths above 2^24, where the sequential build gives an error and the rayon build panics (c48_unseparable_violated). Scale assumes the output size fits u32 in release builds."
 },
 "C49": {
  "note": "Violated by the code: box_filter(size) averages a size^2 x size^2 window (c49_exact, c49_violated); true only for size 1."
 },
 "C54": {
  "note": "One-channel images proved; grayscale images with alpha panic (c54_violated_alpha)."
 },
 "C59": {
  "note": "Proved when the derived window size is odd; even window sizes panic (c59_even_panics, c59_quarter_panics). With window size 1 (spatial below 1/4) the accepted call returns all-zero bytes, alpha included (c59_small_spatial_black)."
 },
 "C62": {
  "status": "partial",
  "note": "Violated by the code: superimpose rejects every pair of images (c62_always_rejected), so the blending clause never applies."
 },
 "C55": {
  "note": "Proved for images with two different finite values; a single NaN pixel does not panic (c55_violated_single_nan)."
 },
 "C72": {
  "note": "Proved in IEEE f32 within the stated size bound (c72_erode) and in exact arithmetic without it; c72_rounding_counterexample shows why a bound is needed."
 },
 "C73": {
  "note": "Violated by the code for radius >= 2 near the border (c73_violated) and for radius larger than a side (panic, c73_radius_panics); proved for radius <= 1 and in the interior; c73_exact_window describes the code for every radius."
 },
 "C74": {
  "note": "Violated by the code: majority is dilate (c74_is_dilate, c74_violated); one direction holds."
 },
 "C75": {
  "note": "erode <= input <= dilate, monotonicity and open <= input proved; input <= close is violated at the border (c75_close_violated), proved in the interior."
 },
 "C76": {
  "note": "Proved in IEEE f32 for every one-channel image of any size, for radii in range."
 },
 "C67": {
  "note": "Violated by the code: nearest-neighbour scaling panics when W*f rounds up (c67_nearest_violated: 1x1 image, factor 1.5) and, when shrinking, when (x+1)/f rounds past the edge (c135_shrink_violated: 61 columns to 1, 22 columns to 13). Proved: bicubic and Lanczos for all factors incl. NaN, bilinear for outputs up to 2^22 per side, nearest neighbour for integer factors, negative factors rejected."
 },
 "C68": {
  "note": "The interpolation clause is violated: the weights of the neighbours are exchanged (c68_violated). c68_value_partial says exactly what is computed; range, factor 1 and constant images proved in exact arithmetic. The exchange is also shown in f32 arithmetic (c68_violated_ieee); f32 error bounds are C113."
 },
 "C69": {
  "note": "Exact arithmetic (F := R)."
 },
 "C70": {
  "note": "Identity in IEEE f32; the general description in exact arithmetic."
 },
 "C71": {
  "status": "partial",
  "note": "Violated by the code for every image of at least two rows whose last row is not zero (c71_violated). c71_describe_partial says exactly what rotate(img,0) returns; 1x1 images are returned unchanged. The same description and violation are proved in f32 (c71_f32_describe_partial, c71_f32_violated)."
 },
 "C79": {
  "note": "Exact arithmetic; sin and cos are the real functions, the angle uses the f32 constant for pi."
 },
 "C56": {
  "status": "partial",
  "note": "Violated by the code (c56_violated: radius 0 changes a column 5,3 into 5,5). c56_exact gives the exact result for every image, radius and block size: the window median, except that the value of the row above is kept when exactly size^2/2+1 window values are below it; and the last output column shows the last column of the last block. Right in row 0, along columns whose median does not decrease, on constant images; otherwise never below the median and at most one rank above."
 },
 "C57": {
  "note": "c57_counts: any sequence of additions and removals, any odd block size, radius and channel; counters must stay within i32."
 },
 "C58": {
  "status": "partial",
  "note": "The code violates the property. Proved for all inputs: odd or too large alpha is refused; on one-row images the exact value the code computes (c58_one_row_exact), which is the rounded trimmed mean when the upper trimming boundary is clean (c58_one_row_partial) and always for alpha <= 2; constant images come back unchanged for every size and even alpha >= 2 (c58_constant_partial; mean exactness shown for exact arithmetic and for f32 up to radius 127). On images of any height, whenever the filter returns, row 0 is exactly the value computed from a window holding row 0 of the image 2r+1 times (c58_first_row_exact), right when rows 1..r equal row 0 (c58_first_row_partial). Violations proved: alpha = 0 panics on every image of two or more rows (c58_alpha_zero_panics); a valid alpha = 8 panics on a 1x8 image (c58_panics, with std's binary search); wrong value 30 instead of 20 on one row (c58_violated); 0 instead of 26 on two rows with alpha = 2 (c58_violated_first_row). For alpha = 2 every row of an image of any height is exactly the rounded trimmed mean, if rows 1..r equal row 0 (c58_alpha_two_partial; std's binary search contract is a hypothesis, proved of its source). Missing: rows below the first for alpha >= 4 on non-constant images, where the code's bookkeeping of the upper values is wrong."
 },
 "C84": {
  "note": "Value theorem in exact arithmetic, totality in IEEE f32; sizes 2^31-1..2^31+1 overflow i32 and panic with overflow checks (c84_violated_size)."
 },
 "C85": {
  "note": "Nearest: IEEE; bilinear: exact arithmetic; Lanczos: within 3e-7 of the largest value (f32 pi); violated by bicubic, which blurs with 1/6, 4/6, 1/6 (c85_bicubic, c85_violated)."
 },
 "C86": {
  "note": "Nearest: any arithmetic; bilinear and bicubic: exact arithmetic; violated by Lanczos, whose weights do not sum to 1 (c86_lanczos_value, c86_violated)."
 },
 "C95": {
  "note": "Proved for the operations listed; the median filter violates it (c95_median_violated), as the statement says."
 },
 "C99": {
  "status": "partial",
  "note": "Violated by the code: the kernel has 1 + d/(2 sigma^2) where the formula has 1 - d/(2 sigma^2), so every weight is negative and every positive image becomes strictly negative (c99_violated, for every odd size and sigma > 0). What the code does compute is proved (c99_value, c99_even)."
 }
}