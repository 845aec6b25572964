#!/usr/bin/env python3
"""Source of /verif/properties.jsonl (run to regenerate)."""
import json, os
P = []
def p(title, statement, quantifier, why, *anchors):
    P.append(dict(id="C%02d" % (len(P) + 1), title=title, statement=statement,
                  quantifier=quantifier, why_tests_cant=why, anchors=list(anchors)))

IM = "src/image/mod.rs"
# ---------------------------------------------------------------- image core
p("Pixel writes behave like a map from coordinates to pixels",
  "After any sequence of set_pixel calls on an image, get_pixel(x, y) returns the pixel of the last call that named (x, y), or the original pixel if no call did; info() never changes.",
  "every well-formed image, every channel type, every finite history of in-range set_pixel calls, every in-range coordinate, both overflow profiles",
  "histories and image sizes are unbounded; a test only samples a few writes",
  IM + ":set_pixel", IM + ":get_pixel", IM + ":Index/IndexMut")
p("Checked pixel access panics exactly when documented",
  "get_pixel / get_pixel_mut / set_pixel return normally exactly when x < width and y < height (and, for set_pixel, the pixel slice has exactly `channels` elements); otherwise they panic. In particular a slice of length channels + 256k never slips through the 8-bit length check.",
  "every well-formed image, every u32 coordinate pair, every slice length, both overflow profiles",
  "the length check truncates to u8, so only a statement over all lengths shows no wrap-around accident",
  IM + ":get_pixel", IM + ":get_pixel_mut", IM + ":set_pixel", "src/error/messages.rs:check_xy", "src/error/messages.rs:check_channels")
p("1-D and 2-D addressing agree and stay inside the buffer",
  "For in-range (x, y), get_pixel(x, y), get_pixel_unchecked(x, y), img[y*width+x] and data()[index(x,y) .. index(x,y)+channels] are the same slice, distinct coordinates have disjoint slices, and together the slices tile data() exactly.",
  "every well-formed image and all coordinate pairs",
  "needs injectivity and surjectivity of the index arithmetic for all sizes",
  IM + ":index", IM + ":get_pixel_unchecked", IM + ":Index")
p("Constructors lay pixels out row by row",
  "from_slice / from_vec / from_vec_of_vec / from_vec_of_slice give an image whose info is the given one and whose pixel (x, y) is the (y*width+x)-th group of `channels` values of the input; blank gives all-zero pixels; construction then data() is the identity.",
  "every width, height, channel count and data of matching length",
  "unbounded sizes and data",
  IM + ":from_slice", IM + ":from_vec", IM + ":from_vec_of_vec", IM + ":from_vec_of_slice", IM + ":blank")
p("map_channels / map_channels_if_alpha act pointwise and respect alpha",
  "map_channels(f) keeps info and applies f to every channel; map_channels_if_alpha(f, g) applies g to the last channel and f to all others when the image has alpha, and f to everything otherwise; nothing else changes.",
  "every well-formed image, all functions f and g, all channel types",
  "quantifies over functions and sizes",
  IM + ":map_channels", IM + ":map_channels_if_alpha", "src/image/pixel.rs:map_alpha")
p("map_pixels / map_pixels_if_alpha act pixelwise and infer the channel count",
  "If f appends exactly k values per pixel (k<256), map_pixels(f) returns an image of the same width, height and alpha flag with k channels (k+1 with alpha for the _if_alpha form) whose pixel (x, y) is f of the input pixel (with g of the alpha value appended). On an image with zero pixels it panics (division by zero).",
  "every well-formed image, all functions f (with constant output arity) and g",
  "quantifies over functions and sizes, and includes the empty image",
  IM + ":map_pixels", IM + ":map_pixels_if_alpha")
p("In-place apply_* agrees with the copying map_*",
  "For every image and functions whose output arity equals the input's, apply_pixels, apply_pixels_if_alpha, apply_channels and apply_channels_if_alpha leave the image equal to the result of the corresponding map_* call on the original.",
  "every well-formed non-empty image, all functions",
  "in-place update could read already-overwritten values at some size; needs all sizes",
  IM + ":apply_pixels", IM + ":apply_pixels_if_alpha", IM + ":apply_channels", IM + ":apply_channels_if_alpha", "src/image/pixel.rs:apply_alpha")
p("edit_channel changes exactly the selected channel",
  "For index < channels, edit_channel(f, index) replaces channel `index` of every pixel by f of it and leaves every other channel and info() unchanged.",
  "every well-formed image, every valid channel index, every f",
  "stride arithmetic must be right for all sizes",
  IM + ":edit_channel")
p("The pixel iterator visits every pixel exactly once, in row-major order, and then stays exhausted",
  "Iterating an image with positive width and height yields exactly width*height items; the k-th item is (k mod width, k div width, get_pixel of that coordinate); all later next() calls return None.",
  "every well-formed image with positive dimensions, every number of next() calls",
  "requires induction over the whole iteration for all sizes",
  "src/image/pixel_iter.rs:PixelIter", "src/image/pixel_iter.rs:next")
p("The pixel iterator's size_hint brackets the number of remaining items",
  "At any point of the iteration, size_hint's lower bound is at most, and its upper bound at least, the number of items still to come (the std Iterator contract).",
  "every well-formed image, every position of the iterator",
  "position-dependent; needs all prefixes of the iteration",
  "src/image/pixel_iter.rs:size_hint")
p("Sub-images show the selected rectangle",
  "get_subimage(x, y, w, h).get_pixel(i, j) equals get_pixel(x+i, y+j) of the image for i < w, j < h, for every rectangle inside the image.",
  "every well-formed image and every rectangle inside it",
  "the existing test uses a 1-wide rectangle only; all shapes are needed to see the layout",
  IM + ":get_subimage", "src/image/sub_image.rs:get_pixel")
p("Neighborhoods use clamp padding",
  "get_neighborhood_1d / _2d of size s around (x, y) has s (s*s) pixels, entry k (row i, column j) is the image pixel at offset k - s/2 (i - s/2, j - s/2) from the centre, with coordinates outside the image replaced by the nearest edge coordinate.",
  "every well-formed image, centre and size",
  "edge behaviour depends on distance to the border and on the size; unit tests use size 3 only",
  IM + ":get_neighborhood_1d", IM + ":get_neighborhood_2d")
p("Pixel slice helpers",
  "alpha is the last channel, channels_without_alpha all but the last, map_all/map_alpha/apply/apply_alpha act per channel as documented (apply* agreeing with map*), is_black holds iff every channel is zero and is_black_alpha iff every non-last channel is; on an empty slice the alpha-based helpers panic.",
  "every slice length and content, every function",
  "quantifies over functions and lengths including 0",
  "src/image/pixel.rs")
# ---------------------------------------------------------------- conversions
p("u8 images survive a round trip through f32 or f64",
  "Image::<u8>::from(Image::<f32>::from(img)) == img, and the same through f64.",
  "every well-formed u8 image; IEEE-754 arithmetic",
  "needs exactness of the conversions for every value and every size",
  "src/image/from_impl.rs")
p("Float to u8 conversion rounds and saturates",
  "Converting an f32/f64 image to u8 maps each finite channel v to round-half-away(v) clamped to [0,255], +inf to 255, -inf and NaN to 0; the operation never panics and is monotone.",
  "every channel value including NaN and infinities",
  "value domain is all of IEEE-754",
  "src/image/from_impl.rs")
p("u8 <-> scaled f32 conversion round trip",
  "f32_to_u8_scale(u8_to_f32_scale(img, s), s) == img for every scale s >= 1 (s up to u32::MAX).",
  "every well-formed u8 image and all 2^32-1 scales, IEEE-754 rounding included",
  "the product of 256 values and 2^32 scales with four roundings each",
  "src/convert.rs:u8_to_f32_scale", "src/convert.rs:f32_to_u8_scale")
p("scale_channels maps the endpoints of the source range onto the endpoints of the target range",
  "Channels equal to current_min become scaled_min exactly, channels equal to current_max become scaled_max (exactly when scaled_min is 0), info is unchanged; in exact arithmetic the map is the affine bijection between the two ranges.",
  "every image and all finite ranges with current_min < current_max whose widths do not overflow",
  "range of floats is unbounded",
  "src/convert.rs:scale_channels")
p("Integer images convert to f64 exactly when they fit 53 bits",
  "u8, u16, u32 images (and u64/u128/usize images whose channels are below 2^53) convert to f64 without loss, so distinct images stay distinct; above 2^53 loss occurs.",
  "every image of the listed types",
  "all values of the types",
  "src/image/from_impl.rs")
# ---------------------------------------------------------------- tone
p("Tone parameter validation",
  "brightness, brightness_lab and saturation return an InvalidArg error exactly when |parameter| > 255; contrast and contrast_lab exactly when gain is a number outside [0,1]; gamma exactly when gamma < 0; histogram_equalization exactly when precision < 0 or alpha is outside [0,1]. NaN is not rejected by any of them.",
  "every i16 / f32 parameter including NaN, i16::MIN, infinities",
  "all parameter values incl. special ones (i16::MIN.abs() overflows)",
  "src/tone.rs", "src/error/messages.rs:check_in_range", "src/error/messages.rs:check_non_neg")
p("Brightness adds the bias with saturation and leaves alpha alone",
  "On hosts without AVX2 (or with the simd feature off), brightness(img, bias) keeps info and maps each non-alpha channel v to clamp(v + bias, 0, 255); the alpha channel is unchanged.",
  "every well-formed u8 image, every bias in [-255,255]",
  "all sizes, values and biases",
  "src/tone.rs:brightness", "src/tone.rs:brightness_rgb_norm", "src/util/mod.rs:generate_lookup_table")
p("Brightness does not depend on whether the AVX2 path is taken",
  "brightness returns the same image with and without AVX2.",
  "every well-formed u8 image and bias",
  "depends on byte count modulo 32 and channel layout; needs all sizes",
  "src/simd.rs:adds_256_u8", "src/tone.rs:brightness")
p("Contrast is a monotone, non-amplifying per-channel map",
  "For gain in [0,1], contrast(img, gain) keeps info and alpha, maps each other channel v to round(v*gain); the map is monotone in v, never exceeds v, is the identity for gain 1 and constant 0 for gain 0 (and for NaN gain, which is accepted).",
  "every well-formed u8 image, every f32 gain (IEEE-754)",
  "all floats",
  "src/tone.rs:contrast")
p("Gamma keeps shape and alpha, and gamma 1 is the identity",
  "gamma(img, g, max) keeps info and the alpha channel for every g and max; with max = 255 and a libm whose pow(x,1)=x, gamma 1.0 returns the input image.",
  "every well-formed u8 image, every libm",
  "all sizes, all pow implementations",
  "src/tone.rs:gamma")
p("Saturation shifts only S, and -255 desaturates completely",
  "Without AVX2, saturation(img, s) keeps info and alpha and is hsv_to_rgb of the HSV image with clamp(S+s,0,255); the largest colour channel of each pixel is preserved; s = -255 turns every pixel into the grey of its largest channel.",
  "every well-formed u8 image with 3 colour channels, every s in [-255,255]",
  "all pixel values and sizes",
  "src/tone.rs:saturation", "src/tone.rs:saturation_norm")
p("Saturation's AVX2 path is memory safe and agrees with the scalar path",
  "With AVX2, saturation never reads or writes outside the image buffers and returns the same image as without AVX2.",
  "every well-formed RGB / RGBA u8 image",
  "depends on byte counts modulo 30/32; only all sizes show the over-run",
  "src/simd.rs:adds_n_256_u8", "src/tone.rs:saturation")
p("Histogram percentiles form a cumulative distribution",
  "generate_histogram_percentiles assigns to each occurring intensity key the fraction of pixels with key less than or equal to it: values are monotone in the key and lie in (0,1], the largest key getting 1.",
  "every image and precision",
  "all images",
  "src/util/mod.rs:generate_histogram_percentiles")
p("Histogram equalization never fails a lookup",
  "On every non-empty image with 3 colour channels and valid parameters histogram_equalization returns Ok (the percentile lookup never misses) with unchanged info and alpha channel.",
  "every such image, every libm and rounding behaviour",
  "requires that both passes compute the same keys for all pixels",
  "src/tone.rs:histogram_equalization")
p("CIELAB tone operations preserve dimensions and the alpha channel bit-exactly",
  "brightness_lab, contrast_lab (and the colour-space chains srgb->xyz->lab->xyz->srgb they use) return an image with the same info and identical alpha values.",
  "every well-formed u8 image with 3 colour channels, every libm",
  "all sizes and values; alpha goes through several float conversions",
  "src/tone.rs:brightness_lab", "src/tone.rs:contrast_lab", "src/colorspace.rs")
# ---------------------------------------------------------------- colorspace
p("Scalar grayscale conversion is the truncated mean of the colour channels",
  "Without AVX2, rgb_to_grayscale maps each pixel to the truncated mean of its non-alpha channels followed by alpha if present; one channel remains (two with alpha). Result lies between the pixel's minimum and maximum.",
  "every well-formed non-empty u8 image with 1..128 colour channels",
  "all values, sizes; the i16 accumulator bounds the channel count",
  "src/colorspace.rs:rgb_to_grayscale_norm")
p("Grayscale conversion does not depend on whether the AVX2 path is taken",
  "rgb_to_grayscale returns the same image with and without AVX2.",
  "every well-formed RGB / RGBA u8 image",
  "depends on the byte count modulo 32*channels and on values",
  "src/simd.rs:avg_256_u8", "src/simd.rs:avg_alpha_256_u8")
p("The AVX2 grayscale path is memory safe",
  "avg_checked_256_u8 (reachable from the safe rgb_to_grayscale) never writes outside its output buffer.",
  "every well-formed u8 image of any channel count",
  "safety must hold for all channel counts and sizes",
  "src/simd.rs:avg_256_u8", "src/simd.rs:avg_alpha_256_u8", "src/simd.rs:deinterleave_3_256_u8", "src/simd.rs:deinterleave_4_256_u8")
p("Integer HSV conversions never truncate",
  "In rgb_to_hsv and hsv_to_rgb every intermediate value cast to u8 is already in 0..=255 and no i32 arithmetic overflows, for every pixel value; info and alpha are preserved.",
  "all 2^24 RGB and HSV triples, all images",
  "2^24 x 2 inputs; images of all sizes",
  "src/colorspace.rs:rgb_to_hsv", "src/colorspace.rs:hsv_to_rgb")
p("Integer HSV round trip preserves value, minimum and greys",
  "hsv_to_rgb(rgb_to_hsv(img)) keeps the largest and the smallest colour channel value of every pixel exactly, returns grey pixels unchanged, and keeps alpha.",
  "every well-formed u8 image with 3 colour channels",
  "2^24 pixel values",
  "src/colorspace.rs:rgb_to_hsv", "src/colorspace.rs:hsv_to_rgb")
p("f32 HSV conversion: ranges, value channel, greys and alpha",
  "rgb_to_hsv_f32 yields channels in [0,1]; hsv_to_rgb_f32 of it keeps the largest colour channel, returns grey pixels and the alpha channel unchanged, and every other colour channel comes back as the original byte or one less, never more (truncation: the trip is not lossless).",
  "every u8 RGB(A) pixel, IEEE-754 arithmetic",
  "2^24 values with float rounding",
  "src/colorspace.rs:rgb_to_hsv_f32", "src/colorspace.rs:hsv_to_rgb_f32")
p("XYZ conversions apply the published matrices to exactly three colour channels",
  "srgb_lin_to_xyz_f32 / xyz_to_srgb_lin_f32 succeed exactly for non-empty images with 3 non-alpha channels (otherwise they panic) and give, per pixel, the matrix-vector product; the two matrices are inverse to each other up to 1e-6.",
  "every well-formed f32 image",
  "all images and channel counts",
  "src/colorspace.rs:srgb_lin_to_xyz_f32", "src/util/math.rs:vector_mul_mut", "src/util/constants.rs")
p("XYZ and CIELAB conversions are mutually inverse",
  "lab_to_xyz_f32(xyz_to_lab_f32(p)) = p for both reference whites, and the reverse composition is the identity too (up to rounding).",
  "all real colour values, both reference whites",
  "continuous domain with a piecewise formula",
  "src/colorspace.rs:xyz_to_lab_f32", "src/colorspace.rs:lab_to_xyz_f32", "src/util/math.rs:xyz_to_lab_fn", "src/util/math.rs:lab_to_xyz_fn")
p("sRGB linearization keeps shape and alpha",
  "linearize_srgb_f32 then unlinearize_srgb_f32 keeps info and alpha exactly for every u8 image; linearization of each channel is the table function of its value, with values 0..=10 on the linear branch.",
  "every well-formed u8 image, every libm",
  "all sizes, all libm",
  "src/colorspace.rs:linearize_srgb_f32", "src/colorspace.rs:unlinearize_srgb_f32")
# ---------------------------------------------------------------- util
p("get_2d_coords inverts row-major indexing",
  "For width >= 1, get_2d_coords(i, width) = (x, y) with x < width and y*width + x = i, and get_2d_coords(y*width+x, width) = (x, y) for x < width; width 0 panics.",
  "all u32 i and width",
  "2^64 inputs",
  "src/util/mod.rs:get_2d_coords")
p("Summed-area tables hold the rectangle-from-origin sums",
  "Every entry (x, y) of generate_summed_area_table is the sum of the input over columns 0..=x and rows 0..=y, per channel; exact in IEEE f32 whenever inputs are integers with total absolute sum at most 2^23, in particular for u8 images with width*height*255 <= 2^23 (the recurrence forms intermediate sums of up to twice the total).",
  "every well-formed image",
  "needs a two-dimensional induction over all sizes plus float exactness",
  "src/util/mod.rs:generate_summed_area_table")
p("rectangular_intensity_sum returns the sum over the requested rectangle",
  "Applied to a summed-area table it returns the per-channel sum of the original image over columns x0..=x1 and rows y0..=y1, for every rectangle inside the image.",
  "every image, every rectangle",
  "all rectangles incl. those touching the top/left edge",
  "src/util/mod.rs:rectangular_intensity_sum")
p("vector_mul is matrix-vector multiplication",
  "For a non-empty vector of length n, vector_mul returns Ok exactly when mat.len()/n == n and then the i-th output is the (left-to-right) sum of mat[n*i+j]*v[j]; vector_mul_mut puts the same into its output argument whatever it held before; an empty vector panics.",
  "all lengths and values, all number types",
  "unbounded sizes; the length guard uses truncating division",
  "src/util/math.rs:vector_mul", "src/util/math.rs:vector_mul_mut")
p("max_3/max_4/min_3/min_4 return the extremum",
  "For non-NaN arguments the result is one of the arguments and bounds all of them.",
  "all non-NaN f32 arguments, any order and ties",
  "branching comparison ladder; all orders and ties",
  "src/util/math.rs:max_3", "src/util/math.rs:max_4", "src/util/math.rs:min_3", "src/util/math.rs:min_4")
p("Gaussian and LoG kernels are size x size, fully populated and symmetric",
  "For odd size with size*size < 2^31, generate_gaussian_kernel / generate_log_kernel return size*size entries; entry (i,j) is the formula at offset (i-k, j-k) with k=(size-1)/2; hence symmetric under transposition and (in exact arithmetic) under reflection; even sizes give an InvalidArg error.",
  "every size and sigma, every libm",
  "all sizes",
  "src/util/mod.rs:generate_gaussian_kernel", "src/util/mod.rs:generate_log_kernel")
p("The bilateral spatial matrix holds the Gaussian of the distance to the centre",
  "For odd size, entry (y,x) of generate_spatial_mat equals gaussian(distance to centre); no index leaves the matrix.",
  "every size and spatial parameter",
  "symmetric fill-in by index arithmetic must be right for all sizes",
  "src/util/mod.rs:generate_spatial_mat")
p("Kernel application is the dot product with the neighborhood",
  "apply_1d_kernel / apply_2d_kernel return, per channel, the (left-to-right) sum of kernel[i]*pixel_i, Err exactly when the kernel length is even or differs from the number of pixels; the output buffer's previous content is irrelevant.",
  "all kernels and neighborhoods",
  "unbounded sizes",
  "src/util/math.rs:apply_1d_kernel", "src/util/math.rs:apply_2d_kernel")
p("linear_filter gives the same result through the separable and the unseparable path",
  "If the SVD returned a rank-one factorisation, filtering with the separated kernels equals filtering with the original kernel at every pixel including borders (exact arithmetic).",
  "every image, every separable kernel of odd size",
  "all images; borders use padding in two passes",
  "src/util/math.rs:separate_kernel", "src/filter/mod.rs:separable_filter", "src/filter/mod.rs:linear_filter")
# ---------------------------------------------------------------- filter
p("filter_1d / separable_filter / unseparable_filter compute the padded correlation at every pixel",
  "The output has the input's info; each output channel is the dot product of the kernel with the padded neighborhood; even (or unequal, or non-square) kernel lengths give an InvalidArg error.",
  "every well-formed image and kernel",
  "all sizes",
  "src/filter/mod.rs:filter_1d", "src/filter/mod.rs:separable_filter", "src/filter/mod.rs:unseparable_filter")
p("The rayon build returns exactly what the sequential build returns, for every schedule",
  "crop, filter_1d, unseparable_filter, scale (all methods) and bilateral_filter built with the rayon feature give the same result as the sequential build whatever order the tasks run in.",
  "every input and every execution order of the parallel tasks",
  "schedules cannot be enumerated by tests",
  "src/filter/mod.rs", "src/transform.rs", "src/filter/bilateral.rs")
p("box_filter averages the size x size window",
  "box_filter(img, size) returns at each pixel the mean of the size x size neighborhood.",
  "every image and odd size",
  "all images and sizes",
  "src/filter/mod.rs:box_filter")
p("weighted_avg_filter uses a normalised kernel",
  "For odd size and size*size-1+weight > 0 the kernel weights are 1/sum everywhere except weight/sum at the centre, so (exact arithmetic) weights add to 1 and constant images are unchanged; even sizes give an error.",
  "every image, odd size and weight",
  "all sizes and weights",
  "src/filter/mod.rs:weighted_avg_filter")
p("Smoothing/sharpening kernels preserve constants and the Laplacian annihilates them",
  "On a constant image with integer values (such as one converted from u8) sharpen, unsharp_masking return the image unchanged and laplacian returns zero, exactly in IEEE f32.",
  "every image size and every constant 0..=255",
  "all sizes and values with float rounding",
  "src/filter/mod.rs:sharpen", "src/filter/mod.rs:unsharp_masking", "src/filter/edge.rs:laplacian", "src/util/constants.rs")
p("threshold implements its five documented rules",
  "On a grayscale image each non-alpha channel is mapped by the documented rule for the chosen method, alpha is unchanged, info is unchanged; non-grayscale inputs give an InvalidArg error. A NaN channel counts as not greater.",
  "every image, threshold, max and method incl. NaN",
  "all floats and sizes",
  "src/filter/mod.rs:threshold", "src/enums.rs:Thresh", "src/error/messages.rs:check_grayscale")
p("residual is the channel-wise difference",
  "residual(a, b) is Err exactly when the infos differ; otherwise each channel is a - b. For u8 images it panics in overflow-checked builds exactly when some channel of b exceeds a's, and wraps modulo 256 otherwise.",
  "every pair of images",
  "all sizes and values",
  "src/filter/mod.rs:residual")
p("Derivative masks (Sobel, Prewitt)",
  "On one-channel images derivative_mask returns the root of the sum of squares of the two separable responses at every pixel, with unchanged info; non-grayscale images give an error; constant integer images give all zeros for Sobel and Prewitt; documented grayscale-with-alpha images work too.",
  "every grayscale image and kernels",
  "all sizes",
  "src/filter/edge.rs:derivative_mask", "src/filter/edge.rs:sobel", "src/filter/edge.rs:prewitt")
p("normalize_laplacian stretches the value range to [0, 255]",
  "For a non-empty grayscale image with finite values that are not all equal (and whose range does not overflow), pixels holding the minimum become 0, those holding the maximum become 255, and the map is monotone; NaN or empty input panics.",
  "every such image, IEEE-754",
  "all floats",
  "src/filter/edge.rs:normalize_laplacian")
p("median_filter returns the window median",
  "Each output channel is the median of the (2r+1)x(2r+1) window (coordinates clamped to the image) of that channel of the input.",
  "every well-formed u8 image, radius and column block size",
  "the sliding-histogram algorithm carries state along each column; correctness is an invariant over the whole run",
  "src/filter/median.rs:median_filter", "src/filter/median.rs:PartialHistograms", "src/filter/median.rs:process_row_med")
p("The partial histograms always sum to the true window histograms",
  "At every row of the median / alpha-trimmed filters and for every column of the block, central + partial histogram equals the histogram of the rows currently added, for that column's window.",
  "every sequence of added and removed rows, every block size (odd) and radius",
  "invariant over unbounded update histories",
  "src/filter/median.rs:PartialHistograms::update", "src/filter/median.rs:get_count")
p("alpha_trimmed_mean_filter returns the trimmed window mean",
  "For even alpha < (2r+1)^2 each output channel is the rounded mean of the window values after discarding the alpha/2 lowest and highest; odd or too large alpha gives an error.",
  "every image, radius and alpha",
  "stateful sliding algorithm",
  "src/filter/median.rs:alpha_trimmed_mean_filter", "src/filter/median.rs:MeanHist")
p("bilateral_filter keeps dimensions and never panics on valid parameters",
  "For non-negative range and spatial parameters and a 3-colour-channel image, bilateral_filter returns Ok with the same info; negative parameters give an error.",
  "every image and all non-negative parameters",
  "matrix size depends on the float parameter",
  "src/filter/bilateral.rs")
# ---------------------------------------------------------------- transform
p("crop returns the selected rectangle or an error",
  "crop succeeds exactly when x+width < W and y+height < H (no u32 overflow) and then output pixel (i,j) is input pixel (x+i, y+j); rectangles not satisfying this give InvalidArg. No rectangle yields pixels from elsewhere, in either overflow profile.",
  "every image and every u32 rectangle",
  "2^128 rectangles, overflow cases",
  "src/transform.rs:crop")
p("crop accepts every rectangle that lies inside the image",
  "crop(img, x, y, w, h) succeeds whenever x+w <= W and y+h <= H; in particular cropping to the full image is the identity.",
  "every image and rectangle inside it",
  "boundary rectangles of all sizes",
  "src/transform.rs:crop")
p("superimpose blends the two images",
  "For equal channel counts and alpha in [0,1], superimpose returns Ok with alpha*back+(1-alpha)*front in the overlap and back elsewhere.",
  "all image pairs, offsets and alpha in [0,1]",
  "all inputs",
  "src/transform.rs:superimpose")
p("overlay replaces exactly the overlap",
  "For equal channel counts and offsets that do not overflow, overlay(back, front, x, y) has back's info, equals front(i-x, j-y) where the shifted front covers (i,j), and back elsewhere; unequal channel counts give an error.",
  "all image pairs and offsets",
  "all sizes and offsets, partially or fully outside",
  "src/transform.rs:overlay")
p("translate shifts and fills with zeros",
  "translate(img,x,y) has the same info, pixel (i,j) is img(i-x,j-y) if i>=x and j>=y and zero otherwise; translations compose additively while in range.",
  "all images and offsets",
  "all sizes and offsets",
  "src/transform.rs:translate")
p("reflect mirrors and is an involution",
  "reflect Vertical maps (x,y) to (w-1-x,y), Horizontal to (x,h-1-y), info unchanged; applying the same reflection twice gives back the original image; the two reflections commute.",
  "all images",
  "all sizes",
  "src/transform.rs:reflect")
p("Nearest-neighbour scaling by a positive integer replicates pixels; factor 1 is the identity",
  "scale(img,k,k,NearestNeighbor) has size kW x kH and output(x,y) = input(x/k, y/k) for integer k>=1 (output dimensions at most 2^24), exactly in IEEE f32.",
  "all images and integer factors",
  "float division and ceil must be exact for all coordinates",
  "src/transform.rs:scale", "src/transform.rs:interpolate_nearest_neighbor")
p("scale never panics for non-negative factors",
  "scale(img, fx, fy, method) returns Ok for every non-empty image and every finite positive factor whose output size is representable.",
  "all images, factors and methods",
  "depends on rounding of W*f",
  "src/transform.rs:scale", "src/transform.rs:interpolate_nearest_neighbor", "src/transform.rs:interpolate_bilinear")
p("Bilinear scaling interpolates between the neighbours",
  "With fractional position t between columns a and b, the bilinear result is (1-t)*a + t*b (likewise vertically); in any case the result lies between the minimum and maximum of the four neighbours (exact arithmetic), and factor 1 is the identity.",
  "all images and factors",
  "all positions and values",
  "src/transform.rs:interpolate_bilinear")
p("Bicubic scaling weights form a partition of unity",
  "For every position, the 16 bicubic weights are non-negative and add up to 1 (exact arithmetic), so constant images stay constant and results stay within the input range.",
  "all positions",
  "continuous parameter",
  "src/transform.rs:interpolate_bicubic", "src/util/math.rs:cubic_weighting_fn")
p("shear with zero factors is the identity and horizontal/vertical shears keep every pixel",
  "shear(img,0,0) = img for images up to 2^24 in each dimension, in IEEE f32; in exact arithmetic shear never panics and output size is W+floor(H|sx|) x H+floor(W|sy|).",
  "all images and shear factors",
  "float coordinates for all sizes",
  "src/transform.rs:shear")
p("rotate by 0 degrees is the identity",
  "rotate(img, 0) returns img.",
  "all images",
  "depends on parity of the dimensions",
  "src/transform.rs:rotate")
# ---------------------------------------------------------------- morphology
p("erode computes binary erosion (background outside the image)",
  "On a binary (0/255) one-channel image and radius <= width, height, erode outputs 255 at (x,y) iff every pixel of the (2r+1)x(2r+1) window lies in the image and is 255; exact in IEEE f32 while width*height*255 <= 2^23.",
  "every binary image and radius in range",
  "all images, radii, border positions and float exactness",
  "src/morphology.rs:erode")
p("dilate computes binary dilation",
  "On a binary one-channel image dilate outputs 255 at (x,y) iff some pixel of the (2r+1)x(2r+1) window intersected with the image is 255.",
  "every binary image and radius",
  "border windows are special-cased; all positions needed",
  "src/morphology.rs:dilate")
p("majority outputs the majority value of the window",
  "On a binary image majority outputs 255 iff more than half the window pixels are 255.",
  "every binary image and radius",
  "all windows",
  "src/morphology.rs:majority")
p("open is anti-extensive, close is extensive, erode and dilate are monotone",
  "On binary images: erode <= input <= dilate, open <= input <= close, and both erode and dilate preserve pixelwise order between images.",
  "all binary images and radii",
  "relational property over pairs of images",
  "src/morphology.rs:open", "src/morphology.rs:close")
p("gradient is dilation minus erosion",
  "For every binary image, gradient equals the pixelwise difference dilate - erode.",
  "all binary images and radii",
  "all images",
  "src/morphology.rs:gradient")
# ---------------------------------------------------------------- io / misc
p("Reading back a written image returns it",
  "For u8 images with (channels, alpha) one of (1,no),(2,yes),(3,no),(4,yes) and a lossless codec, write then read of the same path gives an equal image; other channel layouts and too-short buffers are rejected with an error and no file is written.",
  "every image, every lossless codec and file system content",
  "depends on external codec; contract-level property",
  "src/io/mod.rs")
p("Lookup tables agree with direct evaluation",
  "After generate_lookup_table(table, f), table[i] = f(i) for all i; hence a table-driven map equals the direct map for every channel value.",
  "every f and previous table content",
  "all functions",
  "src/util/mod.rs:generate_lookup_table")
p("rotate never panics and returns the expected size",
  "In exact arithmetic, rotate(img, d) succeeds for every non-empty image and every angle whose output size is representable, and returns floor(W|cos|+H|sin|) x floor(H|cos|+W|sin|) pixels.",
  "all images and angles",
  "all angles and sizes; out-of-bounds writes would need the right corner case",
  "src/transform.rs:rotate")
p("Dimension arithmetic of ImageInfo",
  "size() is width*height and full_size() is width*height*channels, panicking in overflow-checked builds exactly when the product does not fit 32 bits and wrapping modulo 2^32 otherwise; channels_non_alpha() counts the channels that are not alpha; for a well-formed image full_size() is the length of data().",
  "all image headers, both build profiles",
  "overflow happens only for images far larger than any test uses",
  IM + ":size", IM + ":full_size", IM + ":channels_non_alpha")
p("Reading a sub-image",
  "A sub-image's get_pixel(x, y) returns exactly when x < width and y < height, and then it is the (y*width+x)-th stored pixel; to_vec() is the concatenation of the stored pixels in order.",
  "all sub-images and coordinates",
  "all sizes and coordinates, including the out-of-range ones",
  "src/image/sub_image.rs")
p("Algebra of morphological operations",
  "On a binary one-channel image, open(r) keeps exactly the pixels covered by some all-white (2r+1)x(2r+1) square inside the image; open and close are idempotent; eroding by r then s equals eroding by r+s; dilating n times by 1 equals dilating by n.",
  "every binary image and all radii in range",
  "relates several calls on arbitrary images; borders are special-cased by the code",
  "src/morphology.rs:open", "src/morphology.rs:close", "src/morphology.rs:erode", "src/morphology.rs:dilate")
p("Cutting and pasting are inverse and compose",
  "Cropping a crop is one crop with added offsets; pasting a crop back where it was cut restores the image; cropping where an image was pasted returns that image; pasting twice at the same place equals pasting once; pastes to disjoint places commute; translating equals pasting a crop onto black; cropping the shifted area of a translated image returns the crop of the original.",
  "all images, offsets and sizes in range",
  "relates several calls for arbitrary images and offsets",
  "src/transform.rs:crop", "src/transform.rs:overlay", "src/transform.rs:translate")
p("Lanczos scaling sums the windowed-sinc weighted neighbours",
  "In exact arithmetic scale_lanczos(img, fx, fy, a) returns an image of round(W fx) x round(H fy) pixels whose value at (x,y) is the sum over the 2a x 2a neighbours (clamped to the image) weighted by the Lanczos kernel of size a (with the f32 value of pi) in both directions; scale with Lanczos is size 3; the kernel is even, 1 at 0, bounded by 1, zero outside (-a,a). In f32 it returns for every image, every accepted pair of factors and every size below 2^31-1.",
  "every non-empty image, all factors and sizes",
  "all images, factors, sizes and border positions",
  "src/transform.rs:scale_lanczos", "src/transform.rs:interpolate_lanczos", "src/util/math.rs:lanczos_kernel", "src/util/math.rs:sinc_norm")
p("Scaling by 1 returns the image",
  "scale(img, 1, 1, m) returns img for every method m.",
  "all images and methods",
  "all images",
  "src/transform.rs:scale", "src/transform.rs:scale_lanczos")
p("Scaling a constant image gives a constant image",
  "If every pixel of img equals p, every pixel of scale(img, fx, fy, m) equals p; nearest neighbour never creates a pixel that is not in the image.",
  "all constant images, factors and methods",
  "all factors: depends on the sum of weights at every fractional position",
  "src/transform.rs:scale")
p("Un-linearizing a linearized image returns it",
  "In exact arithmetic unlinearize_srgb_f32(linearize_srgb_f32(img)) = img for every u8 image, alpha included; the curve maps 0 to 0 and 255 to 1 and is strictly increasing.",
  "every well-formed u8 image (every byte value in every channel)",
  "real powers on both sides of a branch threshold; holds for the exact curve, not for one rounding of it",
  "src/colorspace.rs:linearize_srgb_f32", "src/colorspace.rs:unlinearize_srgb_f32")
p("A trip through XYZ or CIELAB and back loses at most one level per channel",
  "In exact arithmetic converting a u8 sRGB image to XYZ (or CIELAB, either white) and back gives an image with the same header and alpha whose colour channels are each the same or exactly one level darker; the same holds for brightness with bias 0 and contrast with gain 1 in CIELAB mode. White really comes back as (254,255,254).",
  "every non-empty image with three colour channels, both reference whites",
  "2^24 colours times the error of two rounded matrices and a truncating cast",
  "src/colorspace.rs:srgb_to_xyz_f32", "src/colorspace.rs:xyz_to_srgb_f32", "src/colorspace.rs:srgb_to_lab_f32", "src/colorspace.rs:lab_to_srgb_f32", "src/tone.rs:brightness", "src/tone.rs:contrast")
p("Histogram equalization only remaps lightness, monotonically, and alpha 0 means no equalization",
  "In exact arithmetic histogram_equalization(img, alpha, white, precision) replaces the CIELAB lightness L of each pixel by alpha*100*percentile(L) + (1-alpha)*L and leaves a*, b* and the alpha channel; a pixel at least as light as another stays at least as light; alpha = 0 returns the image up to the one level lost by the conversions.",
  "every non-empty image with three colour channels and fewer than 2^30 pixels, alpha in [0,1], precision >= 0",
  "depends on the histogram of the whole image",
  "src/tone.rs:histogram_equalization", "src/util/mod.rs:generate_histogram_percentiles")
p("The bilateral filter takes weighted means of CIELAB windows",
  "In exact arithmetic each channel of each filtered CIELAB pixel is the weighted mean, over the window around it except the pixel itself, of the clamped neighbours' values, the weight being the product of a Gaussian of the distance and a Gaussian of the value difference; so it lies between the smallest and largest value of the window, and a constant image comes back up to the one level lost by the conversions.",
  "every non-empty image with three colour channels, range > 0, spatial > 0 giving an odd window side of at least 3",
  "real exponentials over every window; the normalisation must hold for every weight",
  "src/filter/bilateral.rs:bilateral_filter", "src/filter/bilateral.rs:bilateral_direct_pixel")
p("Linear filters obey superposition, are local and keep channels apart",
  "Over exact arithmetic filter_1d, separable_filter, unseparable_filter and linear_filter (the last given a correct singular value decomposition) satisfy F(a*f + b*g) = a*F(f) + b*F(g) at every pixel and channel, and the response is linear in the kernel too. In IEEE arithmetic as well, the output pixel of unseparable_filter depends only on input pixels within n/2 of it, and each output channel only on the same input channel.",
  "every pair of same-shape images, every pair of scalars, every odd kernel size and all kernel entries, every pixel",
  "superposition quantifies over all pairs of images and all coefficients; locality over all changes outside the window",
  "src/filter/mod.rs: filter_1d, separable_filter, unseparable_filter, linear_filter", "src/util/mod.rs: apply_1d_kernel, apply_2d_kernel")
p("Averaging filters stay within the range of their window (violated by gaussian_blur)",
  "Over exact arithmetic the output of weighted_avg_filter and box_filter (and of unseparable_filter with any non-negative kernel summing to 1) lies, per channel, between the smallest and the largest window value. gaussian_blur does not have this property: an image of one colour v comes back as v times the kernel sum, and the kernel is not normalised: the result is strictly darker whenever size^2 <= 6 sigma^2 and strictly brighter whenever 7 sigma^2 <= 1.",
  "every image, every odd size and weight, every sigma, every pixel and channel",
  "a range bound over all real-valued windows; the violation for a whole region of (size, sigma)",
  "src/filter/mod.rs: weighted_avg_filter, box_filter, gaussian_blur", "src/util/mod.rs: generate_gaussian_kernel")
p("Brightness changes add up and can be undone exactly when nothing saturates", "Without AVX2, brightness with bias 0 returns the image; two biases of the same sign act like their sum; brightening by b and then by -b returns the original image if and only if no colour value plus b leaves 0..255; larger values and larger biases give larger results, and brightening the negative is the negative of darkening.", "every well-formed 8-bit image with and without alpha, all biases in -255..255 (sum in range)", "equations between compositions of calls over all images; the undo clause is an equivalence over all pixel values", "src/tone.rs:brightness", "src/image/mod.rs:map_channels_if_alpha")
p("The thresholding methods are idempotent, complementary and split the image", "threshold with to_zero or to_zero_inv is idempotent for every image and threshold (NaN included); trunc is idempotent; binary and binary_inv are idempotent and exchange each other when 0 <= threshold < max; and on one-channel images of finite values the residual of the image and its to_zero image is its to_zero_inv image, and the other way round.", "every grayscale image, every threshold and maximum (finite ones where stated), IEEE f32", "compositions of calls over all f32 pixel values including NaN and infinities", "src/filter/mod.rs:threshold", "src/filter/mod.rs:residual")
p("Operations commute with mirroring (violated by the median filter), per-pixel ones also with cropping", "Applying an operation and then reflecting (or, for per-pixel operations, cropping) the result gives the same image as reflecting or cropping first: brightness, contrast, gamma, saturation, brightness_lab, contrast_lab, rgb_to_hsv, hsv_to_rgb, rgb_to_grayscale, threshold and linearize_srgb in IEEE arithmetic; erode, dilate, majority, open and close in IEEE arithmetic; unseparable and separable filters with the mirrored kernel in exact arithmetic, hence sharpen, unsharp_masking, laplacian, weighted_avg_filter, box_filter, sobel, prewitt and sobel_weighted. The median filter does not commute with turning the image upside down.", "every image of the operation's domain, both axes, every crop rectangle inside the image, all parameters, all odd kernels", "equations between compositions of calls for all images, kernels and rectangles, including border pixels", "src/transform.rs:reflect", "src/transform.rs:crop", "src/tone.rs", "src/filter/mod.rs", "src/filter/edge.rs", "src/morphology.rs", "src/filter/median.rs:median_filter")
p("The median filter only moves values around and commutes with increasing changes of the values", "Every channel value of the output of median_filter is a value of the same channel of the input, taken from at most radius rows further down and, except in the last column, at most radius columns to either side; so any per-channel predicate true of all input values holds for the output. Remapping all values by a function that is strictly increasing on the values of each channel gives the same image before and after filtering.", "every image and radius of the filter's domain, every predicate, every increasing remapping", "quantifies over all predicates and all monotone maps on all images", "src/filter/median.rs:median_filter")
p("Gamma correction is an increasing curve through black and the maximum", "In exact arithmetic gamma(img, g, max) with g >= 0 and max > 0 maps every colour byte v to the integer nearest to (v/max)^g * max (255 where that exceeds 255) and keeps alpha; the map is increasing, fixes max, fixes 0 when g > 0, keeps values up to max up to max, is the identity for g = 1 whatever max is, and on values up to max a larger g never brightens.", "every well-formed 8-bit image with and without alpha, every g >= 0, every max in 1..255, every byte", "real powers for every exponent; monotonicity in both the value and the exponent", "src/tone.rs:gamma", "src/image/mod.rs:map_channels_if_alpha")

p("Sobel and Prewitt are the gradient magnitude", "In exact arithmetic, on one-channel images, sobel_weighted(img, w) is at every pixel sqrt(gx^2 + gy^2) with gx, gy the differences of the weighted (1, w, 1) sums of the columns and rows beside the pixel, the border repeated outward; sobel is the case w = 2 and prewitt w = 1. Adding a constant to the image changes nothing, scaling it by a scales the result by |a|; on an inclined plane the result is (2w+4) times the slope whatever its direction; values in 0..m give results in 0..sqrt(2)(w+2)m.", "every well-formed one-channel image of the filters' size domain, every weight, every pixel, every scaling, offset and plane", "real-valued, for every image and size; isotropy on planes is a continuum of directions", "src/filter/edge.rs:sobel_weighted", "src/filter/edge.rs:sobel", "src/filter/edge.rs:prewitt", "src/filter/edge.rs:derivative_mask")
p("The Laplacian of Gaussian vanishes on constant images", "laplacian_of_gaussian(img, size, sigma) should filter with weights -1/(pi s^4) (1 - d/(2 s^2)) exp(-d/(2 s^2)), d the squared distance from the centre, positive and negative weights balancing so that flat regions give (about) zero.", "every well-formed image, every odd size, every sigma > 0", "a claim about all sizes, sigmas and images", "src/filter/edge.rs:laplacian_of_gaussian", "src/util/mod.rs:generate_log_kernel")
p("Float grayscale is the mean of the colour values", "rgb_to_grayscale_f32 replaces the colour channels of every pixel by their mean and keeps alpha and the size; the mean lies between the smallest and largest colour value, keeps grey pixels and does not depend on the order of the channels. In IEEE f32 the result is the correctly rounded mean whenever the values are integers whose absolute sum is at most 2^24, exact when the mean is an integer.", "every well-formed float image with at least one colour channel, every number of channels; the IEEE part for integer-valued pixels", "all images and channel counts, all integer values", "src/colorspace.rs:rgb_to_grayscale_f32")

p("Float HSV conversion is the textbook hexcone model", "In exact arithmetic rgb_to_hsv_f32 computes the hexcone hue (in turns, in [0,1)), saturation (max-min)/max and value max/255 of every pixel; hsv_to_rgb_f32 on any hue in [0,1), saturation and value computes the textbook inverse, truncated to a byte; the two compose to the identity on every image with three colour channels, with or without alpha. At hue 1, the same angle as 0, hsv_to_rgb_f32 returns magenta instead of red.", "every byte colour and image; every real hue, saturation and value", "a continuum of HSV triples; six sectors with boundary cases; 2^24 colours", "src/colorspace.rs:rgb_to_hsv_f32", "src/colorspace.rs:hsv_to_rgb_f32")
p("Arithmetic and argument checks of the channel types", "On u8, u32, usize, i16 and i32 the operations of the Number trait compute the mathematical result when it fits; otherwise a debug build panics and a release build returns the residue modulo the number of values; remainder truncates towards zero and panics on zero and on MIN % -1. check_odd, check_even, check_non_neg and check_in_range accept exactly the odd, even, non-negative and in-range values and report InvalidArg otherwise; on finite f32 check_non_neg and check_in_range do the same, but a NaN passes both.", "every pair of values of each type, both build profiles, all bounds; every f32", "all pairs of 64-bit values, both profiles", "src/image/mod.rs:Number", "src/error/messages.rs:check_odd", "src/error/messages.rs:check_even", "src/error/messages.rs:check_non_neg", "src/error/messages.rs:check_in_range")
p("vector_mul is the matrix-vector product", "For an n-vector and a matrix of at least n*n and fewer than n*n+n entries vector_mul returns the product of the leading n*n entries, row by row, with the vector: exactly in exact arithmetic and on integer types when every product and partial sum fits; otherwise a debug build panics with an overflow and a release build returns the product modulo the number of values. Other matrix lengths give InvalidArg, the empty vector a division by zero. vector_mul_mut stores the same result whatever its output held.", "every dimension, all entries, every integer channel type, both build profiles", "an equation for every dimension and all entries", "src/util/math.rs:vector_mul", "src/util/math.rs:vector_mul_mut")
p("Bilinear enlargement by whole factors keeps the original samples", "In IEEE f32, scale with bilinear interpolation and whole factors kx, ky returns an image whose pixel (kx*X, ky*Y) is the input's pixel (X, Y), bit for bit (signed zeros included), for every image of finite values; with factors 1 the image comes back unchanged.", "every well-formed f32 image of finite values, all whole factors with output sides up to 2^22, every pixel", "float rounding at every coordinate and for every pixel value", "src/transform.rs:scale", "src/transform.rs:interpolate_bilinear")
p("The predefined Gaussian kernels are exact and separable", "On an image of integers (such as a converted 8-bit image) the predefined 1-d Gaussian kernels of sides 3 and 5 applied in both directions and the predefined 2-d kernels give the same image bit for bit in IEEE f32: the exact padded correlation with the binomial weights; every channel stays within its range. More generally separable_filter with two kernels of dyadic entries and unseparable_filter with their outer product agree bit for bit whenever the sums fit in 24 bits.", "every image of integers up to 65536 in size, every size; all odd dyadic kernels", "bit equality of two float computations with different association, for all images", "src/util/constants.rs:K_GAUSSIAN_BLUR_2D_3", "src/util/constants.rs:K_GAUSSIAN_BLUR_1D_3", "src/util/constants.rs:K_GAUSSIAN_BLUR_2D_5", "src/util/constants.rs:K_GAUSSIAN_BLUR_1D_5", "src/filter/mod.rs:separable_filter", "src/filter/mod.rs:unseparable_filter")
p("In f32, trips through linear RGB, XYZ or CIELAB lose at most one level per channel",
  "With IEEE f32 arithmetic and any powf that is accurate to a relative 2^-21, linearize_srgb_f32 is within 1.5e-6 of the exact curve; un-linearizing a linearized u8 image, converting it to XYZ and back, to CIELAB (either white) and back, brightness by 0 and contrast by 1 in CIELAB mode all return an image with the same header and alpha whose colour channels are each the same or exactly one level darker; levels up to 10 come back exactly from linearize/unlinearize.",
  "every well-formed u8 image with three colour channels (any number for linearize), both whites, every accurate powf",
  "2^24 colours times every rounding error of every platform's powf",
  "src/colorspace.rs:linearize_srgb_f32", "src/colorspace.rs:unlinearize_srgb_f32", "src/colorspace.rs:srgb_to_xyz_f32", "src/colorspace.rs:xyz_to_srgb_f32", "src/colorspace.rs:srgb_to_lab_f32", "src/colorspace.rs:lab_to_srgb_f32", "src/tone.rs:brightness", "src/tone.rs:contrast")
p("f32 conversions between linear RGB, XYZ and CIELAB are accurate",
  "With IEEE f32 arithmetic, converting a linear RGB image with channels in [0,1] to XYZ and back changes no channel by more than 6e-6; converting an XYZ image with channels in [0,1.09] to CIELAB and back (either white, powf accurate to 2^-21) changes no channel by more than 1.5e-5; header and alpha are kept.",
  "every well-formed f32 image with three colour channels in the stated range, both whites, every accurate powf",
  "all rounding errors on both sides of the branch points of the CIELAB functions",
  "src/colorspace.rs:srgb_lin_to_xyz_f32", "src/colorspace.rs:xyz_to_srgb_lin_f32", "src/colorspace.rs:xyz_to_lab_f32", "src/colorspace.rs:lab_to_xyz_f32", "src/util/math.rs:xyz_to_lab_fn", "src/util/math.rs:lab_to_xyz_fn")
p("f32 gamma correction rounds the exact curve",
  "With IEEE f32 arithmetic and powf accurate to 2^-21, gamma(img, g, max) with 0 < g <= 4 maps every colour byte 1 <= v <= max to a byte within 0.5003 of (v/max)^g * max, never above max, maps max to max, maps 0 to 0 if powf(0,g)=0, and keeps alpha.",
  "every well-formed u8 image, every finite g in (0,4], every max >= 1, every accurate powf",
  "every exponent and every rounding of every platform's powf",
  "src/tone.rs:gamma")
p("The f32 filters are close to the exact padded correlation",
  "For every image and kernel of finite f32 numbers whose responses stay far below overflow, filter_1d, unseparable_filter and separable_filter return finite numbers that differ from the exact (rational) padded correlation by at most about (n + 1) / 2^23 of the correlation of the absolute values, n being the number of kernel entries, plus an underflow term; hence separable_filter with two kernels and unseparable_filter with their outer product agree up to that error.",
  "every f32 image of finite numbers, every odd kernel of finite numbers with fewer than 2^23 entries, image sizes below 2^31",
  "the error depends on the order and the rounding of every partial sum; a test compares a few sums with a tolerance picked by hand",
  "src/filter/mod.rs:filter_1d", "src/filter/mod.rs:unseparable_filter", "src/filter/mod.rs:separable_filter", "src/util/mod.rs:apply_1d_kernel", "src/util/mod.rs:apply_2d_kernel")
p("The averaging filters in f32 stay inside the range of the window",
  "For every f32 image of finite numbers at most B in size, weighted_avg_filter and box_filter return, in every channel, a number between the minimum and the maximum of the window they average over, up to an explicit error of about size^2 * B / 2^23; in particular a constant image is preserved up to that error. The same holds for unseparable_filter with any non-negative kernel whose entries add up to about one.",
  "every f32 image of finite numbers, every odd size with size^2 < 2^23, every weight with a sum of weights up to 2^24",
  "the rounding of the kernel entries and of the partial sums could push values out of range or drift for large kernels",
  "src/filter/mod.rs:weighted_avg_filter", "src/filter/mod.rs:box_filter", "src/filter/mod.rs:unseparable_filter")
p("Sobel and Prewitt in f32 are the gradient magnitude to f32 accuracy",
  "On every one-channel image of byte values, f32 sobel, prewitt and sobel_weighted (weight at most 9) return, at every pixel, a number within a relative error of 2^-23 of the real gradient magnitude sqrt(gx^2 + gy^2); it is 0 exactly when both differences are 0, and it is exact whenever the magnitude is an integer. The only assumption on the platform is that powf squares integers up to 4096 exactly.",
  "every one-channel image of bytes of any size below 2^31, every weight up to 9",
  "all 3x3 neighbourhoods of bytes (2^72) and every border position",
  "src/filter/edge.rs:sobel", "src/filter/edge.rs:prewitt", "src/filter/edge.rs:sobel_weighted", "src/filter/edge.rs:derivative_mask")
p("Histogram equalization in f32", "In IEEE single precision, with a powf that is accurate to a relative error of 2^-21, histogram_equalization returns for every accepted alpha and precision an image of the same shape in which the CIELAB lightness of each pixel has been replaced by a value within 0.0002 of alpha*100*percentile + (1-alpha)*lightness and nothing else has been changed; the order of the lightnesses is kept exactly, rounding included; and alpha = 0 gives the image back with each channel at most one level darker, for every precision.", "all RGB and RGBA images with fewer than 2^30 pixels, both white points, all float alpha in [0,1] and all accepted precisions (order: precision up to 2^20)", "Rounding errors of the percentile, the blend and the colour trip depend on every pixel of the image through the histogram; a test compares a few values with a tolerance and cannot show that no rounding anywhere swaps two lightnesses.", "src/tone.rs: histogram_equalization", "src/util/mod.rs: generate_histogram_percentiles", "src/colorspace.rs: srgb_to_lab_f32, lab_to_srgb_f32")
p("Bilinear scaling computes its blend in f32, without overshoot", "scale with Bilinear on an f32 image succeeds; each output value is the blend of the four source pixels around the f32 source position that the code's weights prescribe, with an absolute error of at most the largest absolute input value divided by 2^18. Hence no channel leaves the interval spanned by that channel of the input by more than that amount, and a constant image stays constant up to a relative 2^-18.", "every f32 image whose values are finite numbers up to 2^97, every pair of positive finite f32 factors for which the output sides are at most 2^22, both build profiles", "the rounding of the f32 source position, of the weights and of the products differs at every pixel and factor; a test sees a few factors.", "src/transform.rs: scale, interpolate_bilinear")
p("Bicubic scaling computes the B-spline blend in f32, without overshoot", "scale with Bicubic on an f32 image succeeds; each output value is the sum of the 4 x 4 source pixels around the f32 source position (clamped to the image) weighted by the cubic B-spline of their distances, with an absolute error of at most the largest absolute input value divided by 2^10. Hence no channel leaves the interval spanned by that channel of the input by more than that amount, and a constant image stays constant up to a relative 2^-10.", "every f32 image whose values are finite numbers up to 2^96, every pair of positive finite f32 factors for which the output sides are at most 2^22, both build profiles, every platform powf that computes cubes to about four units in the last place", "the weights are computed by differences of large cubes: the cancellation error depends on the fractional position, which differs at every pixel and factor", "src/transform.rs: scale, interpolate_bicubic", "src/util/math.rs: cubic_weighting_fn")
p("Lanczos scaling computes the windowed sinc sum in f32", "scale_lanczos of size A on an f32 image succeeds; each output value is the sum of the 2A x 2A source pixels around the f32 source position (clamped to the image) weighted by the mathematical Lanczos window sinc(pi d) sinc(pi d / A) in both directions, with an absolute error of at most 4A^2(8A^2+70)/2^24 times the largest absolute input value (2^-11 of it for scale, which is size 3). With factors 1 the image comes back up to that error.", "every f32 image whose values are finite numbers up to 2^80, every pair of positive finite f32 factors for which the output sides are at most 2^22, sizes 1 to 100, both build profiles, every platform sin accurate to about two units in the last place", "the source position, the distance, the argument of the sine, both quotients and the 4A^2 products are rounded at every pixel and factor; the window ends exactly where rounding may move a tap in or out", "src/transform.rs: scale, scale_lanczos, interpolate_lanczos", "src/util/math.rs: lanczos_kernel, sinc_norm")
p("Gaussian and LoG kernels hold the mathematical weights in f32",
  "With a powf accurate to two units in the last place, every entry of generate_gaussian_kernel(size, sigma) is a non-negative number within (1 + d/2s^2)/2^20 (relative) of exp(-d/2s^2)/(2 pi s^2), d the squared distance from the centre; every entry of generate_log_kernel is a number that is not positive and within (1 + d/2s^2)/2^19 of -1/(pi s^4) (1 + d/2s^2) exp(-d/2s^2).",
  "every odd size up to 4095, every f32 sigma from 1/16 to 1000, every entry, every math library meeting the accuracy",
  "roundings of the constants pi and e, of the exponent and of powf add up differently for every sigma and position; a test samples a few",
  "src/util/mod.rs:generate_gaussian_kernel", "src/util/mod.rs:generate_log_kernel")
p("Gaussian blur and Laplacian of Gaussian compute their weighted sums in f32",
  "gaussian_blur(img, n, sigma) returns, in every channel, a number within B ((n^2+24)/2^23 sum (1+d/2s^2) G + 2 n^2 delta) (plus underflow) of the padded correlation with the true Gaussian weights G, whichever branch linear_filter takes, delta being the accuracy of the singular value decomposition and B a bound of the image; laplacian_of_gaussian is within (n^2+33+32 d/2s^2)/2^23 of each term of its correlation, and turns every image of positive numbers negative. Because the kernel is not normalised, gaussian_blur makes a constant image at least 3% darker whenever size^2 <= 6 sigma^2 (size up to 181) and at least 9% brighter whenever 7 sigma^2 <= 1 (size up to 15), rounding included.",
  "every f32 image of numbers up to 2^50, every odd n with n^2 < 2^23, every sigma from 1/16 to 1000, every decomposition meeting the accuracy",
  "rounding of kernel entries, products and sums depends on all inputs; the branch depends on an external decomposition",
  "src/filter/mod.rs:gaussian_blur", "src/filter/mod.rs:linear_filter", "src/filter/edge.rs:laplacian_of_gaussian")
p("Bilateral filter computes its weighted mean in f32",
  "With a powf accurate to two units in the last place, bilateral_filter converts the image to CIELAB numbers, and wherever the values of a channel in the window around a pixel are at most 8 range apart, the filtered channel is a finite number within D/2^13 + 3 (size^2+1) B/2^23 + 2^-40 of the mean weighted by the exact Gaussians of distance and of difference (D the spread, B the size of the values; the middle cell has weight 0), hence inside the interval spanned by the window up to that error; every entry of the spatial matrix is within (1 + d/2s^2)/2^20 (relative) of its Gaussian weight.",
  "every RGB or RGBA image, range and spatial from 1/16 to 1000, every odd window from 3 to 1023, every pixel and channel, every math library meeting the accuracy",
  "roundings of the distances, of powf, of the products and of two sums of up to a million terms followed by a division; the weights depend on the image",
  "src/filter/bilateral.rs:bilateral_filter", "src/filter/bilateral.rs:bilateral_direct_pixel", "src/util/mod.rs:generate_spatial_mat", "src/util/math.rs:gaussian_fn", "src/util/math.rs:distance")
p("srgb_to_lab in f32 gives the CIELAB coordinates",
  "With a powf accurate to 2^-21, srgb_to_lab returns, for every pixel and both reference whites, a lightness within 0.003, an a within 0.026 and a b within 0.011 of the exact CIELAB coordinates of the pixel's bytes (published matrix, white point and CIE function; the library's transfer curve), and the alpha channel unchanged; the lightness is between -0.003 and 100.004, 0 for black and 100 for white up to 0.004, and the exact lightness never decreases when a channel increases.",
  "every RGB or RGBA image, every pixel (all 2^24 colours), both whites, every accurate math library",
  "all colours, both sides of the branch point of the cube root, every rounding of every platform's powf",
  "src/colorspace.rs:srgb_to_lab", "src/colorspace.rs:xyz_to_lab_f32", "src/colorspace.rs:srgb_lin_to_xyz_f32", "src/util/math.rs:xyz_to_lab_fn")
p("In f32 the bilateral filter blackens isolated pixels (defect)",
  "If powf underflows to 0 and propagates NaN, then bilateral_filter turns black every pixel whose exact lightness differs from the lightness of each other pixel of its window by at least 16 range + 0.01, whatever its colour: all its weights are 0 (the middle one always is) and the mean is 0/0. A grey pixel of any level up to 128 on white, with range 1 and spatial 1/2, becomes black although all its neighbours are white; in exact arithmetic the result would lie between the values of the neighbours (C90).",
  "every RGB or RGBA image, every pixel, range and spatial from 1/16 to 1000, every odd window from 3 to 1023, every math library that underflows below e^-110",
  "the defect depends on the distance between the pixel and all its neighbours compared with the range parameter; tests use smooth images",
  "src/filter/bilateral.rs:bilateral_filter", "src/filter/bilateral.rs:bilateral_direct_pixel", "src/util/mod.rs:generate_spatial_mat", "src/util/math.rs:gaussian_fn")
p("Linear filters obey superposition in f32 up to rounding",
  "If an f32 image h holds a times the numbers of f plus b times those of g, then filter_1d (both directions), separable_filter and unseparable_filter turn h into a times the filtered f plus b times the filtered g, up to (1+|a|+|b|) times an explicit rounding error proportional to kernel length, the sum of the absolute kernel entries and the size of the values.",
  "every three f32 images of finite numbers of one shape, every a and b, every odd kernel of finite numbers with at most 2^23 entries, every pixel and channel",
  "f32 addition is neither associative nor distributive, so superposition is false exactly; a bound for the gap over all images and kernels cannot be sampled",
  "src/filter/mod.rs:filter_1d", "src/filter/mod.rs:separable_filter", "src/filter/mod.rs:unseparable_filter")
p("Shear in f32: exact size, positions within rounding, and when it panics",
  "shear(img, sx, sy) in IEEE f32 succeeds whenever neither H|sx| nor W|sy| lies within a relative 2^-22 (of the output side) below an integer: the output is W+floor(H|sx|) by H+floor(W|sy|), each pixel goes to a position that differs from the exact one by the truncation to a pixel and at most 2^-20 of the output side, and each output pixel is a copy of a pixel moved there or zero. For factors that are multiples of 2^-j with W 2^j + H|a| <= 2^24 every position is exact. The condition is needed: if H sx is rounded to 1 - 2^-24 the shear panics on every image of three or more columns.",
  "every well-formed f32 image up to 2^23 by 2^23, every finite pair of factors (growth up to 2^23), both build profiles",
  "the position of every pixel is rounded three times; only factors whose product with the height lies just below an integer make the program panic, and a test would have to guess one",
  "src/transform.rs:shear", "src/util/math.rs:vector_mul_mut")
p("Summed-area tables of arbitrary f32 images are accurate",
  "If the absolute values of a channel of a finite f32 image add up to at most B, entry (x, y) of generate_summed_area_table differs from the exact sum over columns 0..=x and rows 0..=y by at most (x+1)(y+1) B/2^20, and rectangular_intensity_sum over x0..=x1, y0..=y1 from the exact rectangle sum by at most (4 (x1+1)(y1+1) + 2) B/2^20.",
  "every f32 image of finite numbers with at most 2^20 pixels (total up to 2^96), every entry, every rectangle",
  "each entry adds three earlier entries, so rounding errors of all pixels above and to the left accumulate; a test checks a few small integer images, where nothing is rounded",
  "src/util/mod.rs:generate_summed_area_table", "src/util/mod.rs:rectangular_intensity_sum")
p("Rotation in f32 never fails and lands where it should",
  "rotate on 32-bit floats succeeds for every non-empty image (at most 2^22 columns plus rows, representable output size) and every angle for which the platform's sine and cosine are correctly rounded (or only: of magnitude at most 1 with |sin| + |cos| >= 1). The output has trunc(W |cos| + H |sin|) columns and trunc(H |cos| + W |sin|) rows up to a relative 2^-20; every input pixel goes to its exactly rotated position, truncated, up to the same error, always inside the output, and to the left neighbour; an output pixel is a copy of the last (row by row) of the input pixels moved there, or zero. If sine and cosine are multiples of 2^-k and the image has at most 2^(22-k) columns plus rows, sizes and positions are exactly the truncated ones.",
  "every image of f32 up to that size, every angle, both build profiles, any sine/cosine implementation with these properties",
  "whether a computed coordinate reaches the width depends on several roundings of sin, cos and sums near integers; tests cannot visit all angles and sizes, and an off-by-one there is a panic",
  "src/transform.rs: rotate", "src/util/math.rs: vector_mul, max_4, min_4")
p("Accuracy of the float HSV conversions",
  "In IEEE single precision, rgb_to_hsv_f32 of every image with three colour channels gives, per pixel, a hue in [0, 1) within 2^-16 of the textbook hexcone hue, a saturation in [0, 1] within 2^-22 of the textbook saturation, a value in [0, 1] within 2^-24 of max/255, and alpha within 2^-24 of byte/255. hsv_to_rgb_f32 of every image that holds hues in [0, 1) and saturations and values in [0, 1] gives, per channel, the textbook colour scaled to 255 and truncated, where the accumulated rounding error before the truncation is at most 1/4000 of a step; alpha in [0, 1] is rounded to the nearest byte up to the same error.",
  "every image of bytes; every image of single-precision hues, saturations and values in range",
  "all 2^24 byte colours forward and some 2^90 triples of floats back; a test samples a few and cannot bound the error of the rest",
  "src/colorspace.rs:rgb_to_hsv_f32", "src/colorspace.rs:hsv_to_rgb_f32")
p("Undoing the sRGB transfer function follows its curve, which drops at the threshold",
  "unlinearize_srgb_f32 maps a linear value x to the truncation to a byte of 3294.6x up to x = 0.0031308 and of 269.025x^(1/2.2)-14.025 above, exactly in real arithmetic and within 1/1000 of a level in f32 (given a pow accurate to rounding); alpha is rounded. The two branches do not meet: the curve increases on either side but falls from above 10.3 to below 5.6 at the threshold (never by more than 4.8), so brighter input can become a darker level: 0.0031 becomes 10 and 0.0032 becomes 5.",
  "every well-formed image, every channel value in [-2, 1.9], every pixel", "the values are real numbers or 2^32 floats per channel, and monotonicity is a statement about pairs of them; the tests convert a few levels",
  "src/colorspace.rs:unlinearize_srgb_f32")
p("CIELAB back to sRGB, and brightness and contrast through CIELAB, compute the published formulas",
  "lab_to_srgb_f32 turns (l, a, b) into the truncated levels of the linear red, green and blue given by the inverse CIELAB function, the reference white and the published matrix: exactly in real arithmetic, and in f32 up to 3e-5 in linear light (a tenth of a level away from the threshold of the transfer curve). brightness_lab and contrast_lab give the levels of the colour with lightness l + 100 bias / 255 or l gain and the same a and b, up to 0.00145 m^2 + 2e-5 in linear light, where m bounds the arguments of the inverse function; alpha is kept. histogram_equalization gives the levels of the colour with lightness 100 alpha s + (1 - alpha) l (s the share of pixels and occupied bins that are not lighter) and the same a and b, up to 0.00146 m^2 + 2e-5. Because of the drop in the transfer curve, brightening a (10, 10, 10) pixel by 1 makes it darker: at most 6 in every channel.",
  "every well-formed image with three colour channels, both whites, every bias and gain in range, every pixel whose CIELAB arguments are in [-0.98, 1.19] and linear values at most 1.89", "the inputs are triples of floats or 2^24 colours times 511 biases or 2^30 gains, and the claim is a uniform error bound against real arithmetic",
  "src/colorspace.rs:lab_to_srgb_f32", "src/util/math.rs:lab_to_xyz_fn", "src/tone.rs:brightness_lab", "src/tone.rs:contrast_lab")
p("Debug and release builds agree unless the debug build stops at an overflow",
  "For every public function of the library (image type, pixel access, map/apply/edit families, iterators, colour spaces, conversions, tone, transforms, filters, median and trimmed mean, morphology, histograms, kernels, tables) and every argument: either the build with overflow checks panics with an arithmetic overflow, or the optimised build returns exactly the same value, the same Err or the same panic. So a program tested in debug without an overflow panic behaves identically in release, on those inputs.",
  "all functions, all arguments, all channel types whose arithmetic differs between builds only by wrapping; for parallel versions all task orders; for user closures, all closures that agree in the same sense",
  "tests run in one build profile on chosen inputs; the claim compares two builds on every input",
  "src/image/mod.rs: Image", "src/transform.rs:crop", "src/filter/mod.rs:linear_filter", "src/filter/median.rs:median_filter", "src/colorspace.rs:rgb_to_hsv", "src/tone.rs:brightness", "src/morphology.rs:erode", "src/util/mod.rs:generate_summed_area_table")
p("How calls end: which errors are returned, and no undefined behaviour without AVX2",
  "On a machine without AVX2 every public image operation, in both builds and on every argument (well-formed image or not), returns a value, panics, or returns Err(InvalidArgError): no other error kind is ever returned (a failing SVD panics) and no memory outside a buffer is touched. read never panics and returns an image, an I/O error or the unsupported-colour-type error; write never panics and returns Ok or one of these or the image-write error.",
  "all functions, all arguments (also malformed images), both build profiles, every task order of the parallel versions, every SVD, binary search and codec, every closure that itself ends this way",
  "a caller that matches on error kinds relies on the absence of all others on every input; tests only show the errors they provoke",
  "src/error/mod.rs:ImgProcError", "src/error/messages.rs:check_odd", "src/io/mod.rs:read", "src/io/mod.rs:write", "src/simd.rs:adds_256_u8")
p("Filtering an image tile by tile gives the same pixels as filtering it whole",
  "Take any rectangle of an image (as crop cuts it) and run a neighbourhood operation on the rectangle and on the whole image. At every position of the rectangle that is at least the operation's radius away from the seams (the sides of the rectangle that are not sides of the image) the two results are equal bit for bit, and the results keep the shapes of their inputs. The radius is half the kernel side for filter_1d, separable_filter, unseparable_filter, linear_filter, gaussian_blur, weighted_avg_filter, laplacian_of_gaussian and bilateral_filter; 1 for sharpen, laplacian, sobel, prewitt and sobel_weighted; 2 for unsharp_masking; 0 for threshold; size*size/2 for box_filter (its kernel is size*size long); r for erode, dilate and majority. Margins add up when operations are chained, a tile of a tile is a tile, and two overlapping tiles stitched at the middle of their overlap give back the whole result.",
  "every image, every rectangle of it, every kernel and parameter in the documented range, every position away from the seams",
  "unit tests compare a few crops; equality of every bit at every position of every crop is a statement about all images and all rectangles",
  "src/transform.rs:crop", "src/filter/mod.rs:filter_1d", "src/filter/mod.rs:separable_filter", "src/filter/mod.rs:unseparable_filter", "src/filter/bilateral.rs:bilateral_filter", "src/morphology.rs:erode", "src/morphology.rs:dilate")
p("Every image a user holds is consistent, after any history of calls",
"Start from images built with Image::from_vec / from_slice with a buffer of the right length, or with Image::blank, and make any number of library calls in any order (pixel writes, maps and edits with arbitrary closures, conversions, colour spaces, tone, filters, median, morphology, transforms; with or without AVX2 and rayon, under any schedule; in debug or release builds). Every image returned has a buffer of exactly width * height * channels elements, sizes that fit the machine integers, and every pixel inside it can be read and has one value per channel. crop and scale return exactly the size asked for or do not return. The only exceptions are shear, rotate and the rayon versions of crop and scale in a release build when the output size overflows u32: they can return an image whose header and buffer disagree (counterexamples for shear and crop), so there the result has to fit.",
"every history of calls of any length and order, all arguments and closures (map_pixels closures return a fixed number of values), both build profiles, any libm, SVD and binary-search behaviour",
"tests call one function on one image; an inconsistent image shows up only in a later call",
"src/image/mod.rs: Image", "src/transform.rs: crop, scale, shear, rotate", "src/filter/mod.rs", "src/colorspace.rs", "src/tone.rs", "src/morphology.rs")
p("Geometric operations only move channel values", "crop, overlay, translate, reflect, shear, rotate and nearest-neighbour scaling (and the rayon versions of crop and scaling) never compute with channel values. For every relation between channel values that relates zero to zero (changed by g, not brighter than, within a tolerance of, ...), applied to two images whose values are related they give images whose values are related, and they fail on one exactly as they fail on the other. Hence they commute with every map_channels that keeps zero, also across channel types, every value of their result is a value of the input or zero, and whether and how they fail does not depend on the values.", "every image (well formed or not), relation or map, argument of the operation, schedule and build profile", "the claim is about all images, all maps and all pairs of images at once", "src/transform.rs:crop, overlay, translate, reflect, shear, rotate, scale", "src/image/mod.rs:get_pixel, set_pixel, map_channels")
p("Brightening an image never darkens its filtered version (linear filters; the median filter violates it)", "For every relation between channel values that relates zero to zero and survives weighted sums with the weights of the kernel, filter_1d, separable_filter and unseparable_filter (sequential, and rayon under every schedule) take images with related values to images with related values, and end on one exactly as on the other. In particular in f32, with no negative weight, and for box_filter and weighted_avg_filter of every size and weight: if no value of the second image is below the value at the same place of the first, then no value of the second result is below that of the first, rounding, overflow, infinities and NaNs included. The same holds for bilinear scaling (sequential and rayon) with every positive factor, for sides up to 2^24 and enlarged sides up to 2^22. The median filter of this library does not have this property: there are two images, the second obtained by brightening two values of the first, where the filtered value falls from 1 to 0.", "all pairs of images of the same header with related values, kernels with weights that are not negative, sizes, schedules, profiles", "The claim compares two runs on arbitrary pairs of images under floating-point rounding; no set of examples establishes monotonicity.", "src/filter/mod.rs:filter_1d", "src/filter/mod.rs:separable_filter", "src/filter/mod.rs:unseparable_filter", "src/filter/mod.rs:box_filter", "src/filter/mod.rs:weighted_avg_filter", "src/transform.rs:scale", "src/filter/median.rs:median_filter")
p("Filters and scaling treat an image and its negative alike", "In f32, for every kernel, size and factor, filter_1d, separable_filter, unseparable_filter, linear_filter, box_filter, weighted_avg_filter, gaussian_blur, sharpen, unsharp_masking, laplacian, laplacian_of_gaussian and scale with every method (sequential, and the rayon versions under every schedule) give on the negative of an image exactly the negative of what they give on the image (the two zeros not told apart): rounding, overflow, infinities and NaNs included, and they end alike. Hence sobel, sobel_weighted and prewitt return the very same image for both, on every platform whose powf gives a number and its opposite the same square: no edge is seen only in one direction.", "all images (values may be NaN or infinite), kernels, sizes, factors, methods, schedules, profiles", "An exact identity between two floating-point computations on all images; a test sees the identity on the images it tries.", "src/filter/mod.rs:filter_1d", "src/filter/mod.rs:separable_filter", "src/filter/mod.rs:unseparable_filter", "src/filter/mod.rs:linear_filter", "src/filter/edge.rs:derivative_mask", "src/filter/edge.rs:sobel", "src/transform.rs:scale", "src/transform.rs:scale_lanczos")
p("Nearest-neighbour shrinking by a power of two undoes enlarging (violated by other factors)", "Scaling down by factors that are exactly 1/s and 1/t in f32 (s, t powers of two that divide the sides) returns, without panic, the last column and row of every s x t block, and undoes scaling up by s and t: the original image comes back, bit for bit. With other factors the rounded quotient can pass the edge of the image: shrinking 61 columns to 1 with the factor 1.0/61.0, or 22 columns to 13 with 13.0/22.0, panics although the output size is computed as 1 and 13.", "all images with sides up to 2^24, all exact factors, profiles", "The source column depends on the rounding of (x + 1) / factor at every size; it goes wrong only at scattered sizes (41, 61, 82, ...) that tests do not try.", "src/transform.rs:scale", "src/transform.rs:interpolate_nearest_neighbor")
p("Operations treat rows and columns alike", "Let a be an image and b the same image with rows and columns exchanged. Then cropping, translating, overlaying, mirroring, enlarging by whole numbers (nearest neighbour), bilinear, bicubic and Lanczos scaling and shearing in one direction, applied to b with the two directions of the arguments exchanged, return the transpose of what they return on a; linear filters do so with the transposed kernel (separable filters with the two kernels exchanged), so that the averaging, sharpening, Laplacian, Sobel and Prewitt filters, which have no preferred direction, simply commute with transposing; so do the morphology operations, the colour conversions, the tone operations, thresholding, histogram equalization and the summed area table. The median filter does not: with radius 0 it turns the column 5, 3 into 5, 5 but leaves the row 5, 3 alone.", "every image and its transpose, of every size and content, every argument within the documented ranges, both build profiles; exact arithmetic for scaling, shearing, linear filters and equalization, IEEE f32 for the rest", "the claim relates two calls on two images of unbounded size", "src/transform.rs: crop, translate, overlay, reflect, scale, scale_lanczos, shear", "src/filter/mod.rs: unseparable_filter, separable_filter, box_filter, weighted_avg_filter, sharpen, unsharp_masking, threshold", "src/filter/edge.rs: derivative_mask, laplacian", "src/filter/median.rs: median_filter", "src/morphology.rs: erode, dilate, morph_open, morph_close", "src/tone.rs: histogram_equalization, brightness, contrast, gamma")
p("Colour and tone operations do not look at positions", "Rearranging the pixels of an image in any way, also into an image of another width and height, and then applying a colour or tone operation gives the same as applying the operation first and rearranging the result in the same way: brightness, contrast, gamma, saturation, HSV conversion in both directions, brightness and contrast through CIELAB, grayscale conversion, thresholding, linearization, and histogram equalization, which depends on the other pixels only through how many of them have each lightness.", "every image, every one-to-one rearrangement of its pixels into an image of any shape, every argument within the documented ranges, both build profiles; exact arithmetic for histogram equalization, IEEE f32 or any arithmetic for the rest", "there are unboundedly many rearrangements of unboundedly large images", "src/tone.rs: brightness, contrast, gamma, saturation, brightness_lab, contrast_lab, histogram_equalization", "src/colorspace.rs: rgb_to_grayscale, rgb_to_hsv, hsv_to_rgb, linearize_srgb", "src/filter/mod.rs: threshold", "src/image/mod.rs: Image::map_pixels, Image::map_channels")
p("Enlarging and mirroring go well with cutting and pasting", "Enlarging by whole numbers with the nearest neighbour (in f32, outputs that fit) commutes with the operations that move pixels: cropping the enlarged image at the enlarged place is enlarging the crop, translating it by the enlarged offset is enlarging the translated image, mirroring it is enlarging the mirror image, and overlaying two enlarged images is enlarging the overlay; none of these panics. Mirroring a crop is cropping the mirror image at the mirrored place, and mirroring a paste that fits is pasting the mirrored images at the mirrored place, bit for bit, for every pixel type.", "every image, whole factor up to 2^24, offset and rectangle inside the image, both axes; both build profiles", "each law relates two compositions of operations on every image, factor and offset; a test compares a few pictures", "src/transform.rs: scale, nearest_neighbor, crop, translate, overlay, reflect")
p("Operations treat the channels one by one and alike", "Picking channels of an image (splitting it into planes, reordering or repeating channels) and then operating gives the same as operating first and picking the same channels of the result: cropping, translating, mirroring, overlaying, nearest-neighbour enlarging, bilinear, bicubic and Lanczos scaling, shearing in one direction, filter_1d, separable and unseparable filters, sharpening and the Laplacian (bit for bit in f32) and the median filter do so for every selection of channels, brightness, contrast, gamma and linearization for every selection that leaves alpha in its place. The scalar grayscale value does not depend on the order of the colour channels.", "every image, every selection of at most as many channels as the image has, all arguments for which the operation is defined; both build profiles", "the law quantifies over all selections of channels and all images; tests use one or three channels in fixed order", "src/transform.rs", "src/filter/mod.rs", "src/filter/median.rs", "src/tone.rs", "src/colorspace.rs", "src/util/mod.rs: apply_2d_kernel, apply_1d_kernel")
p("Filtering a byte image, end to end", "Converting a byte image to f32, filtering and converting back gives, byte for byte: for the predefined Gaussian blurs of size 3 and 5 (2-d or separable), sharpen, laplacian, unsharp_masking and every integer kernel, the exact weighted sum of the padded input bytes rounded to the nearest byte (ties up) and saturated; for an arbitrary kernel, that sum to within one half plus an explicit f32 error; for weighted_avg_filter (size up to 89), box_filter (size up to 51), bilinear and bicubic scaling, a byte between the smallest and largest byte averaged; for Lanczos scaling by 1, the image itself; for gaussian_blur, the sum weighted with the true Gaussian to within one half plus an explicit f32 error; for laplacian_of_gaussian of an image without zero bytes, black; for sobel, prewitt and sobel_weighted, the integer nearest to the exact gradient magnitude, saturated; for threshold with byte parameters, exactly the documented table.", "all well-formed byte images of any size (within the index range), kernels, sizes, weights, scale factors, thresholds, both build profiles", "what the user sees is the composition of conversion, f32 rounding in every step and the final rounding and saturation; only a proof about rounding excludes a single byte off by one", "src/image/from_impl.rs: From<Image<u8>>, From<Image<f32>>", "src/filter/mod.rs: separable_filter, unseparable_filter, box_filter, weighted_avg_filter, threshold", "src/filter/edge.rs: sobel, prewitt, laplacian", "src/transform.rs: scale")
p("Edges and blurs of byte images under brightness changes", "For two byte images whose bytes differ by a uniform change that does not saturate (as brightness makes it): sobel, prewitt, sobel_weighted and laplacian give the very same byte image after a change b + k, and sobel, prewitt and sobel_weighted also after the negation 255 - b; the predefined Gaussian blurs of size 3 and 5 give images that differ by exactly k; an integer kernel with sum S gives exact values that differ by S * k before rounding.", "all pairs of byte images of any size related by a uniform unsaturated change, all k, both build profiles", "relates two runs on inputs of any size through float arithmetic; holds byte for byte only because no rounding error reaches a byte", "src/filter/edge.rs: sobel, prewitt, sobel_weighted, laplacian", "src/filter/mod.rs: unseparable_filter, separable_filter", "src/tone.rs: brightness", "src/util/constants.rs: K_GAUSSIAN_BLUR_2D_3, K_GAUSSIAN_BLUR_1D_5")
p("Mean filters of byte images are exact",
 "Converting a byte image to floats, applying weighted_avg_filter (size up to 11 at weight 1; in general while (size² - 1 + weight)(size² + 3) is at most 16000) or box_filter of size 3 and converting back gives, in every channel, the exact weighted mean of the padded window, rounded to the nearest byte: no rounding error of the f32 arithmetic is ever visible. The total weight being odd, ties cannot occur. These means commute exactly with a brightness change that does not saturate, and they (and the predefined Gaussian blurs) are monotone: if no byte gets darker, no byte of the result does. box_filter of size 3 and weighted_avg_filter of size 9 and weight 1 return the same image, and so do the 2-d and the separable form of each predefined Gaussian.",
 "every byte image, every profile, every odd size and every weight within the bound, every pair of images ordered pointwise or differing by a brightness change",
 "the claim is about every one of the 256^(w*h*c) images and the accumulated rounding of up to 121 products; a test sees single images and cannot exclude a window whose sum lands next to a rounding boundary",
 "src/filter/mod.rs: weighted_avg_filter, box_filter, unseparable_filter, separable_filter", "src/image/from_impl.rs: From<Image<u8>>, From<Image<f32>>")
p("Enlarging a byte image bilinearly by whole numbers",
 "Enlarging a byte image bilinearly by whole factors kx and ky (convert to f32, scale, convert back) gives an image kx times as wide and ky times as high, in which every byte is the exact rational blend of the four bytes around its position, rounded to the nearest byte, as long as kx*ky*(width + height + 66)*510 is below 2^24: the rounded positions and weights never show in a byte, and when kx*ky is odd the byte is determined. (The code gives the fractional part of the position as weight to the left and upper pixel, see C68; the blend is stated as computed.)",
 "every byte image, pair of whole factors and size within the bound, both build profiles",
 "the claim excludes a wrong byte for every image and every output position; f32 positions such as x / 3 are not exact, so only an error analysis can show that the rounded byte is the exact one",
 "src/transform.rs: scale, interpolate_bilinear", "src/image/from_impl.rs: From<Image<u8>>, From<Image<f32>>")
p("Float and byte grayscale of a byte image",
 "Converting a byte image with up to 255 colour channels to f32, to grayscale with rgb_to_grayscale_f32 and back gives, for every pixel, the exact mean of the colour bytes rounded to the nearest byte (a tie goes up), followed by the unchanged alpha byte. The scalar byte version rgb_to_grayscale truncates the same mean: the two results are equal where the fractional part of the mean is below one half and differ by exactly one elsewhere, and agree on alpha.",
 "every non-empty byte image with at least one colour channel (at most 255, for the comparison 128), both build profiles",
 "256^3 pixels per RGB image position and all channel counts; the claim rests on the f32 division never rounding across a half",
 "src/colorspace.rs: rgb_to_grayscale, rgb_to_grayscale_f32", "src/image/from_impl.rs: From<Image<u8>>, From<Image<f32>>")
out = os.path.join(os.path.dirname(os.path.abspath(__file__)), "..", "properties.jsonl")
with open(out, "w") as f:
    for x in P: f.write(json.dumps(x) + "\n")
print(len(P))
