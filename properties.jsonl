{"id": "C01", "title": "Pixel writes behave like a map from coordinates to pixels", "statement": "After any sequence of set_pixel calls on an image, get_pixel(x, y) returns the pixel of the last call that named (x, y), or the original pixel if no call did; info() never changes.", "quantifier": "every well-formed image, every channel type, every finite history of in-range set_pixel calls, every in-range coordinate, both overflow profiles", "why_tests_cant": "histories and image sizes are unbounded; a test only samples a few writes", "anchors": ["src/image/mod.rs:set_pixel", "src/image/mod.rs:get_pixel", "src/image/mod.rs:Index/IndexMut"]}
{"id": "C02", "title": "Checked pixel access panics exactly when documented", "statement": "get_pixel / get_pixel_mut / set_pixel return normally exactly when x < width and y < height (and, for set_pixel, the pixel slice has exactly `channels` elements); otherwise they panic. In particular a slice of length channels + 256k never slips through the 8-bit length check.", "quantifier": "every well-formed image, every u32 coordinate pair, every slice length, both overflow profiles", "why_tests_cant": "the length check truncates to u8, so only a statement over all lengths shows no wrap-around accident", "anchors": ["src/image/mod.rs:get_pixel", "src/image/mod.rs:get_pixel_mut", "src/image/mod.rs:set_pixel", "src/error/messages.rs:check_xy", "src/error/messages.rs:check_channels"]}
{"id": "C03", "title": "1-D and 2-D addressing agree and stay inside the buffer", "statement": "For in-range (x, y), get_pixel(x, y), get_pixel_unchecked(x, y), img[y*width+x] and data()[index(x,y) .. index(x,y)+channels] are the same slice, distinct coordinates have disjoint slices, and together the slices tile data() exactly.", "quantifier": "every well-formed image and all coordinate pairs", "why_tests_cant": "needs injectivity and surjectivity of the index arithmetic for all sizes", "anchors": ["src/image/mod.rs:index", "src/image/mod.rs:get_pixel_unchecked", "src/image/mod.rs:Index"]}
{"id": "C04", "title": "Constructors lay pixels out row by row", "statement": "from_slice / from_vec / from_vec_of_vec / from_vec_of_slice give an image whose info is the given one and whose pixel (x, y) is the (y*width+x)-th group of `channels` values of the input; blank gives all-zero pixels; construction then data() is the identity.", "quantifier": "every width, height, channel count and data of matching length", "why_tests_cant": "unbounded sizes and data", "anchors": ["src/image/mod.rs:from_slice", "src/image/mod.rs:from_vec", "src/image/mod.rs:from_vec_of_vec", "src/image/mod.rs:from_vec_of_slice", "src/image/mod.rs:blank"]}
{"id": "C05", "title": "map_channels / map_channels_if_alpha act pointwise and respect alpha", "statement": "map_channels(f) keeps info and applies f to every channel; map_channels_if_alpha(f, g) applies g to the last channel and f to all others when the image has alpha, and f to everything otherwise; nothing else changes.", "quantifier": "every well-formed image, all functions f and g, all channel types", "why_tests_cant": "quantifies over functions and sizes", "anchors": ["src/image/mod.rs:map_channels", "src/image/mod.rs:map_channels_if_alpha", "src/image/pixel.rs:map_alpha"]}
{"id": "C06", "title": "map_pixels / map_pixels_if_alpha act pixelwise and infer the channel count", "statement": "If f appends exactly k values per pixel (k<256), map_pixels(f) returns an image of the same width, height and alpha flag with k channels (k+1 with alpha for the _if_alpha form) whose pixel (x, y) is f of the input pixel (with g of the alpha value appended). On an image with zero pixels it panics (division by zero).", "quantifier": "every well-formed image, all functions f (with constant output arity) and g", "why_tests_cant": "quantifies over functions and sizes, and includes the empty image", "anchors": ["src/image/mod.rs:map_pixels", "src/image/mod.rs:map_pixels_if_alpha"]}
{"id": "C07", "title": "In-place apply_* agrees with the copying map_*", "statement": "For every image and functions whose output arity equals the input's, apply_pixels, apply_pixels_if_alpha, apply_channels and apply_channels_if_alpha leave the image equal to the result of the corresponding map_* call on the original.", "quantifier": "every well-formed non-empty image, all functions", "why_tests_cant": "in-place update could read already-overwritten values at some size; needs all sizes", "anchors": ["src/image/mod.rs:apply_pixels", "src/image/mod.rs:apply_pixels_if_alpha", "src/image/mod.rs:apply_channels", "src/image/mod.rs:apply_channels_if_alpha", "src/image/pixel.rs:apply_alpha"]}
{"id": "C08", "title": "edit_channel changes exactly the selected channel", "statement": "For index < channels, edit_channel(f, index) replaces channel `index` of every pixel by f of it and leaves every other channel and info() unchanged.", "quantifier": "every well-formed image, every valid channel index, every f", "why_tests_cant": "stride arithmetic must be right for all sizes", "anchors": ["src/image/mod.rs:edit_channel"]}
{"id": "C09", "title": "The pixel iterator visits every pixel exactly once, in row-major order, and then stays exhausted", "statement": "Iterating an image with positive width and height yields exactly width*height items; the k-th item is (k mod width, k div width, get_pixel of that coordinate); all later next() calls return None.", "quantifier": "every well-formed image with positive dimensions, every number of next() calls", "why_tests_cant": "requires induction over the whole iteration for all sizes", "anchors": ["src/image/pixel_iter.rs:PixelIter", "src/image/pixel_iter.rs:next"]}
{"id": "C10", "title": "The pixel iterator's size_hint brackets the number of remaining items", "statement": "At any point of the iteration, size_hint's lower bound is at most, and its upper bound at least, the number of items still to come (the std Iterator contract).", "quantifier": "every well-formed image, every position of the iterator", "why_tests_cant": "position-dependent; needs all prefixes of the iteration", "anchors": ["src/image/pixel_iter.rs:size_hint"]}
{"id": "C11", "title": "Sub-images show the selected rectangle", "statement": "get_subimage(x, y, w, h).get_pixel(i, j) equals get_pixel(x+i, y+j) of the image for i < w, j < h, for every rectangle inside the image.", "quantifier": "every well-formed image and every rectangle inside it", "why_tests_cant": "the existing test uses a 1-wide rectangle only; all shapes are needed to see the layout", "anchors": ["src/image/mod.rs:get_subimage", "src/image/sub_image.rs:get_pixel"]}
{"id": "C12", "title": "Neighborhoods use clamp padding", "statement": "get_neighborhood_1d / _2d of size s around (x, y) has s (s*s) pixels, entry k (row i, column j) is the image pixel at offset k - s/2 (i - s/2, j - s/2) from the centre, with coordinates outside the image replaced by the nearest edge coordinate.", "quantifier": "every well-formed image, centre and size", "why_tests_cant": "edge behaviour depends on distance to the border and on the size; unit tests use size 3 only", "anchors": ["src/image/mod.rs:get_neighborhood_1d", "src/image/mod.rs:get_neighborhood_2d"]}
{"id": "C13", "title": "Pixel slice helpers", "statement": "alpha is the last channel, channels_without_alpha all but the last, map_all/map_alpha/apply/apply_alpha act per channel as documented (apply* agreeing with map*), is_black holds iff every channel is zero and is_black_alpha iff every non-last channel is; on an empty slice the alpha-based helpers panic.", "quantifier": "every slice length and content, every function", "why_tests_cant": "quantifies over functions and lengths including 0", "anchors": ["src/image/pixel.rs"]}
{"id": "C14", "title": "u8 images survive a round trip through f32 or f64", "statement": "Image::<u8>::from(Image::<f32>::from(img)) == img, and the same through f64.", "quantifier": "every well-formed u8 image; IEEE-754 arithmetic", "why_tests_cant": "needs exactness of the conversions for every value and every size", "anchors": ["src/image/from_impl.rs"]}
{"id": "C15", "title": "Float to u8 conversion rounds and saturates", "statement": "Converting an f32/f64 image to u8 maps each finite channel v to round-half-away(v) clamped to [0,255], +inf to 255, -inf and NaN to 0; the operation never panics and is monotone.", "quantifier": "every channel value including NaN and infinities", "why_tests_cant": "value domain is all of IEEE-754", "anchors": ["src/image/from_impl.rs"]}
{"id": "C16", "title": "u8 <-> scaled f32 conversion round trip", "statement": "f32_to_u8_scale(u8_to_f32_scale(img, s), s) == img for every scale s >= 1 (s up to u32::MAX).", "quantifier": "every well-formed u8 image and all 2^32-1 scales, IEEE-754 rounding included", "why_tests_cant": "the product of 256 values and 2^32 scales with four roundings each", "anchors": ["src/convert.rs:u8_to_f32_scale", "src/convert.rs:f32_to_u8_scale"]}
{"id": "C17", "title": "scale_channels maps the endpoints of the source range onto the endpoints of the target range", "statement": "Channels equal to current_min become scaled_min exactly, channels equal to current_max become scaled_max (exactly when scaled_min is 0), info is unchanged; in exact arithmetic the map is the affine bijection between the two ranges.", "quantifier": "every image and all finite ranges with current_min < current_max whose widths do not overflow", "why_tests_cant": "range of floats is unbounded", "anchors": ["src/convert.rs:scale_channels"]}
{"id": "C18", "title": "Integer images convert to f64 exactly when they fit 53 bits", "statement": "u8, u16, u32 images (and u64/u128/usize images whose channels are below 2^53) convert to f64 without loss, so distinct images stay distinct; above 2^53 loss occurs.", "quantifier": "every image of the listed types", "why_tests_cant": "all values of the types", "anchors": ["src/image/from_impl.rs"]}
{"id": "C19", "title": "Tone parameter validation", "statement": "brightness, brightness_lab and saturation return an InvalidArg error exactly when |parameter| > 255; contrast and contrast_lab exactly when gain is a number outside [0,1]; gamma exactly when gamma < 0; histogram_equalization exactly when precision < 0 or alpha is outside [0,1]. NaN is not rejected by any of them.", "quantifier": "every i16 / f32 parameter including NaN, i16::MIN, infinities", "why_tests_cant": "all parameter values incl. special ones (i16::MIN.abs() overflows)", "anchors": ["src/tone.rs", "src/error/messages.rs:check_in_range", "src/error/messages.rs:check_non_neg"]}
{"id": "C20", "title": "Brightness adds the bias with saturation and leaves alpha alone", "statement": "On hosts without AVX2 (or with the simd feature off), brightness(img, bias) keeps info and maps each non-alpha channel v to clamp(v + bias, 0, 255); the alpha channel is unchanged.", "quantifier": "every well-formed u8 image, every bias in [-255,255]", "why_tests_cant": "all sizes, values and biases", "anchors": ["src/tone.rs:brightness", "src/tone.rs:brightness_rgb_norm", "src/util/mod.rs:generate_lookup_table"]}
{"id": "C21", "title": "Brightness does not depend on whether the AVX2 path is taken", "statement": "brightness returns the same image with and without AVX2.", "quantifier": "every well-formed u8 image and bias", "why_tests_cant": "depends on byte count modulo 32 and channel layout; needs all sizes", "anchors": ["src/simd.rs:adds_256_u8", "src/tone.rs:brightness"]}
{"id": "C22", "title": "Contrast is a monotone, non-amplifying per-channel map", "statement": "For gain in [0,1], contrast(img, gain) keeps info and alpha, maps each other channel v to round(v*gain); the map is monotone in v, never exceeds v, is the identity for gain 1 and constant 0 for gain 0 (and for NaN gain, which is accepted).", "quantifier": "every well-formed u8 image, every f32 gain (IEEE-754)", "why_tests_cant": "all floats", "anchors": ["src/tone.rs:contrast"]}
{"id": "C23", "title": "Gamma keeps shape and alpha, and gamma 1 is the identity", "statement": "gamma(img, g, max) keeps info and the alpha channel for every g and max; with max = 255 and a libm whose pow(x,1)=x, gamma 1.0 returns the input image.", "quantifier": "every well-formed u8 image, every libm", "why_tests_cant": "all sizes, all pow implementations", "anchors": ["src/tone.rs:gamma"]}
{"id": "C24", "title": "Saturation shifts only S, and -255 desaturates completely", "statement": "Without AVX2, saturation(img, s) keeps info and alpha and is hsv_to_rgb of the HSV image with clamp(S+s,0,255); the largest colour channel of each pixel is preserved; s = -255 turns every pixel into the grey of its largest channel.", "quantifier": "every well-formed u8 image with 3 colour channels, every s in [-255,255]", "why_tests_cant": "all pixel values and sizes", "anchors": ["src/tone.rs:saturation", "src/tone.rs:saturation_norm"]}
{"id": "C25", "title": "Saturation's AVX2 path is memory safe and agrees with the scalar path", "statement": "With AVX2, saturation never reads or writes outside the image buffers and returns the same image as without AVX2.", "quantifier": "every well-formed RGB / RGBA u8 image", "why_tests_cant": "depends on byte counts modulo 30/32; only all sizes show the over-run", "anchors": ["src/simd.rs:adds_n_256_u8", "src/tone.rs:saturation"]}
{"id": "C26", "title": "Histogram percentiles form a cumulative distribution", "statement": "generate_histogram_percentiles assigns to each occurring intensity key the fraction of pixels with key less than or equal to it: values are monotone in the key and lie in (0,1], the largest key getting 1.", "quantifier": "every image and precision", "why_tests_cant": "all images", "anchors": ["src/util/mod.rs:generate_histogram_percentiles"]}
{"id": "C27", "title": "Histogram equalization never fails a lookup", "statement": "On every non-empty image with 3 colour channels and valid parameters histogram_equalization returns Ok (the percentile lookup never misses) with unchanged info and alpha channel.", "quantifier": "every such image, every libm and rounding behaviour", "why_tests_cant": "requires that both passes compute the same keys for all pixels", "anchors": ["src/tone.rs:histogram_equalization"]}
{"id": "C28", "title": "CIELAB tone operations preserve dimensions and the alpha channel bit-exactly", "statement": "brightness_lab, contrast_lab (and the colour-space chains srgb->xyz->lab->xyz->srgb they use) return an image with the same info and identical alpha values.", "quantifier": "every well-formed u8 image with 3 colour channels, every libm", "why_tests_cant": "all sizes and values; alpha goes through several float conversions", "anchors": ["src/tone.rs:brightness_lab", "src/tone.rs:contrast_lab", "src/colorspace.rs"]}
{"id": "C29", "title": "Scalar grayscale conversion is the truncated mean of the colour channels", "statement": "Without AVX2, rgb_to_grayscale maps each pixel to the truncated mean of its non-alpha channels followed by alpha if present; one channel remains (two with alpha). Result lies between the pixel's minimum and maximum.", "quantifier": "every well-formed non-empty u8 image with 1..128 colour channels", "why_tests_cant": "all values, sizes; the i16 accumulator bounds the channel count", "anchors": ["src/colorspace.rs:rgb_to_grayscale_norm"]}
{"id": "C30", "title": "Grayscale conversion does not depend on whether the AVX2 path is taken", "statement": "rgb_to_grayscale returns the same image with and without AVX2.", "quantifier": "every well-formed RGB / RGBA u8 image", "why_tests_cant": "depends on the byte count modulo 32*channels and on values", "anchors": ["src/simd.rs:avg_256_u8", "src/simd.rs:avg_alpha_256_u8"]}
{"id": "C31", "title": "The AVX2 grayscale path is memory safe", "statement": "avg_checked_256_u8 (reachable from the safe rgb_to_grayscale) never writes outside its output buffer.", "quantifier": "every well-formed u8 image of any channel count", "why_tests_cant": "safety must hold for all channel counts and sizes", "anchors": ["src/simd.rs:avg_256_u8", "src/simd.rs:avg_alpha_256_u8", "src/simd.rs:deinterleave_3_256_u8", "src/simd.rs:deinterleave_4_256_u8"]}
{"id": "C32", "title": "Integer HSV conversions never truncate", "statement": "In rgb_to_hsv and hsv_to_rgb every intermediate value cast to u8 is already in 0..=255 and no i32 arithmetic overflows, for every pixel value; info and alpha are preserved.", "quantifier": "all 2^24 RGB and HSV triples, all images", "why_tests_cant": "2^24 x 2 inputs; images of all sizes", "anchors": ["src/colorspace.rs:rgb_to_hsv", "src/colorspace.rs:hsv_to_rgb"]}
{"id": "C33", "title": "Integer HSV round trip preserves value, minimum and greys", "statement": "hsv_to_rgb(rgb_to_hsv(img)) keeps the largest and the smallest colour channel value of every pixel exactly, returns grey pixels unchanged, and keeps alpha.", "quantifier": "every well-formed u8 image with 3 colour channels", "why_tests_cant": "2^24 pixel values", "anchors": ["src/colorspace.rs:rgb_to_hsv", "src/colorspace.rs:hsv_to_rgb"]}
{"id": "C34", "title": "f32 HSV conversion: ranges, value channel, greys and alpha", "statement": "rgb_to_hsv_f32 yields channels in [0,1]; hsv_to_rgb_f32 of it keeps the largest colour channel, returns grey pixels and the alpha channel unchanged, and every other colour channel comes back as the original byte or one less, never more (truncation: the trip is not lossless).", "quantifier": "every u8 RGB(A) pixel, IEEE-754 arithmetic", "why_tests_cant": "2^24 values with float rounding", "anchors": ["src/colorspace.rs:rgb_to_hsv_f32", "src/colorspace.rs:hsv_to_rgb_f32"]}
{"id": "C35", "title": "XYZ conversions apply the published matrices to exactly three colour channels", "statement": "srgb_lin_to_xyz_f32 / xyz_to_srgb_lin_f32 succeed exactly for non-empty images with 3 non-alpha channels (otherwise they panic) and give, per pixel, the matrix-vector product; the two matrices are inverse to each other up to 1e-6.", "quantifier": "every well-formed f32 image", "why_tests_cant": "all images and channel counts", "anchors": ["src/colorspace.rs:srgb_lin_to_xyz_f32", "src/util/math.rs:vector_mul_mut", "src/util/constants.rs"]}
{"id": "C36", "title": "XYZ and CIELAB conversions are mutually inverse", "statement": "lab_to_xyz_f32(xyz_to_lab_f32(p)) = p for both reference whites, and the reverse composition is the identity too (up to rounding).", "quantifier": "all real colour values, both reference whites", "why_tests_cant": "continuous domain with a piecewise formula", "anchors": ["src/colorspace.rs:xyz_to_lab_f32", "src/colorspace.rs:lab_to_xyz_f32", "src/util/math.rs:xyz_to_lab_fn", "src/util/math.rs:lab_to_xyz_fn"]}
{"id": "C37", "title": "sRGB linearization keeps shape and alpha", "statement": "linearize_srgb_f32 then unlinearize_srgb_f32 keeps info and alpha exactly for every u8 image; linearization of each channel is the table function of its value, with values 0..=10 on the linear branch.", "quantifier": "every well-formed u8 image, every libm", "why_tests_cant": "all sizes, all libm", "anchors": ["src/colorspace.rs:linearize_srgb_f32", "src/colorspace.rs:unlinearize_srgb_f32"]}
{"id": "C38", "title": "get_2d_coords inverts row-major indexing", "statement": "For width >= 1, get_2d_coords(i, width) = (x, y) with x < width and y*width + x = i, and get_2d_coords(y*width+x, width) = (x, y) for x < width; width 0 panics.", "quantifier": "all u32 i and width", "why_tests_cant": "2^64 inputs", "anchors": ["src/util/mod.rs:get_2d_coords"]}
{"id": "C39", "title": "Summed-area tables hold the rectangle-from-origin sums", "statement": "Every entry (x, y) of generate_summed_area_table is the sum of the input over columns 0..=x and rows 0..=y, per channel; exact in IEEE f32 whenever inputs are integers with total absolute sum at most 2^23, in particular for u8 images with width*height*255 <= 2^23 (the recurrence forms intermediate sums of up to twice the total).", "quantifier": "every well-formed image", "why_tests_cant": "needs a two-dimensional induction over all sizes plus float exactness", "anchors": ["src/util/mod.rs:generate_summed_area_table"]}
{"id": "C40", "title": "rectangular_intensity_sum returns the sum over the requested rectangle", "statement": "Applied to a summed-area table it returns the per-channel sum of the original image over columns x0..=x1 and rows y0..=y1, for every rectangle inside the image.", "quantifier": "every image, every rectangle", "why_tests_cant": "all rectangles incl. those touching the top/left edge", "anchors": ["src/util/mod.rs:rectangular_intensity_sum"]}
{"id": "C41", "title": "vector_mul is matrix-vector multiplication", "statement": "For a non-empty vector of length n, vector_mul returns Ok exactly when mat.len()/n == n and then the i-th output is the (left-to-right) sum of mat[n*i+j]*v[j]; vector_mul_mut puts the same into its output argument whatever it held before; an empty vector panics.", "quantifier": "all lengths and values, all number types", "why_tests_cant": "unbounded sizes; the length guard uses truncating division", "anchors": ["src/util/math.rs:vector_mul", "src/util/math.rs:vector_mul_mut"]}
{"id": "C42", "title": "max_3/max_4/min_3/min_4 return the extremum", "statement": "For non-NaN arguments the result is one of the arguments and bounds all of them.", "quantifier": "all non-NaN f32 arguments, any order and ties", "why_tests_cant": "branching comparison ladder; all orders and ties", "anchors": ["src/util/math.rs:max_3", "src/util/math.rs:max_4", "src/util/math.rs:min_3", "src/util/math.rs:min_4"]}
{"id": "C43", "title": "Gaussian and LoG kernels are size x size, fully populated and symmetric", "statement": "For odd size with size*size < 2^31, generate_gaussian_kernel / generate_log_kernel return size*size entries; entry (i,j) is the formula at offset (i-k, j-k) with k=(size-1)/2; hence symmetric under transposition and (in exact arithmetic) under reflection; even sizes give an InvalidArg error.", "quantifier": "every size and sigma, every libm", "why_tests_cant": "all sizes", "anchors": ["src/util/mod.rs:generate_gaussian_kernel", "src/util/mod.rs:generate_log_kernel"]}
{"id": "C44", "title": "The bilateral spatial matrix holds the Gaussian of the distance to the centre", "statement": "For odd size, entry (y,x) of generate_spatial_mat equals gaussian(distance to centre); no index leaves the matrix.", "quantifier": "every size and spatial parameter", "why_tests_cant": "symmetric fill-in by index arithmetic must be right for all sizes", "anchors": ["src/util/mod.rs:generate_spatial_mat"]}
{"id": "C45", "title": "Kernel application is the dot product with the neighborhood", "statement": "apply_1d_kernel / apply_2d_kernel return, per channel, the (left-to-right) sum of kernel[i]*pixel_i, Err exactly when the kernel length is even or differs from the number of pixels; the output buffer's previous content is irrelevant.", "quantifier": "all kernels and neighborhoods", "why_tests_cant": "unbounded sizes", "anchors": ["src/util/math.rs:apply_1d_kernel", "src/util/math.rs:apply_2d_kernel"]}
{"id": "C46", "title": "linear_filter gives the same result through the separable and the unseparable path", "statement": "If the SVD returned a rank-one factorisation, filtering with the separated kernels equals filtering with the original kernel at every pixel including borders (exact arithmetic).", "quantifier": "every image, every separable kernel of odd size", "why_tests_cant": "all images; borders use padding in two passes", "anchors": ["src/util/math.rs:separate_kernel", "src/filter/mod.rs:separable_filter", "src/filter/mod.rs:linear_filter"]}
{"id": "C47", "title": "filter_1d / separable_filter / unseparable_filter compute the padded correlation at every pixel", "statement": "The output has the input's info; each output channel is the dot product of the kernel with the padded neighborhood; even (or unequal, or non-square) kernel lengths give an InvalidArg error.", "quantifier": "every well-formed image and kernel", "why_tests_cant": "all sizes", "anchors": ["src/filter/mod.rs:filter_1d", "src/filter/mod.rs:separable_filter", "src/filter/mod.rs:unseparable_filter"]}
{"id": "C48", "title": "The rayon build returns exactly what the sequential build returns, for every schedule", "statement": "crop, filter_1d, unseparable_filter, scale (all methods) and bilateral_filter built with the rayon feature give the same result as the sequential build whatever order the tasks run in.", "quantifier": "every input and every execution order of the parallel tasks", "why_tests_cant": "schedules cannot be enumerated by tests", "anchors": ["src/filter/mod.rs", "src/transform.rs", "src/filter/bilateral.rs"]}
{"id": "C49", "title": "box_filter averages the size x size window", "statement": "box_filter(img, size) returns at each pixel the mean of the size x size neighborhood.", "quantifier": "every image and odd size", "why_tests_cant": "all images and sizes", "anchors": ["src/filter/mod.rs:box_filter"]}
{"id": "C50", "title": "weighted_avg_filter uses a normalised kernel", "statement": "For odd size and size*size-1+weight > 0 the kernel weights are 1/sum everywhere except weight/sum at the centre, so (exact arithmetic) weights add to 1 and constant images are unchanged; even sizes give an error.", "quantifier": "every image, odd size and weight", "why_tests_cant": "all sizes and weights", "anchors": ["src/filter/mod.rs:weighted_avg_filter"]}
{"id": "C51", "title": "Smoothing/sharpening kernels preserve constants and the Laplacian annihilates them", "statement": "On a constant image with integer values (such as one converted from u8) sharpen, unsharp_masking return the image unchanged and laplacian returns zero, exactly in IEEE f32.", "quantifier": "every image size and every constant 0..=255", "why_tests_cant": "all sizes and values with float rounding", "anchors": ["src/filter/mod.rs:sharpen", "src/filter/mod.rs:unsharp_masking", "src/filter/edge.rs:laplacian", "src/util/constants.rs"]}
{"id": "C52", "title": "threshold implements its five documented rules", "statement": "On a grayscale image each non-alpha channel is mapped by the documented rule for the chosen method, alpha is unchanged, info is unchanged; non-grayscale inputs give an InvalidArg error. A NaN channel counts as not greater.", "quantifier": "every image, threshold, max and method incl. NaN", "why_tests_cant": "all floats and sizes", "anchors": ["src/filter/mod.rs:threshold", "src/enums.rs:Thresh", "src/error/messages.rs:check_grayscale"]}
{"id": "C53", "title": "residual is the channel-wise difference", "statement": "residual(a, b) is Err exactly when the infos differ; otherwise each channel is a - b. For u8 images it panics in overflow-checked builds exactly when some channel of b exceeds a's, and wraps modulo 256 otherwise.", "quantifier": "every pair of images", "why_tests_cant": "all sizes and values", "anchors": ["src/filter/mod.rs:residual"]}
{"id": "C54", "title": "Derivative masks (Sobel, Prewitt)", "statement": "On one-channel images derivative_mask returns the root of the sum of squares of the two separable responses at every pixel, with unchanged info; non-grayscale images give an error; constant integer images give all zeros for Sobel and Prewitt; documented grayscale-with-alpha images work too.", "quantifier": "every grayscale image and kernels", "why_tests_cant": "all sizes", "anchors": ["src/filter/edge.rs:derivative_mask", "src/filter/edge.rs:sobel", "src/filter/edge.rs:prewitt"]}
{"id": "C55", "title": "normalize_laplacian stretches the value range to [0, 255]", "statement": "For a non-empty grayscale image with finite values that are not all equal (and whose range does not overflow), pixels holding the minimum become 0, those holding the maximum become 255, and the map is monotone; NaN or empty input panics.", "quantifier": "every such image, IEEE-754", "why_tests_cant": "all floats", "anchors": ["src/filter/edge.rs:normalize_laplacian"]}
{"id": "C56", "title": "median_filter returns the window median", "statement": "Each output channel is the median of the (2r+1)x(2r+1) window (coordinates clamped to the image) of that channel of the input.", "quantifier": "every well-formed u8 image, radius and column block size", "why_tests_cant": "the sliding-histogram algorithm carries state along each column; correctness is an invariant over the whole run", "anchors": ["src/filter/median.rs:median_filter", "src/filter/median.rs:PartialHistograms", "src/filter/median.rs:process_row_med"]}
{"id": "C57", "title": "The partial histograms always sum to the true window histograms", "statement": "At every row of the median / alpha-trimmed filters and for every column of the block, central + partial histogram equals the histogram of the rows currently added, for that column's window.", "quantifier": "every sequence of added and removed rows, every block size (odd) and radius", "why_tests_cant": "invariant over unbounded update histories", "anchors": ["src/filter/median.rs:PartialHistograms::update", "src/filter/median.rs:get_count"]}
{"id": "C58", "title": "alpha_trimmed_mean_filter returns the trimmed window mean", "statement": "For even alpha < (2r+1)^2 each output channel is the rounded mean of the window values after discarding the alpha/2 lowest and highest; odd or too large alpha gives an error.", "quantifier": "every image, radius and alpha", "why_tests_cant": "stateful sliding algorithm", "anchors": ["src/filter/median.rs:alpha_trimmed_mean_filter", "src/filter/median.rs:MeanHist"]}
{"id": "C59", "title": "bilateral_filter keeps dimensions and never panics on valid parameters", "statement": "For non-negative range and spatial parameters and a 3-colour-channel image, bilateral_filter returns Ok with the same info; negative parameters give an error.", "quantifier": "every image and all non-negative parameters", "why_tests_cant": "matrix size depends on the float parameter", "anchors": ["src/filter/bilateral.rs"]}
{"id": "C60", "title": "crop returns the selected rectangle or an error", "statement": "crop succeeds exactly when x+width < W and y+height < H (no u32 overflow) and then output pixel (i,j) is input pixel (x+i, y+j); rectangles not satisfying this give InvalidArg. No rectangle yields pixels from elsewhere, in either overflow profile.", "quantifier": "every image and every u32 rectangle", "why_tests_cant": "2^128 rectangles, overflow cases", "anchors": ["src/transform.rs:crop"]}
{"id": "C61", "title": "crop accepts every rectangle that lies inside the image", "statement": "crop(img, x, y, w, h) succeeds whenever x+w <= W and y+h <= H; in particular cropping to the full image is the identity.", "quantifier": "every image and rectangle inside it", "why_tests_cant": "boundary rectangles of all sizes", "anchors": ["src/transform.rs:crop"]}
{"id": "C62", "title": "superimpose blends the two images", "statement": "For equal channel counts and alpha in [0,1], superimpose returns Ok with alpha*back+(1-alpha)*front in the overlap and back elsewhere.", "quantifier": "all image pairs, offsets and alpha in [0,1]", "why_tests_cant": "all inputs", "anchors": ["src/transform.rs:superimpose"]}
{"id": "C63", "title": "overlay replaces exactly the overlap", "statement": "For equal channel counts and offsets that do not overflow, overlay(back, front, x, y) has back's info, equals front(i-x, j-y) where the shifted front covers (i,j), and back elsewhere; unequal channel counts give an error.", "quantifier": "all image pairs and offsets", "why_tests_cant": "all sizes and offsets, partially or fully outside", "anchors": ["src/transform.rs:overlay"]}
{"id": "C64", "title": "translate shifts and fills with zeros", "statement": "translate(img,x,y) has the same info, pixel (i,j) is img(i-x,j-y) if i>=x and j>=y and zero otherwise; translations compose additively while in range.", "quantifier": "all images and offsets", "why_tests_cant": "all sizes and offsets", "anchors": ["src/transform.rs:translate"]}
{"id": "C65", "title": "reflect mirrors and is an involution", "statement": "reflect Vertical maps (x,y) to (w-1-x,y), Horizontal to (x,h-1-y), info unchanged; applying the same reflection twice gives back the original image; the two reflections commute.", "quantifier": "all images", "why_tests_cant": "all sizes", "anchors": ["src/transform.rs:reflect"]}
{"id": "C66", "title": "Nearest-neighbour scaling by a positive integer replicates pixels; factor 1 is the identity", "statement": "scale(img,k,k,NearestNeighbor) has size kW x kH and output(x,y) = input(x/k, y/k) for integer k>=1 (output dimensions at most 2^24), exactly in IEEE f32.", "quantifier": "all images and integer factors", "why_tests_cant": "float division and ceil must be exact for all coordinates", "anchors": ["src/transform.rs:scale", "src/transform.rs:interpolate_nearest_neighbor"]}
{"id": "C67", "title": "scale never panics for non-negative factors", "statement": "scale(img, fx, fy, method) returns Ok for every non-empty image and every finite positive factor whose output size is representable.", "quantifier": "all images, factors and methods", "why_tests_cant": "depends on rounding of W*f", "anchors": ["src/transform.rs:scale", "src/transform.rs:interpolate_nearest_neighbor", "src/transform.rs:interpolate_bilinear"]}
{"id": "C68", "title": "Bilinear scaling interpolates between the neighbours", "statement": "With fractional position t between columns a and b, the bilinear result is (1-t)*a + t*b (likewise vertically); in any case the result lies between the minimum and maximum of the four neighbours (exact arithmetic), and factor 1 is the identity.", "quantifier": "all images and factors", "why_tests_cant": "all positions and values", "anchors": ["src/transform.rs:interpolate_bilinear"]}
{"id": "C69", "title": "Bicubic scaling weights form a partition of unity", "statement": "For every position, the 16 bicubic weights are non-negative and add up to 1 (exact arithmetic), so constant images stay constant and results stay within the input range.", "quantifier": "all positions", "why_tests_cant": "continuous parameter", "anchors": ["src/transform.rs:interpolate_bicubic", "src/util/math.rs:cubic_weighting_fn"]}
{"id": "C70", "title": "shear with zero factors is the identity and horizontal/vertical shears keep every pixel", "statement": "shear(img,0,0) = img for images up to 2^24 in each dimension, in IEEE f32; in exact arithmetic shear never panics and output size is W+floor(H|sx|) x H+floor(W|sy|).", "quantifier": "all images and shear factors", "why_tests_cant": "float coordinates for all sizes", "anchors": ["src/transform.rs:shear"]}
{"id": "C71", "title": "rotate by 0 degrees is the identity", "statement": "rotate(img, 0) returns img.", "quantifier": "all images", "why_tests_cant": "depends on parity of the dimensions", "anchors": ["src/transform.rs:rotate"]}
{"id": "C72", "title": "erode computes binary erosion (background outside the image)", "statement": "On a binary (0/255) one-channel image and radius <= width, height, erode outputs 255 at (x,y) iff every pixel of the (2r+1)x(2r+1) window lies in the image and is 255; exact in IEEE f32 while width*height*255 <= 2^23.", "quantifier": "every binary image and radius in range", "why_tests_cant": "all images, radii, border positions and float exactness", "anchors": ["src/morphology.rs:erode"]}
{"id": "C73", "title": "dilate computes binary dilation", "statement": "On a binary one-channel image dilate outputs 255 at (x,y) iff some pixel of the (2r+1)x(2r+1) window intersected with the image is 255.", "quantifier": "every binary image and radius", "why_tests_cant": "border windows are special-cased; all positions needed", "anchors": ["src/morphology.rs:dilate"]}
{"id": "C74", "title": "majority outputs the majority value of the window", "statement": "On a binary image majority outputs 255 iff more than half the window pixels are 255.", "quantifier": "every binary image and radius", "why_tests_cant": "all windows", "anchors": ["src/morphology.rs:majority"]}
{"id": "C75", "title": "open is anti-extensive, close is extensive, erode and dilate are monotone", "statement": "On binary images: erode <= input <= dilate, open <= input <= close, and both erode and dilate preserve pixelwise order between images.", "quantifier": "all binary images and radii", "why_tests_cant": "relational property over pairs of images", "anchors": ["src/morphology.rs:open", "src/morphology.rs:close"]}
{"id": "C76", "title": "gradient is dilation minus erosion", "statement": "For every binary image, gradient equals the pixelwise difference dilate - erode.", "quantifier": "all binary images and radii", "why_tests_cant": "all images", "anchors": ["src/morphology.rs:gradient"]}
{"id": "C77", "title": "Reading back a written image returns it", "statement": "For u8 images with (channels, alpha) one of (1,no),(2,yes),(3,no),(4,yes) and a lossless codec, write then read of the same path gives an equal image; other channel layouts and too-short buffers are rejected with an error and no file is written.", "quantifier": "every image, every lossless codec and file system content", "why_tests_cant": "depends on external codec; contract-level property", "anchors": ["src/io/mod.rs"]}
{"id": "C78", "title": "Lookup tables agree with direct evaluation", "statement": "After generate_lookup_table(table, f), table[i] = f(i) for all i; hence a table-driven map equals the direct map for every channel value.", "quantifier": "every f and previous table content", "why_tests_cant": "all functions", "anchors": ["src/util/mod.rs:generate_lookup_table"]}
{"id": "C79", "title": "rotate never panics and returns the expected size", "statement": "In exact arithmetic, rotate(img, d) succeeds for every non-empty image and every angle whose output size is representable, and returns floor(W|cos|+H|sin|) x floor(H|cos|+W|sin|) pixels.", "quantifier": "all images and angles", "why_tests_cant": "all angles and sizes; out-of-bounds writes would need the right corner case", "anchors": ["src/transform.rs:rotate"]}
{"id": "C80", "title": "Dimension arithmetic of ImageInfo", "statement": "size() is width*height and full_size() is width*height*channels, panicking in overflow-checked builds exactly when the product does not fit 32 bits and wrapping modulo 2^32 otherwise; channels_non_alpha() counts the channels that are not alpha; for a well-formed image full_size() is the length of data().", "quantifier": "all image headers, both build profiles", "why_tests_cant": "overflow happens only for images far larger than any test uses", "anchors": ["src/image/mod.rs:size", "src/image/mod.rs:full_size", "src/image/mod.rs:channels_non_alpha"]}
{"id": "C81", "title": "Reading a sub-image", "statement": "A sub-image's get_pixel(x, y) returns exactly when x < width and y < height, and then it is the (y*width+x)-th stored pixel; to_vec() is the concatenation of the stored pixels in order.", "quantifier": "all sub-images and coordinates", "why_tests_cant": "all sizes and coordinates, including the out-of-range ones", "anchors": ["src/image/sub_image.rs"]}
{"id": "C82", "title": "Algebra of morphological operations", "statement": "On a binary one-channel image, open(r) keeps exactly the pixels covered by some all-white (2r+1)x(2r+1) square inside the image; open and close are idempotent; eroding by r then s equals eroding by r+s; dilating n times by 1 equals dilating by n.", "quantifier": "every binary image and all radii in range", "why_tests_cant": "relates several calls on arbitrary images; borders are special-cased by the code", "anchors": ["src/morphology.rs:open", "src/morphology.rs:close", "src/morphology.rs:erode", "src/morphology.rs:dilate"]}
{"id": "C83", "title": "Cutting and pasting are inverse and compose", "statement": "Cropping a crop is one crop with added offsets; pasting a crop back where it was cut restores the image; cropping where an image was pasted returns that image; pasting twice at the same place equals pasting once; pastes to disjoint places commute; translating equals pasting a crop onto black; cropping the shifted area of a translated image returns the crop of the original.", "quantifier": "all images, offsets and sizes in range", "why_tests_cant": "relates several calls for arbitrary images and offsets", "anchors": ["src/transform.rs:crop", "src/transform.rs:overlay", "src/transform.rs:translate"]}
{"id": "C84", "title": "Lanczos scaling sums the windowed-sinc weighted neighbours", "statement": "In exact arithmetic scale_lanczos(img, fx, fy, a) returns an image of round(W fx) x round(H fy) pixels whose value at (x,y) is the sum over the 2a x 2a neighbours (clamped to the image) weighted by the Lanczos kernel of size a (with the f32 value of pi) in both directions; scale with Lanczos is size 3; the kernel is even, 1 at 0, bounded by 1, zero outside (-a,a). In f32 it returns for every image, every accepted pair of factors and every size below 2^31-1.", "quantifier": "every non-empty image, all factors and sizes", "why_tests_cant": "all images, factors, sizes and border positions", "anchors": ["src/transform.rs:scale_lanczos", "src/transform.rs:interpolate_lanczos", "src/util/math.rs:lanczos_kernel", "src/util/math.rs:sinc_norm"]}
{"id": "C85", "title": "Scaling by 1 returns the image", "statement": "scale(img, 1, 1, m) returns img for every method m.", "quantifier": "all images and methods", "why_tests_cant": "all images", "anchors": ["src/transform.rs:scale", "src/transform.rs:scale_lanczos"]}
{"id": "C86", "title": "Scaling a constant image gives a constant image", "statement": "If every pixel of img equals p, every pixel of scale(img, fx, fy, m) equals p; nearest neighbour never creates a pixel that is not in the image.", "quantifier": "all constant images, factors and methods", "why_tests_cant": "all factors: depends on the sum of weights at every fractional position", "anchors": ["src/transform.rs:scale"]}
{"id": "C87", "title": "Un-linearizing a linearized image returns it", "statement": "In exact arithmetic unlinearize_srgb_f32(linearize_srgb_f32(img)) = img for every u8 image, alpha included; the curve maps 0 to 0 and 255 to 1 and is strictly increasing.", "quantifier": "every well-formed u8 image (every byte value in every channel)", "why_tests_cant": "real powers on both sides of a branch threshold; holds for the exact curve, not for one rounding of it", "anchors": ["src/colorspace.rs:linearize_srgb_f32", "src/colorspace.rs:unlinearize_srgb_f32"]}
{"id": "C88", "title": "A trip through XYZ or CIELAB and back loses at most one level per channel", "statement": "In exact arithmetic converting a u8 sRGB image to XYZ (or CIELAB, either white) and back gives an image with the same header and alpha whose colour channels are each the same or exactly one level darker; the same holds for brightness with bias 0 and contrast with gain 1 in CIELAB mode. White really comes back as (254,255,254).", "quantifier": "every non-empty image with three colour channels, both reference whites", "why_tests_cant": "2^24 colours times the error of two rounded matrices and a truncating cast", "anchors": ["src/colorspace.rs:srgb_to_xyz_f32", "src/colorspace.rs:xyz_to_srgb_f32", "src/colorspace.rs:srgb_to_lab_f32", "src/colorspace.rs:lab_to_srgb_f32", "src/tone.rs:brightness", "src/tone.rs:contrast"]}
{"id": "C89", "title": "Histogram equalization only remaps lightness, monotonically, and alpha 0 means no equalization", "statement": "In exact arithmetic histogram_equalization(img, alpha, white, precision) replaces the CIELAB lightness L of each pixel by alpha*100*percentile(L) + (1-alpha)*L and leaves a*, b* and the alpha channel; a pixel at least as light as another stays at least as light; alpha = 0 returns the image up to the one level lost by the conversions.", "quantifier": "every non-empty image with three colour channels and fewer than 2^30 pixels, alpha in [0,1], precision >= 0", "why_tests_cant": "depends on the histogram of the whole image", "anchors": ["src/tone.rs:histogram_equalization", "src/util/mod.rs:generate_histogram_percentiles"]}
{"id": "C90", "title": "The bilateral filter takes weighted means of CIELAB windows", "statement": "In exact arithmetic each channel of each filtered CIELAB pixel is the weighted mean, over the window around it except the pixel itself, of the clamped neighbours' values, the weight being the product of a Gaussian of the distance and a Gaussian of the value difference; so it lies between the smallest and largest value of the window, and a constant image comes back up to the one level lost by the conversions.", "quantifier": "every non-empty image with three colour channels, range > 0, spatial > 0 giving an odd window side of at least 3", "why_tests_cant": "real exponentials over every window; the normalisation must hold for every weight", "anchors": ["src/filter/bilateral.rs:bilateral_filter", "src/filter/bilateral.rs:bilateral_direct_pixel"]}
{"id": "C91", "title": "Linear filters obey superposition, are local and keep channels apart", "statement": "Over exact arithmetic filter_1d, separable_filter, unseparable_filter and linear_filter (the last given a correct singular value decomposition) satisfy F(a*f + b*g) = a*F(f) + b*F(g) at every pixel and channel, and the response is linear in the kernel too. In IEEE arithmetic as well, the output pixel of unseparable_filter depends only on input pixels within n/2 of it, and each output channel only on the same input channel.", "quantifier": "every pair of same-shape images, every pair of scalars, every odd kernel size and all kernel entries, every pixel", "why_tests_cant": "superposition quantifies over all pairs of images and all coefficients; locality over all changes outside the window", "anchors": ["src/filter/mod.rs: filter_1d, separable_filter, unseparable_filter, linear_filter", "src/util/mod.rs: apply_1d_kernel, apply_2d_kernel"]}
{"id": "C92", "title": "Averaging filters stay within the range of their window (violated by gaussian_blur)", "statement": "Over exact arithmetic the output of weighted_avg_filter and box_filter (and of unseparable_filter with any non-negative kernel summing to 1) lies, per channel, between the smallest and the largest window value. gaussian_blur does not have this property: an image of one colour v comes back as v times the kernel sum, and the kernel is not normalised: the result is strictly darker whenever size^2 <= 6 sigma^2 and strictly brighter whenever 7 sigma^2 <= 1.", "quantifier": "every image, every odd size and weight, every sigma, every pixel and channel", "why_tests_cant": "a range bound over all real-valued windows; the violation for a whole region of (size, sigma)", "anchors": ["src/filter/mod.rs: weighted_avg_filter, box_filter, gaussian_blur", "src/util/mod.rs: generate_gaussian_kernel"]}
{"id": "C93", "title": "Brightness changes add up and can be undone exactly when nothing saturates", "statement": "Without AVX2, brightness with bias 0 returns the image; two biases of the same sign act like their sum; brightening by b and then by -b returns the original image if and only if no colour value plus b leaves 0..255; larger values and larger biases give larger results, and brightening the negative is the negative of darkening.", "quantifier": "every well-formed 8-bit image with and without alpha, all biases in -255..255 (sum in range)", "why_tests_cant": "equations between compositions of calls over all images; the undo clause is an equivalence over all pixel values", "anchors": ["src/tone.rs:brightness", "src/image/mod.rs:map_channels_if_alpha"]}
{"id": "C94", "title": "The thresholding methods are idempotent, complementary and split the image", "statement": "threshold with to_zero or to_zero_inv is idempotent for every image and threshold (NaN included); trunc is idempotent; binary and binary_inv are idempotent and exchange each other when 0 <= threshold < max; and on one-channel images of finite values the residual of the image and its to_zero image is its to_zero_inv image, and the other way round.", "quantifier": "every grayscale image, every threshold and maximum (finite ones where stated), IEEE f32", "why_tests_cant": "compositions of calls over all f32 pixel values including NaN and infinities", "anchors": ["src/filter/mod.rs:threshold", "src/filter/mod.rs:residual"]}
{"id": "C95", "title": "Operations commute with mirroring (violated by the median filter), per-pixel ones also with cropping", "statement": "Applying an operation and then reflecting (or, for per-pixel operations, cropping) the result gives the same image as reflecting or cropping first: brightness, contrast, gamma, saturation, brightness_lab, contrast_lab, rgb_to_hsv, hsv_to_rgb, rgb_to_grayscale, threshold and linearize_srgb in IEEE arithmetic; erode, dilate, majority, open and close in IEEE arithmetic; unseparable and separable filters with the mirrored kernel in exact arithmetic, hence sharpen, unsharp_masking, laplacian, weighted_avg_filter, box_filter, sobel, prewitt and sobel_weighted. The median filter does not commute with turning the image upside down.", "quantifier": "every image of the operation's domain, both axes, every crop rectangle inside the image, all parameters, all odd kernels", "why_tests_cant": "equations between compositions of calls for all images, kernels and rectangles, including border pixels", "anchors": ["src/transform.rs:reflect", "src/transform.rs:crop", "src/tone.rs", "src/filter/mod.rs", "src/filter/edge.rs", "src/morphology.rs", "src/filter/median.rs:median_filter"]}
{"id": "C96", "title": "The median filter only moves values around and commutes with increasing changes of the values", "statement": "Every channel value of the output of median_filter is a value of the same channel of the input, taken from at most radius rows further down and, except in the last column, at most radius columns to either side; so any per-channel predicate true of all input values holds for the output. Remapping all values by a function that is strictly increasing on the values of each channel gives the same image before and after filtering.", "quantifier": "every image and radius of the filter's domain, every predicate, every increasing remapping", "why_tests_cant": "quantifies over all predicates and all monotone maps on all images", "anchors": ["src/filter/median.rs:median_filter"]}
{"id": "C97", "title": "Gamma correction is an increasing curve through black and the maximum", "statement": "In exact arithmetic gamma(img, g, max) with g >= 0 and max > 0 maps every colour byte v to the integer nearest to (v/max)^g * max (255 where that exceeds 255) and keeps alpha; the map is increasing, fixes max, fixes 0 when g > 0, keeps values up to max up to max, is the identity for g = 1 whatever max is, and on values up to max a larger g never brightens.", "quantifier": "every well-formed 8-bit image with and without alpha, every g >= 0, every max in 1..255, every byte", "why_tests_cant": "real powers for every exponent; monotonicity in both the value and the exponent", "anchors": ["src/tone.rs:gamma", "src/image/mod.rs:map_channels_if_alpha"]}
{"id": "C98", "title": "Sobel and Prewitt are the gradient magnitude", "statement": "In exact arithmetic, on one-channel images, sobel_weighted(img, w) is at every pixel sqrt(gx^2 + gy^2) with gx, gy the differences of the weighted (1, w, 1) sums of the columns and rows beside the pixel, the border repeated outward; sobel is the case w = 2 and prewitt w = 1. Adding a constant to the image changes nothing, scaling it by a scales the result by |a|; on an inclined plane the result is (2w+4) times the slope whatever its direction; values in 0..m give results in 0..sqrt(2)(w+2)m.", "quantifier": "every well-formed one-channel image of the filters' size domain, every weight, every pixel, every scaling, offset and plane", "why_tests_cant": "real-valued, for every image and size; isotropy on planes is a continuum of directions", "anchors": ["src/filter/edge.rs:sobel_weighted", "src/filter/edge.rs:sobel", "src/filter/edge.rs:prewitt", "src/filter/edge.rs:derivative_mask"]}
{"id": "C99", "title": "The Laplacian of Gaussian vanishes on constant images", "statement": "laplacian_of_gaussian(img, size, sigma) should filter with weights -1/(pi s^4) (1 - d/(2 s^2)) exp(-d/(2 s^2)), d the squared distance from the centre, positive and negative weights balancing so that flat regions give (about) zero.", "quantifier": "every well-formed image, every odd size, every sigma > 0", "why_tests_cant": "a claim about all sizes, sigmas and images", "anchors": ["src/filter/edge.rs:laplacian_of_gaussian", "src/util/mod.rs:generate_log_kernel"]}
{"id": "C100", "title": "Float grayscale is the mean of the colour values", "statement": "rgb_to_grayscale_f32 replaces the colour channels of every pixel by their mean and keeps alpha and the size; the mean lies between the smallest and largest colour value, keeps grey pixels and does not depend on the order of the channels. In IEEE f32 the result is the correctly rounded mean whenever the values are integers whose absolute sum is at most 2^24, exact when the mean is an integer.", "quantifier": "every well-formed float image with at least one colour channel, every number of channels; the IEEE part for integer-valued pixels", "why_tests_cant": "all images and channel counts, all integer values", "anchors": ["src/colorspace.rs:rgb_to_grayscale_f32"]}
{"id": "C101", "title": "Float HSV conversion is the textbook hexcone model", "statement": "In exact arithmetic rgb_to_hsv_f32 computes the hexcone hue (in turns, in [0,1)), saturation (max-min)/max and value max/255 of every pixel; hsv_to_rgb_f32 on any hue in [0,1), saturation and value computes the textbook inverse, truncated to a byte; the two compose to the identity on every image with three colour channels, with or without alpha. At hue 1, the same angle as 0, hsv_to_rgb_f32 returns magenta instead of red.", "quantifier": "every byte colour and image; every real hue, saturation and value", "why_tests_cant": "a continuum of HSV triples; six sectors with boundary cases; 2^24 colours", "anchors": ["src/colorspace.rs:rgb_to_hsv_f32", "src/colorspace.rs:hsv_to_rgb_f32"]}
{"id": "C102", "title": "Arithmetic and argument checks of the channel types", "statement": "On u8, u32, usize, i16 and i32 the operations of the Number trait compute the mathematical result when it fits; otherwise a debug build panics and a release build returns the residue modulo the number of values; remainder truncates towards zero and panics on zero and on MIN % -1. check_odd, check_even, check_non_neg and check_in_range accept exactly the odd, even, non-negative and in-range values and report InvalidArg otherwise; on finite f32 check_non_neg and check_in_range do the same, but a NaN passes both.", "quantifier": "every pair of values of each type, both build profiles, all bounds; every f32", "why_tests_cant": "all pairs of 64-bit values, both profiles", "anchors": ["src/image/mod.rs:Number", "src/error/messages.rs:check_odd", "src/error/messages.rs:check_even", "src/error/messages.rs:check_non_neg", "src/error/messages.rs:check_in_range"]}
{"id": "C103", "title": "vector_mul is the matrix-vector product", "statement": "For an n-vector and a matrix of at least n*n and fewer than n*n+n entries vector_mul returns the product of the leading n*n entries, row by row, with the vector: exactly in exact arithmetic and on integer types when every product and partial sum fits; otherwise a debug build panics with an overflow and a release build returns the product modulo the number of values. Other matrix lengths give InvalidArg, the empty vector a division by zero. vector_mul_mut stores the same result whatever its output held.", "quantifier": "every dimension, all entries, every integer channel type, both build profiles", "why_tests_cant": "an equation for every dimension and all entries", "anchors": ["src/util/math.rs:vector_mul", "src/util/math.rs:vector_mul_mut"]}
{"id": "C104", "title": "Bilinear enlargement by whole factors keeps the original samples", "statement": "In IEEE f32, scale with bilinear interpolation and whole factors kx, ky returns an image whose pixel (kx*X, ky*Y) is the input's pixel (X, Y), bit for bit (signed zeros included), for every image of finite values; with factors 1 the image comes back unchanged.", "quantifier": "every well-formed f32 image of finite values, all whole factors with output sides up to 2^22, every pixel", "why_tests_cant": "float rounding at every coordinate and for every pixel value", "anchors": ["src/transform.rs:scale", "src/transform.rs:interpolate_bilinear"]}
{"id": "C105", "title": "The predefined Gaussian kernels are exact and separable", "statement": "On an image of integers (such as a converted 8-bit image) the predefined 1-d Gaussian kernels of sides 3 and 5 applied in both directions and the predefined 2-d kernels give the same image bit for bit in IEEE f32: the exact padded correlation with the binomial weights; every channel stays within its range. More generally separable_filter with two kernels of dyadic entries and unseparable_filter with their outer product agree bit for bit whenever the sums fit in 24 bits.", "quantifier": "every image of integers up to 65536 in size, every size; all odd dyadic kernels", "why_tests_cant": "bit equality of two float computations with different association, for all images", "anchors": ["src/util/constants.rs:K_GAUSSIAN_BLUR_2D_3", "src/util/constants.rs:K_GAUSSIAN_BLUR_1D_3", "src/util/constants.rs:K_GAUSSIAN_BLUR_2D_5", "src/util/constants.rs:K_GAUSSIAN_BLUR_1D_5", "src/filter/mod.rs:separable_filter", "src/filter/mod.rs:unseparable_filter"]}
{"id": "C106", "title": "In f32, trips through linear RGB, XYZ or CIELAB lose at most one level per channel", "statement": "With IEEE f32 arithmetic and any powf that is accurate to a relative 2^-21, linearize_srgb_f32 is within 1.5e-6 of the exact curve; un-linearizing a linearized u8 image, converting it to XYZ and back, to CIELAB (either white) and back, brightness by 0 and contrast by 1 in CIELAB mode all return an image with the same header and alpha whose colour channels are each the same or exactly one level darker; levels up to 10 come back exactly from linearize/unlinearize.", "quantifier": "every well-formed u8 image with three colour channels (any number for linearize), both whites, every accurate powf", "why_tests_cant": "2^24 colours times every rounding error of every platform's powf", "anchors": ["src/colorspace.rs:linearize_srgb_f32", "src/colorspace.rs:unlinearize_srgb_f32", "src/colorspace.rs:srgb_to_xyz_f32", "src/colorspace.rs:xyz_to_srgb_f32", "src/colorspace.rs:srgb_to_lab_f32", "src/colorspace.rs:lab_to_srgb_f32", "src/tone.rs:brightness", "src/tone.rs:contrast"]}
{"id": "C107", "title": "f32 conversions between linear RGB, XYZ and CIELAB are accurate", "statement": "With IEEE f32 arithmetic, converting a linear RGB image with channels in [0,1] to XYZ and back changes no channel by more than 6e-6; converting an XYZ image with channels in [0,1.09] to CIELAB and back (either white, powf accurate to 2^-21) changes no channel by more than 1.5e-5; header and alpha are kept.", "quantifier": "every well-formed f32 image with three colour channels in the stated range, both whites, every accurate powf", "why_tests_cant": "all rounding errors on both sides of the branch points of the CIELAB functions", "anchors": ["src/colorspace.rs:srgb_lin_to_xyz_f32", "src/colorspace.rs:xyz_to_srgb_lin_f32", "src/colorspace.rs:xyz_to_lab_f32", "src/colorspace.rs:lab_to_xyz_f32", "src/util/math.rs:xyz_to_lab_fn", "src/util/math.rs:lab_to_xyz_fn"]}
{"id": "C108", "title": "f32 gamma correction rounds the exact curve", "statement": "With IEEE f32 arithmetic and powf accurate to 2^-21, gamma(img, g, max) with 0 < g <= 4 maps every colour byte 1 <= v <= max to a byte within 0.5003 of (v/max)^g * max, never above max, maps max to max, maps 0 to 0 if powf(0,g)=0, and keeps alpha.", "quantifier": "every well-formed u8 image, every finite g in (0,4], every max >= 1, every accurate powf", "why_tests_cant": "every exponent and every rounding of every platform's powf", "anchors": ["src/tone.rs:gamma"]}
{"id": "C109", "title": "The f32 filters are close to the exact padded correlation", "statement": "For every image and kernel of finite f32 numbers whose responses stay far below overflow, filter_1d, unseparable_filter and separable_filter return finite numbers that differ from the exact (rational) padded correlation by at most about (n + 1) / 2^23 of the correlation of the absolute values, n being the number of kernel entries, plus an underflow term; hence separable_filter with two kernels and unseparable_filter with their outer product agree up to that error.", "quantifier": "every f32 image of finite numbers, every odd kernel of finite numbers with fewer than 2^23 entries, image sizes below 2^31", "why_tests_cant": "the error depends on the order and the rounding of every partial sum; a test compares a few sums with a tolerance picked by hand", "anchors": ["src/filter/mod.rs:filter_1d", "src/filter/mod.rs:unseparable_filter", "src/filter/mod.rs:separable_filter", "src/util/mod.rs:apply_1d_kernel", "src/util/mod.rs:apply_2d_kernel"]}
{"id": "C110", "title": "The averaging filters in f32 stay inside the range of the window", "statement": "For every f32 image of finite numbers at most B in size, weighted_avg_filter and box_filter return, in every channel, a number between the minimum and the maximum of the window they average over, up to an explicit error of about size^2 * B / 2^23; in particular a constant image is preserved up to that error. The same holds for unseparable_filter with any non-negative kernel whose entries add up to about one.", "quantifier": "every f32 image of finite numbers, every odd size with size^2 < 2^23, every weight with a sum of weights up to 2^24", "why_tests_cant": "the rounding of the kernel entries and of the partial sums could push values out of range or drift for large kernels", "anchors": ["src/filter/mod.rs:weighted_avg_filter", "src/filter/mod.rs:box_filter", "src/filter/mod.rs:unseparable_filter"]}
{"id": "C111", "title": "Sobel and Prewitt in f32 are the gradient magnitude to f32 accuracy", "statement": "On every one-channel image of byte values, f32 sobel, prewitt and sobel_weighted (weight at most 9) return, at every pixel, a number within a relative error of 2^-23 of the real gradient magnitude sqrt(gx^2 + gy^2); it is 0 exactly when both differences are 0, and it is exact whenever the magnitude is an integer. The only assumption on the platform is that powf squares integers up to 4096 exactly.", "quantifier": "every one-channel image of bytes of any size below 2^31, every weight up to 9", "why_tests_cant": "all 3x3 neighbourhoods of bytes (2^72) and every border position", "anchors": ["src/filter/edge.rs:sobel", "src/filter/edge.rs:prewitt", "src/filter/edge.rs:sobel_weighted", "src/filter/edge.rs:derivative_mask"]}
{"id": "C112", "title": "Histogram equalization in f32", "statement": "In IEEE single precision, with a powf that is accurate to a relative error of 2^-21, histogram_equalization returns for every accepted alpha and precision an image of the same shape in which the CIELAB lightness of each pixel has been replaced by a value within 0.0002 of alpha*100*percentile + (1-alpha)*lightness and nothing else has been changed; the order of the lightnesses is kept exactly, rounding included; and alpha = 0 gives the image back with each channel at most one level darker, for every precision.", "quantifier": "all RGB and RGBA images with fewer than 2^30 pixels, both white points, all float alpha in [0,1] and all accepted precisions (order: precision up to 2^20)", "why_tests_cant": "Rounding errors of the percentile, the blend and the colour trip depend on every pixel of the image through the histogram; a test compares a few values with a tolerance and cannot show that no rounding anywhere swaps two lightnesses.", "anchors": ["src/tone.rs: histogram_equalization", "src/util/mod.rs: generate_histogram_percentiles", "src/colorspace.rs: srgb_to_lab_f32, lab_to_srgb_f32"]}
{"id": "C113", "title": "Bilinear scaling computes its blend in f32, without overshoot", "statement": "scale with Bilinear on an f32 image succeeds; each output value is the blend of the four source pixels around the f32 source position that the code's weights prescribe, with an absolute error of at most the largest absolute input value divided by 2^18. Hence no channel leaves the interval spanned by that channel of the input by more than that amount, and a constant image stays constant up to a relative 2^-18.", "quantifier": "every f32 image whose values are finite numbers up to 2^97, every pair of positive finite f32 factors for which the output sides are at most 2^22, both build profiles", "why_tests_cant": "the rounding of the f32 source position, of the weights and of the products differs at every pixel and factor; a test sees a few factors.", "anchors": ["src/transform.rs: scale, interpolate_bilinear"]}
{"id": "C114", "title": "Bicubic scaling computes the B-spline blend in f32, without overshoot", "statement": "scale with Bicubic on an f32 image succeeds; each output value is the sum of the 4 x 4 source pixels around the f32 source position (clamped to the image) weighted by the cubic B-spline of their distances, with an absolute error of at most the largest absolute input value divided by 2^10. Hence no channel leaves the interval spanned by that channel of the input by more than that amount, and a constant image stays constant up to a relative 2^-10.", "quantifier": "every f32 image whose values are finite numbers up to 2^96, every pair of positive finite f32 factors for which the output sides are at most 2^22, both build profiles, every platform powf that computes cubes to about four units in the last place", "why_tests_cant": "the weights are computed by differences of large cubes: the cancellation error depends on the fractional position, which differs at every pixel and factor", "anchors": ["src/transform.rs: scale, interpolate_bicubic", "src/util/math.rs: cubic_weighting_fn"]}
{"id": "C115", "title": "Lanczos scaling computes the windowed sinc sum in f32", "statement": "scale_lanczos of size A on an f32 image succeeds; each output value is the sum of the 2A x 2A source pixels around the f32 source position (clamped to the image) weighted by the mathematical Lanczos window sinc(pi d) sinc(pi d / A) in both directions, with an absolute error of at most 4A^2(8A^2+70)/2^24 times the largest absolute input value (2^-11 of it for scale, which is size 3). With factors 1 the image comes back up to that error.", "quantifier": "every f32 image whose values are finite numbers up to 2^80, every pair of positive finite f32 factors for which the output sides are at most 2^22, sizes 1 to 100, both build profiles, every platform sin accurate to about two units in the last place", "why_tests_cant": "the source position, the distance, the argument of the sine, both quotients and the 4A^2 products are rounded at every pixel and factor; the window ends exactly where rounding may move a tap in or out", "anchors": ["src/transform.rs: scale, scale_lanczos, interpolate_lanczos", "src/util/math.rs: lanczos_kernel, sinc_norm"]}
{"id": "C116", "title": "Gaussian and LoG kernels hold the mathematical weights in f32", "statement": "With a powf accurate to two units in the last place, every entry of generate_gaussian_kernel(size, sigma) is a non-negative number within (1 + d/2s^2)/2^20 (relative) of exp(-d/2s^2)/(2 pi s^2), d the squared distance from the centre; every entry of generate_log_kernel is a number that is not positive and within (1 + d/2s^2)/2^19 of -1/(pi s^4) (1 + d/2s^2) exp(-d/2s^2).", "quantifier": "every odd size up to 4095, every f32 sigma from 1/16 to 1000, every entry, every math library meeting the accuracy", "why_tests_cant": "roundings of the constants pi and e, of the exponent and of powf add up differently for every sigma and position; a test samples a few", "anchors": ["src/util/mod.rs:generate_gaussian_kernel", "src/util/mod.rs:generate_log_kernel"]}
{"id": "C117", "title": "Gaussian blur and Laplacian of Gaussian compute their weighted sums in f32", "statement": "gaussian_blur(img, n, sigma) returns, in every channel, a number within B ((n^2+24)/2^23 sum (1+d/2s^2) G + 2 n^2 delta) (plus underflow) of the padded correlation with the true Gaussian weights G, whichever branch linear_filter takes, delta being the accuracy of the singular value decomposition and B a bound of the image; laplacian_of_gaussian is within (n^2+33+32 d/2s^2)/2^23 of each term of its correlation, and turns every image of positive numbers negative. Because the kernel is not normalised, gaussian_blur makes a constant image at least 3% darker whenever size^2 <= 6 sigma^2 (size up to 181) and at least 9% brighter whenever 7 sigma^2 <= 1 (size up to 15), rounding included.", "quantifier": "every f32 image of numbers up to 2^50, every odd n with n^2 < 2^23, every sigma from 1/16 to 1000, every decomposition meeting the accuracy", "why_tests_cant": "rounding of kernel entries, products and sums depends on all inputs; the branch depends on an external decomposition", "anchors": ["src/filter/mod.rs:gaussian_blur", "src/filter/mod.rs:linear_filter", "src/filter/edge.rs:laplacian_of_gaussian"]}
{"id": "C118", "title": "Bilateral filter computes its weighted mean in f32", "statement": "With a powf accurate to two units in the last place, bilateral_filter converts the image to CIELAB numbers, and wherever the values of a channel in the window around a pixel are at most 8 range apart, the filtered channel is a finite number within D/2^13 + 3 (size^2+1) B/2^23 + 2^-40 of the mean weighted by the exact Gaussians of distance and of difference (D the spread, B the size of the values; the middle cell has weight 0), hence inside the interval spanned by the window up to that error; every entry of the spatial matrix is within (1 + d/2s^2)/2^20 (relative) of its Gaussian weight.", "quantifier": "every RGB or RGBA image, range and spatial from 1/16 to 1000, every odd window from 3 to 1023, every pixel and channel, every math library meeting the accuracy", "why_tests_cant": "roundings of the distances, of powf, of the products and of two sums of up to a million terms followed by a division; the weights depend on the image", "anchors": ["src/filter/bilateral.rs:bilateral_filter", "src/filter/bilateral.rs:bilateral_direct_pixel", "src/util/mod.rs:generate_spatial_mat", "src/util/math.rs:gaussian_fn", "src/util/math.rs:distance"]}
{"id": "C119", "title": "srgb_to_lab in f32 gives the CIELAB coordinates", "statement": "With a powf accurate to 2^-21, srgb_to_lab returns, for every pixel and both reference whites, a lightness within 0.003, an a within 0.026 and a b within 0.011 of the exact CIELAB coordinates of the pixel's bytes (published matrix, white point and CIE function; the library's transfer curve), and the alpha channel unchanged; the lightness is between -0.003 and 100.004, 0 for black and 100 for white up to 0.004, and the exact lightness never decreases when a channel increases.", "quantifier": "every RGB or RGBA image, every pixel (all 2^24 colours), both whites, every accurate math library", "why_tests_cant": "all colours, both sides of the branch point of the cube root, every rounding of every platform's powf", "anchors": ["src/colorspace.rs:srgb_to_lab", "src/colorspace.rs:xyz_to_lab_f32", "src/colorspace.rs:srgb_lin_to_xyz_f32", "src/util/math.rs:xyz_to_lab_fn"]}
{"id": "C120", "title": "In f32 the bilateral filter blackens isolated pixels (defect)", "statement": "If powf underflows to 0 and propagates NaN, then bilateral_filter turns black every pixel whose exact lightness differs from the lightness of each other pixel of its window by at least 16 range + 0.01, whatever its colour: all its weights are 0 (the middle one always is) and the mean is 0/0. A grey pixel of any level up to 128 on white, with range 1 and spatial 1/2, becomes black although all its neighbours are white; in exact arithmetic the result would lie between the values of the neighbours (C90).", "quantifier": "every RGB or RGBA image, every pixel, range and spatial from 1/16 to 1000, every odd window from 3 to 1023, every math library that underflows below e^-110", "why_tests_cant": "the defect depends on the distance between the pixel and all its neighbours compared with the range parameter; tests use smooth images", "anchors": ["src/filter/bilateral.rs:bilateral_filter", "src/filter/bilateral.rs:bilateral_direct_pixel", "src/util/mod.rs:generate_spatial_mat", "src/util/math.rs:gaussian_fn"]}
{"id": "C121", "title": "Linear filters obey superposition in f32 up to rounding", "statement": "If an f32 image h holds a times the numbers of f plus b times those of g, then filter_1d (both directions), separable_filter and unseparable_filter turn h into a times the filtered f plus b times the filtered g, up to (1+|a|+|b|) times an explicit rounding error proportional to kernel length, the sum of the absolute kernel entries and the size of the values.", "quantifier": "every three f32 images of finite numbers of one shape, every a and b, every odd kernel of finite numbers with at most 2^23 entries, every pixel and channel", "why_tests_cant": "f32 addition is neither associative nor distributive, so superposition is false exactly; a bound for the gap over all images and kernels cannot be sampled", "anchors": ["src/filter/mod.rs:filter_1d", "src/filter/mod.rs:separable_filter", "src/filter/mod.rs:unseparable_filter"]}
{"id": "C122", "title": "Shear in f32: exact size, positions within rounding, and when it panics", "statement": "shear(img, sx, sy) in IEEE f32 succeeds whenever neither H|sx| nor W|sy| lies within a relative 2^-22 (of the output side) below an integer: the output is W+floor(H|sx|) by H+floor(W|sy|), each pixel goes to a position that differs from the exact one by the truncation to a pixel and at most 2^-20 of the output side, and each output pixel is a copy of a pixel moved there or zero. For factors that are multiples of 2^-j with W 2^j + H|a| <= 2^24 every position is exact. The condition is needed: if H sx is rounded to 1 - 2^-24 the shear panics on every image of three or more columns.", "quantifier": "every well-formed f32 image up to 2^23 by 2^23, every finite pair of factors (growth up to 2^23), both build profiles", "why_tests_cant": "the position of every pixel is rounded three times; only factors whose product with the height lies just below an integer make the program panic, and a test would have to guess one", "anchors": ["src/transform.rs:shear", "src/util/math.rs:vector_mul_mut"]}
{"id": "C123", "title": "Summed-area tables of arbitrary f32 images are accurate", "statement": "If the absolute values of a channel of a finite f32 image add up to at most B, entry (x, y) of generate_summed_area_table differs from the exact sum over columns 0..=x and rows 0..=y by at most (x+1)(y+1) B/2^20, and rectangular_intensity_sum over x0..=x1, y0..=y1 from the exact rectangle sum by at most (4 (x1+1)(y1+1) + 2) B/2^20.", "quantifier": "every f32 image of finite numbers with at most 2^20 pixels (total up to 2^96), every entry, every rectangle", "why_tests_cant": "each entry adds three earlier entries, so rounding errors of all pixels above and to the left accumulate; a test checks a few small integer images, where nothing is rounded", "anchors": ["src/util/mod.rs:generate_summed_area_table", "src/util/mod.rs:rectangular_intensity_sum"]}
{"id": "C124", "title": "Rotation in f32 never fails and lands where it should", "statement": "rotate on 32-bit floats succeeds for every non-empty image (at most 2^22 columns plus rows, representable output size) and every angle for which the platform's sine and cosine are correctly rounded (or only: of magnitude at most 1 with |sin| + |cos| >= 1). The output has trunc(W |cos| + H |sin|) columns and trunc(H |cos| + W |sin|) rows up to a relative 2^-20; every input pixel goes to its exactly rotated position, truncated, up to the same error, always inside the output, and to the left neighbour; an output pixel is a copy of the last (row by row) of the input pixels moved there, or zero. If sine and cosine are multiples of 2^-k and the image has at most 2^(22-k) columns plus rows, sizes and positions are exactly the truncated ones.", "quantifier": "every image of f32 up to that size, every angle, both build profiles, any sine/cosine implementation with these properties", "why_tests_cant": "whether a computed coordinate reaches the width depends on several roundings of sin, cos and sums near integers; tests cannot visit all angles and sizes, and an off-by-one there is a panic", "anchors": ["src/transform.rs: rotate", "src/util/math.rs: vector_mul, max_4, min_4"]}
{"id": "C125", "title": "Accuracy of the float HSV conversions", "statement": "In IEEE single precision, rgb_to_hsv_f32 of every image with three colour channels gives, per pixel, a hue in [0, 1) within 2^-16 of the textbook hexcone hue, a saturation in [0, 1] within 2^-22 of the textbook saturation, a value in [0, 1] within 2^-24 of max/255, and alpha within 2^-24 of byte/255. hsv_to_rgb_f32 of every image that holds hues in [0, 1) and saturations and values in [0, 1] gives, per channel, the textbook colour scaled to 255 and truncated, where the accumulated rounding error before the truncation is at most 1/4000 of a step; alpha in [0, 1] is rounded to the nearest byte up to the same error.", "quantifier": "every image of bytes; every image of single-precision hues, saturations and values in range", "why_tests_cant": "all 2^24 byte colours forward and some 2^90 triples of floats back; a test samples a few and cannot bound the error of the rest", "anchors": ["src/colorspace.rs:rgb_to_hsv_f32", "src/colorspace.rs:hsv_to_rgb_f32"]}
{"id": "C126", "title": "Undoing the sRGB transfer function follows its curve, which drops at the threshold", "statement": "unlinearize_srgb_f32 maps a linear value x to the truncation to a byte of 3294.6x up to x = 0.0031308 and of 269.025x^(1/2.2)-14.025 above, exactly in real arithmetic and within 1/1000 of a level in f32 (given a pow accurate to rounding); alpha is rounded. The two branches do not meet: the curve increases on either side but falls from above 10.3 to below 5.6 at the threshold (never by more than 4.8), so brighter input can become a darker level: 0.0031 becomes 10 and 0.0032 becomes 5.", "quantifier": "every well-formed image, every channel value in [-2, 1.9], every pixel", "why_tests_cant": "the values are real numbers or 2^32 floats per channel, and monotonicity is a statement about pairs of them; the tests convert a few levels", "anchors": ["src/colorspace.rs:unlinearize_srgb_f32"]}
{"id": "C127", "title": "CIELAB back to sRGB, and brightness and contrast through CIELAB, compute the published formulas", "statement": "lab_to_srgb_f32 turns (l, a, b) into the truncated levels of the linear red, green and blue given by the inverse CIELAB function, the reference white and the published matrix: exactly in real arithmetic, and in f32 up to 3e-5 in linear light (a tenth of a level away from the threshold of the transfer curve). brightness_lab and contrast_lab give the levels of the colour with lightness l + 100 bias / 255 or l gain and the same a and b, up to 0.00145 m^2 + 2e-5 in linear light, where m bounds the arguments of the inverse function; alpha is kept. histogram_equalization gives the levels of the colour with lightness 100 alpha s + (1 - alpha) l (s the share of pixels and occupied bins that are not lighter) and the same a and b, up to 0.00146 m^2 + 2e-5. Because of the drop in the transfer curve, brightening a (10, 10, 10) pixel by 1 makes it darker: at most 6 in every channel.", "quantifier": "every well-formed image with three colour channels, both whites, every bias and gain in range, every pixel whose CIELAB arguments are in [-0.98, 1.19] and linear values at most 1.89", "why_tests_cant": "the inputs are triples of floats or 2^24 colours times 511 biases or 2^30 gains, and the claim is a uniform error bound against real arithmetic", "anchors": ["src/colorspace.rs:lab_to_srgb_f32", "src/util/math.rs:lab_to_xyz_fn", "src/tone.rs:brightness_lab", "src/tone.rs:contrast_lab"]}
{"id": "C128", "title": "Debug and release builds agree unless the debug build stops at an overflow", "statement": "For every public function of the library (image type, pixel access, map/apply/edit families, iterators, colour spaces, conversions, tone, transforms, filters, median and trimmed mean, morphology, histograms, kernels, tables) and every argument: either the build with overflow checks panics with an arithmetic overflow, or the optimised build returns exactly the same value, the same Err or the same panic. So a program tested in debug without an overflow panic behaves identically in release, on those inputs.", "quantifier": "all functions, all arguments, all channel types whose arithmetic differs between builds only by wrapping; for parallel versions all task orders; for user closures, all closures that agree in the same sense", "why_tests_cant": "tests run in one build profile on chosen inputs; the claim compares two builds on every input", "anchors": ["src/image/mod.rs: Image", "src/transform.rs:crop", "src/filter/mod.rs:linear_filter", "src/filter/median.rs:median_filter", "src/colorspace.rs:rgb_to_hsv", "src/tone.rs:brightness", "src/morphology.rs:erode", "src/util/mod.rs:generate_summed_area_table"]}
{"id": "C129", "title": "How calls end: which errors are returned, and no undefined behaviour without AVX2", "statement": "On a machine without AVX2 every public image operation, in both builds and on every argument (well-formed image or not), returns a value, panics, or returns Err(InvalidArgError): no other error kind is ever returned (a failing SVD panics) and no memory outside a buffer is touched. read never panics and returns an image, an I/O error or the unsupported-colour-type error; write never panics and returns Ok or one of these or the image-write error.", "quantifier": "all functions, all arguments (also malformed images), both build profiles, every task order of the parallel versions, every SVD, binary search and codec, every closure that itself ends this way", "why_tests_cant": "a caller that matches on error kinds relies on the absence of all others on every input; tests only show the errors they provoke", "anchors": ["src/error/mod.rs:ImgProcError", "src/error/messages.rs:check_odd", "src/io/mod.rs:read", "src/io/mod.rs:write", "src/simd.rs:adds_256_u8"]}
{"id": "C130", "title": "Filtering an image tile by tile gives the same pixels as filtering it whole", "statement": "Take any rectangle of an image (as crop cuts it) and run a neighbourhood operation on the rectangle and on the whole image. At every position of the rectangle that is at least the operation's radius away from the seams (the sides of the rectangle that are not sides of the image) the two results are equal bit for bit, and the results keep the shapes of their inputs. The radius is half the kernel side for filter_1d, separable_filter, unseparable_filter, linear_filter, gaussian_blur, weighted_avg_filter, laplacian_of_gaussian and bilateral_filter; 1 for sharpen, laplacian, sobel, prewitt and sobel_weighted; 2 for unsharp_masking; 0 for threshold; size*size/2 for box_filter (its kernel is size*size long); r for erode, dilate and majority. Margins add up when operations are chained, a tile of a tile is a tile, and two overlapping tiles stitched at the middle of their overlap give back the whole result.", "quantifier": "every image, every rectangle of it, every kernel and parameter in the documented range, every position away from the seams", "why_tests_cant": "unit tests compare a few crops; equality of every bit at every position of every crop is a statement about all images and all rectangles", "anchors": ["src/transform.rs:crop", "src/filter/mod.rs:filter_1d", "src/filter/mod.rs:separable_filter", "src/filter/mod.rs:unseparable_filter", "src/filter/bilateral.rs:bilateral_filter", "src/morphology.rs:erode", "src/morphology.rs:dilate"]}
{"id": "C131", "title": "Every image a user holds is consistent, after any history of calls", "statement": "Start from images built with Image::from_vec / from_slice with a buffer of the right length, or with Image::blank, and make any number of library calls in any order (pixel writes, maps and edits with arbitrary closures, conversions, colour spaces, tone, filters, median, morphology, transforms; with or without AVX2 and rayon, under any schedule; in debug or release builds). Every image returned has a buffer of exactly width * height * channels elements, sizes that fit the machine integers, and every pixel inside it can be read and has one value per channel. crop and scale return exactly the size asked for or do not return. The only exceptions are shear, rotate and the rayon versions of crop and scale in a release build when the output size overflows u32: they can return an image whose header and buffer disagree (counterexamples for shear and crop), so there the result has to fit.", "quantifier": "every history of calls of any length and order, all arguments and closures (map_pixels closures return a fixed number of values), both build profiles, any libm, SVD and binary-search behaviour", "why_tests_cant": "tests call one function on one image; an inconsistent image shows up only in a later call", "anchors": ["src/image/mod.rs: Image", "src/transform.rs: crop, scale, shear, rotate", "src/filter/mod.rs", "src/colorspace.rs", "src/tone.rs", "src/morphology.rs"]}
{"id": "C132", "title": "Geometric operations only move channel values", "statement": "crop, overlay, translate, reflect, shear, rotate and nearest-neighbour scaling (and the rayon versions of crop and scaling) never compute with channel values. For every relation between channel values that relates zero to zero (changed by g, not brighter than, within a tolerance of, ...), applied to two images whose values are related they give images whose values are related, and they fail on one exactly as they fail on the other. Hence they commute with every map_channels that keeps zero, also across channel types, every value of their result is a value of the input or zero, and whether and how they fail does not depend on the values.", "quantifier": "every image (well formed or not), relation or map, argument of the operation, schedule and build profile", "why_tests_cant": "the claim is about all images, all maps and all pairs of images at once", "anchors": ["src/transform.rs:crop, overlay, translate, reflect, shear, rotate, scale", "src/image/mod.rs:get_pixel, set_pixel, map_channels"]}
{"id": "C133", "title": "Brightening an image never darkens its filtered version (linear filters; the median filter violates it)", "statement": "For every relation between channel values that relates zero to zero and survives weighted sums with the weights of the kernel, filter_1d, separable_filter and unseparable_filter (sequential, and rayon under every schedule) take images with related values to images with related values, and end on one exactly as on the other. In particular in f32, with no negative weight, and for box_filter and weighted_avg_filter of every size and weight: if no value of the second image is below the value at the same place of the first, then no value of the second result is below that of the first, rounding, overflow, infinities and NaNs included. The same holds for bilinear scaling (sequential and rayon) with every positive factor, for sides up to 2^24 and enlarged sides up to 2^22. The median filter of this library does not have this property: there are two images, the second obtained by brightening two values of the first, where the filtered value falls from 1 to 0.", "quantifier": "all pairs of images of the same header with related values, kernels with weights that are not negative, sizes, schedules, profiles", "why_tests_cant": "The claim compares two runs on arbitrary pairs of images under floating-point rounding; no set of examples establishes monotonicity.", "anchors": ["src/filter/mod.rs:filter_1d", "src/filter/mod.rs:separable_filter", "src/filter/mod.rs:unseparable_filter", "src/filter/mod.rs:box_filter", "src/filter/mod.rs:weighted_avg_filter", "src/transform.rs:scale", "src/filter/median.rs:median_filter"]}
{"id": "C134", "title": "Filters and scaling treat an image and its negative alike", "statement": "In f32, for every kernel, size and factor, filter_1d, separable_filter, unseparable_filter, linear_filter, box_filter, weighted_avg_filter, gaussian_blur, sharpen, unsharp_masking, laplacian, laplacian_of_gaussian and scale with every method (sequential, and the rayon versions under every schedule) give on the negative of an image exactly the negative of what they give on the image (the two zeros not told apart): rounding, overflow, infinities and NaNs included, and they end alike. Hence sobel, sobel_weighted and prewitt return the very same image for both, on every platform whose powf gives a number and its opposite the same square: no edge is seen only in one direction.", "quantifier": "all images (values may be NaN or infinite), kernels, sizes, factors, methods, schedules, profiles", "why_tests_cant": "An exact identity between two floating-point computations on all images; a test sees the identity on the images it tries.", "anchors": ["src/filter/mod.rs:filter_1d", "src/filter/mod.rs:separable_filter", "src/filter/mod.rs:unseparable_filter", "src/filter/mod.rs:linear_filter", "src/filter/edge.rs:derivative_mask", "src/filter/edge.rs:sobel", "src/transform.rs:scale", "src/transform.rs:scale_lanczos"]}
{"id": "C135", "title": "Nearest-neighbour shrinking by a power of two undoes enlarging (violated by other factors)", "statement": "Scaling down by factors that are exactly 1/s and 1/t in f32 (s, t powers of two that divide the sides) returns, without panic, the last column and row of every s x t block, and undoes scaling up by s and t: the original image comes back, bit for bit. With other factors the rounded quotient can pass the edge of the image: shrinking 61 columns to 1 with the factor 1.0/61.0, or 22 columns to 13 with 13.0/22.0, panics although the output size is computed as 1 and 13.", "quantifier": "all images with sides up to 2^24, all exact factors, profiles", "why_tests_cant": "The source column depends on the rounding of (x + 1) / factor at every size; it goes wrong only at scattered sizes (41, 61, 82, ...) that tests do not try.", "anchors": ["src/transform.rs:scale", "src/transform.rs:interpolate_nearest_neighbor"]}
{"id": "C136", "title": "Operations treat rows and columns alike", "statement": "Let a be an image and b the same image with rows and columns exchanged. Then cropping, translating, overlaying, mirroring, enlarging by whole numbers (nearest neighbour), bilinear, bicubic and Lanczos scaling and shearing in one direction, applied to b with the two directions of the arguments exchanged, return the transpose of what they return on a; linear filters do so with the transposed kernel (separable filters with the two kernels exchanged), so that the averaging, sharpening, Laplacian, Sobel and Prewitt filters, which have no preferred direction, simply commute with transposing; so do the morphology operations, the colour conversions, the tone operations, thresholding, histogram equalization and the summed area table. The median filter does not: with radius 0 it turns the column 5, 3 into 5, 5 but leaves the row 5, 3 alone.", "quantifier": "every image and its transpose, of every size and content, every argument within the documented ranges, both build profiles; exact arithmetic for scaling, shearing, linear filters and equalization, IEEE f32 for the rest", "why_tests_cant": "the claim relates two calls on two images of unbounded size", "anchors": ["src/transform.rs: crop, translate, overlay, reflect, scale, scale_lanczos, shear", "src/filter/mod.rs: unseparable_filter, separable_filter, box_filter, weighted_avg_filter, sharpen, unsharp_masking, threshold", "src/filter/edge.rs: derivative_mask, laplacian", "src/filter/median.rs: median_filter", "src/morphology.rs: erode, dilate, morph_open, morph_close", "src/tone.rs: histogram_equalization, brightness, contrast, gamma"]}
{"id": "C137", "title": "Colour and tone operations do not look at positions", "statement": "Rearranging the pixels of an image in any way, also into an image of another width and height, and then applying a colour or tone operation gives the same as applying the operation first and rearranging the result in the same way: brightness, contrast, gamma, saturation, HSV conversion in both directions, brightness and contrast through CIELAB, grayscale conversion, thresholding, linearization, and histogram equalization, which depends on the other pixels only through how many of them have each lightness.", "quantifier": "every image, every one-to-one rearrangement of its pixels into an image of any shape, every argument within the documented ranges, both build profiles; exact arithmetic for histogram equalization, IEEE f32 or any arithmetic for the rest", "why_tests_cant": "there are unboundedly many rearrangements of unboundedly large images", "anchors": ["src/tone.rs: brightness, contrast, gamma, saturation, brightness_lab, contrast_lab, histogram_equalization", "src/colorspace.rs: rgb_to_grayscale, rgb_to_hsv, hsv_to_rgb, linearize_srgb", "src/filter/mod.rs: threshold", "src/image/mod.rs: Image::map_pixels, Image::map_channels"]}
{"id": "C138", "title": "Enlarging and mirroring go well with cutting and pasting", "statement": "Enlarging by whole numbers with the nearest neighbour (in f32, outputs that fit) commutes with the operations that move pixels: cropping the enlarged image at the enlarged place is enlarging the crop, translating it by the enlarged offset is enlarging the translated image, mirroring it is enlarging the mirror image, and overlaying two enlarged images is enlarging the overlay; none of these panics. Mirroring a crop is cropping the mirror image at the mirrored place, and mirroring a paste that fits is pasting the mirrored images at the mirrored place, bit for bit, for every pixel type.", "quantifier": "every image, whole factor up to 2^24, offset and rectangle inside the image, both axes; both build profiles", "why_tests_cant": "each law relates two compositions of operations on every image, factor and offset; a test compares a few pictures", "anchors": ["src/transform.rs: scale, nearest_neighbor, crop, translate, overlay, reflect"]}
{"id": "C139", "title": "Operations treat the channels one by one and alike", "statement": "Picking channels of an image (splitting it into planes, reordering or repeating channels) and then operating gives the same as operating first and picking the same channels of the result: cropping, translating, mirroring, overlaying, nearest-neighbour enlarging, bilinear, bicubic and Lanczos scaling, shearing in one direction, filter_1d, separable and unseparable filters, sharpening and the Laplacian (bit for bit in f32) and the median filter do so for every selection of channels, brightness, contrast, gamma and linearization for every selection that leaves alpha in its place. The scalar grayscale value does not depend on the order of the colour channels.", "quantifier": "every image, every selection of at most as many channels as the image has, all arguments for which the operation is defined; both build profiles", "why_tests_cant": "the law quantifies over all selections of channels and all images; tests use one or three channels in fixed order", "anchors": ["src/transform.rs", "src/filter/mod.rs", "src/filter/median.rs", "src/tone.rs", "src/colorspace.rs", "src/util/mod.rs: apply_2d_kernel, apply_1d_kernel"]}
{"id": "C140", "title": "Filtering a byte image, end to end", "statement": "Converting a byte image to f32, filtering and converting back gives, byte for byte: for the predefined Gaussian blurs of size 3 and 5 (2-d or separable), sharpen, laplacian, unsharp_masking and every integer kernel, the exact weighted sum of the padded input bytes rounded to the nearest byte (ties up) and saturated; for an arbitrary kernel, that sum to within one half plus an explicit f32 error; for weighted_avg_filter (size up to 89), box_filter (size up to 51), bilinear and bicubic scaling, a byte between the smallest and largest byte averaged; for Lanczos scaling by 1, the image itself; for gaussian_blur, the sum weighted with the true Gaussian to within one half plus an explicit f32 error; for laplacian_of_gaussian of an image without zero bytes, black; for sobel, prewitt and sobel_weighted, the integer nearest to the exact gradient magnitude, saturated; for threshold with byte parameters, exactly the documented table.", "quantifier": "all well-formed byte images of any size (within the index range), kernels, sizes, weights, scale factors, thresholds, both build profiles", "why_tests_cant": "what the user sees is the composition of conversion, f32 rounding in every step and the final rounding and saturation; only a proof about rounding excludes a single byte off by one", "anchors": ["src/image/from_impl.rs: From<Image<u8>>, From<Image<f32>>", "src/filter/mod.rs: separable_filter, unseparable_filter, box_filter, weighted_avg_filter, threshold", "src/filter/edge.rs: sobel, prewitt, laplacian", "src/transform.rs: scale"]}
{"id": "C141", "title": "Edges and blurs of byte images under brightness changes", "statement": "For two byte images whose bytes differ by a uniform change that does not saturate (as brightness makes it): sobel, prewitt, sobel_weighted and laplacian give the very same byte image after a change b + k, and sobel, prewitt and sobel_weighted also after the negation 255 - b; the predefined Gaussian blurs of size 3 and 5 give images that differ by exactly k; an integer kernel with sum S gives exact values that differ by S * k before rounding.", "quantifier": "all pairs of byte images of any size related by a uniform unsaturated change, all k, both build profiles", "why_tests_cant": "relates two runs on inputs of any size through float arithmetic; holds byte for byte only because no rounding error reaches a byte", "anchors": ["src/filter/edge.rs: sobel, prewitt, sobel_weighted, laplacian", "src/filter/mod.rs: unseparable_filter, separable_filter", "src/tone.rs: brightness", "src/util/constants.rs: K_GAUSSIAN_BLUR_2D_3, K_GAUSSIAN_BLUR_1D_5"]}
{"id": "C142", "title": "Mean filters of byte images are exact", "statement": "Converting a byte image to floats, applying weighted_avg_filter (size up to 11 at weight 1; in general while (size\u00b2 - 1 + weight)(size\u00b2 + 3) is at most 16000) or box_filter of size 3 and converting back gives, in every channel, the exact weighted mean of the padded window, rounded to the nearest byte: no rounding error of the f32 arithmetic is ever visible. The total weight being odd, ties cannot occur. These means commute exactly with a brightness change that does not saturate, and they (and the predefined Gaussian blurs) are monotone: if no byte gets darker, no byte of the result does. box_filter of size 3 and weighted_avg_filter of size 9 and weight 1 return the same image, and so do the 2-d and the separable form of each predefined Gaussian.", "quantifier": "every byte image, every profile, every odd size and every weight within the bound, every pair of images ordered pointwise or differing by a brightness change", "why_tests_cant": "the claim is about every one of the 256^(w*h*c) images and the accumulated rounding of up to 121 products; a test sees single images and cannot exclude a window whose sum lands next to a rounding boundary", "anchors": ["src/filter/mod.rs: weighted_avg_filter, box_filter, unseparable_filter, separable_filter", "src/image/from_impl.rs: From<Image<u8>>, From<Image<f32>>"]}
{"id": "C143", "title": "Enlarging a byte image bilinearly by whole numbers", "statement": "Enlarging a byte image bilinearly by whole factors kx and ky (convert to f32, scale, convert back) gives an image kx times as wide and ky times as high, in which every byte is the exact rational blend of the four bytes around its position, rounded to the nearest byte, as long as kx*ky*(width + height + 66)*510 is below 2^24: the rounded positions and weights never show in a byte, and when kx*ky is odd the byte is determined. (The code gives the fractional part of the position as weight to the left and upper pixel, see C68; the blend is stated as computed.)", "quantifier": "every byte image, pair of whole factors and size within the bound, both build profiles", "why_tests_cant": "the claim excludes a wrong byte for every image and every output position; f32 positions such as x / 3 are not exact, so only an error analysis can show that the rounded byte is the exact one", "anchors": ["src/transform.rs: scale, interpolate_bilinear", "src/image/from_impl.rs: From<Image<u8>>, From<Image<f32>>"]}
{"id": "C144", "title": "Float and byte grayscale of a byte image", "statement": "Converting a byte image with up to 255 colour channels to f32, to grayscale with rgb_to_grayscale_f32 and back gives, for every pixel, the exact mean of the colour bytes rounded to the nearest byte (a tie goes up), followed by the unchanged alpha byte. The scalar byte version rgb_to_grayscale truncates the same mean: the two results are equal where the fractional part of the mean is below one half and differ by exactly one elsewhere, and agree on alpha.", "quantifier": "every non-empty byte image with at least one colour channel (at most 255, for the comparison 128), both build profiles", "why_tests_cant": "256^3 pixels per RGB image position and all channel counts; the claim rests on the f32 division never rounding across a half", "anchors": ["src/colorspace.rs: rgb_to_grayscale, rgb_to_grayscale_f32", "src/image/from_impl.rs: From<Image<u8>>, From<Image<f32>>"]}
