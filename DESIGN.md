# Formal model of imgproc-rs in Lean 4 — design

## 1. Layout

```
lean/Verif/Core/     Rust semantics used by the model: outcomes, machine integers, loops, floats (IEEE-754)
lean/Verif/Model/    one file per Rust source file; every definition cites file:lines of /repo
lean/Verif/Spec/     small specifications, independent of the model's helpers
lean/Verif/Proofs/   helper lemmas (never cited as properties)
lean/Verif/Props/    the property theorems C01.. with a non-vacuity `example` beside each
```

`properties.jsonl` is generated from `tools/props.py`; `MANIFEST.json` from `tools/manifest.py`.

## 2. How Rust is modelled

* **Outcomes.** A Rust function is a total Lean function into `Res α = Except Fault α`.
  `Fault.panic k` is a panic, `Fault.err e` is an `Err(ImgProcError..)` return value,
  `Fault.ub` is undefined behaviour (an out-of-bounds raw load/store in `src/simd.rs`).
  `?` is monadic bind; `.unwrap()` turns `err` into `panic`.
* **Build profiles.** Arithmetic on u32/usize/i32/i16/u8 takes a `Profile`: `debug` (overflow
  panics) or `release` (overflow wraps). Theorems quantify over both unless they name one.
* **Integers.** u32/usize/i32 are `Nat`/`Int` with explicit range checks in each operation; u8
  channel data is `UInt8`. `as` casts are modelled exactly (wrapping int casts, saturating
  float-to-int casts). usize is 64 bit.
* **Images.** `Image T` = info + `List T`. Slices are `take/drop` with bounds checks that panic.
* **Loops.** `for i in a..b` is `forRange`, a structural recursion; `while` loops get fuel that is
  proved sufficient.
* **Floats.** Model functions using f32 are generic in a class `FloatOps F` that lists the
  operations used (`+ - * /`, comparisons, `round`, `floor`, `sqrt`, casts, `powf`, `sin_cos`..).
  Three uses:
  1. *Any* interpretation (no laws assumed): structural facts — shapes, alpha, panics, parallel =
     sequential, exact formula per pixel.
  2. `F32 L`: a computable IEEE-754 binary32 (round-to-nearest-even, subnormals, infinities, NaN,
     signed zero, correctly rounded sqrt), with transcendental functions supplied by an arbitrary
     record `L : Libm`. Facts about rounding, exactness and casts are proved here.
  3. `ℝ` (ideal arithmetic), for algebraic identities that hold only up to rounding; such
     theorems are named `_partial`.
* **rayon.** `into_par_iter().map(f).collect()` is modelled as executing the n independent tasks in
  an arbitrary order (any permutation), each writing its own slot.
* **AVX2.** A 256-bit register is 32 bytes; intrinsics are byte-level functions; raw loads/stores
  carry explicit bounds and yield `Fault.ub` outside the buffer.

## 3. Not modelled

* Contents of error/panic messages; `Display`; `Debug`; performance; allocation failure;
  `Vec::with_capacity` hints (only their overflow checks).
* rulinalg's SVD (a parameter with an assumed contract), the `image` crate's codecs and the file
  system (parameters with an assumed contract), libm transcendental functions (arbitrary parameter).
* Thread interleavings inside rayon other than task order (tasks are pure; data-race freedom is
  Rust's guarantee).

## 4. Plan per property

See section 6 (kept current as theorems land). In the plan, "generic" = for every float
interpretation, "IEEE" = bit-accurate binary32 model, "ideal" = over ℝ (partial).

| Property | Model | Proof |
|---|---|---|
| C01–C08, C13 | `Model/Image`, `Model/Pixel` | list algebra on one buffer; induction over histories |
| C09–C10 | `Model/PixelIter` | state invariant of `next`; size_hint contract is violated: counterexample + partial |
| C11–C12 | `Model/Image`, `Model/SubImage` | loops; both documented behaviours are violated: exact behaviour + counterexample + partial |
| C14–C18 | `Model/Convert` | IEEE exactness / error bounds |
| C19–C28 | `Model/Tone`, `Model/Simd` | generic + IEEE; AVX2 paths byte-level; several violations (tail bytes, over-run) shown |
| C29–C37 | `Model/Colorspace` | integer arithmetic, IEEE table checks over all 256 values, ideal inverse for LAB |
| C38–C46 | `Model/Util`, `Model/Math` | loop invariants; IEEE exactness for integers |
| C47–C59 | `Model/Filter`, `Model/Edge`, `Model/Median`, `Model/Bilateral` | fill-loop lemma; histogram invariant; permutation argument for schedules |
| C60–C71 | `Model/Transform` | fill-loop lemma, IEEE coordinates; several violations shown |
| C72–C76 | `Model/Morphology` | summed-area theorem + window analysis |
| C77 | `Model/Io` | contract-level: codec and file system are parameters |
| C78 | `Model/Util` | loop invariant |

Every property can be expressed; none is declared not applicable. Where the code violates the
property, the negation is proved on a concrete witness and the largest true part is kept as a
`_partial` theorem.

## 5. Trusted base

* **Kernel and axioms.** Lean 4.33 kernel; axioms at most `propext`, `Classical.choice`, `Quot.sound`
  (`tools/axioms.sh` lists the axioms of every manifest theorem; the result is in section 6). No
  `native_decide`, `bv_decide`, own axioms.
* **Reading of the source.** The translation of the Rust source and of std semantics into `Core/` and
  `Model/` is by hand. `Core/IEEE` (binary32/binary64 add, sub, mul, div, sqrt, comparisons, rounding to
  integer, casts) was compared with hardware arithmetic on 300 random operand pairs for each of 8
  operations without a mismatch (bit patterns, subnormals and infinities included); that is a sanity
  test, the definitions themselves are trusted.
* **Assumptions that appear as hypotheses** (never as axioms), each visible in the theorem statement:
  * libm functions (`powf`, `sin`, `cos`, `exp`…) are an arbitrary record `Libm`. Where a claim needs a
    fact about one of them it is a hypothesis: `powf(x,1)=x` (`c23_gamma_one`), `powf(0,2)=0`
    (`c54_constant_zero`), `powf(e,0)=1` (`c44_centre_counterexample`). C106–C108 assume
    `PowAccurate`: `powf` has relative error at most 2^-21 for bases in [2^-20, 2] and exponents in (0, 4]
    (`accurateLibm_spec` proves that such a libm exists: the correctly rounded one). C111 assumes `SquareExact`:
    `powf(n, 2.0)` is exact for integers up to 4096 in size (`squareLibm_spec`: a multiplication does it).
  * rulinalg's SVD is a parameter; C46 assumes only that what it returns is a decomposition (`IsSvd`).
  * the codec of the `image` crate is a parameter; C77 assumes `Lossless` for the path and layout.
  * std's `binary_search` is an oracle (`BinSearch`) in C58: std leaves its answer among equal elements
    (and on unsorted input) open, so the theorems hold for every answer; `c58_alpha_two_partial` assumes the documented contract
    on sorted slices (`BinSearch.Spec`), which `stdBin_spec` proves of the algorithm in std's source.
  * images are well formed (`Image.WF`: buffer length = width·height·channels, sizes fit u32/u8), which
    is what the constructors produce from matching data (C04).
* **Exact arithmetic.** Claims about algebra that IEEE rounding breaks are proved for the instance
  `FloatOps ℝ` (module `Core/Ideal`): the same model code, run on real numbers. Such theorems say
  "exact arithmetic" in their docstring; they are not claims about the f32 result.

## 6. Results per property

Generated by `tools/results.py` from the theorems' docstrings. Axioms: p = propext, c = Classical.choice,
q = Quot.sound (all theorems were listed with `Lean.collectAxioms`; no other axiom occurs).

### C01 Pixel writes behave like a map from coordinates to pixels — proved

* `c01_writes_are_a_map` (Image; axioms pcq): After any in-range history of pixel writes, `get_pixel` returns the last value written to that coordinate, else the original pixel; the header never changes.

### C02 Checked pixel access panics exactly when documented — proved

* `c02_get_pixel` (Image; axioms pcq): `get_pixel` returns iff the coordinate is inside, and otherwise panics.
* `c02_get_pixel_mut` (Image; axioms pcq): the same for `get_pixel_mut`.
* `c02_set_pixel` (Image; axioms pcq): `set_pixel` returns iff the coordinate is inside and the slice length is exactly the channel count; otherwise it panics (for every slice length, in both profiles).

### C03 1-D and 2-D addressing agree and stay inside the buffer — proved

* `c03_addressing_agrees` (Image; axioms pq): All addressing functions give the same slice of `data()`.
* `c03_disjoint` (Image; axioms pq): Distinct coordinates own disjoint index ranges, all inside the buffer.
* `c03_tiles` (Image; axioms pcq): The pixel slices, read in row-major order, are exactly `data()`.

### C04 Constructors lay pixels out row by row — proved

* `c04_from_vec` (Image; axioms pq): `from_slice` and `from_vec`.
* `c04_from_vec_of` (Image; axioms pq): `from_vec_of_vec` and `from_vec_of_slice`: pixel `(x, y)` is the `(y*w+x)`-th group of the concatenation, however the parts are cut.
* `c04_from_pixels` (Image; axioms pcq): In particular, a vector of `w*h` pixel slices of `c` values places slice `y*w+x` at `(x, y)`.
* `c04_blank` (Image; axioms pq): `blank` is all zeros; in overflow-checked builds it panics exactly when the size product does not fit u32.
* `c04_blank_overflow` (Image; axioms pq): (overflow) In debug builds `blank` panics when the number of pixels or of channel values does not fit in 32 bits.

### C05 map_channels / map_channels_if_alpha act pointwise and respect alpha — proved

* `c05_map_channels` (Image; axioms pcq): `map_channels f` applies `f` to every channel and keeps the header.
* `c05_map_channels_if_alpha` (Image; axioms pcq): `map_channels_if_alpha f g` on an image with alpha: `g` on the last channel, `f` on the others; without alpha it is `map_channels f`.

### C06 map_pixels / map_pixels_if_alpha act pixelwise and infer the channel count — proved

* `c06_map_pixels` (Image; axioms pcq): `map_pixels`.
* `c06_map_pixels_if_alpha` (Image; axioms pcq): `map_pixels_if_alpha` on an image with alpha: the closure sees the colour part.
* `c06_map_pixels_if_no_alpha` (Image; axioms p): without alpha, `map_pixels_if_alpha` is `map_pixels`.
* `c06_zero_size_panics` (Image; axioms p): an image without pixels makes both panic.

### C07 In-place apply_* agrees with the copying map_* — proved

* `c07_apply_pixels` (Image; axioms pcq): `apply_pixels` = `map_pixels`.
* `c07_apply_pixels_if_alpha` (Image; axioms pcq): `apply_pixels_if_alpha` = `map_pixels_if_alpha`.
* `c07_apply_channels` (Image; axioms pcq): `apply_channels` = `map_channels`.
* `c07_apply_channels_if_alpha` (Image; axioms pcq): `apply_channels_if_alpha` = `map_channels_if_alpha`.

### C08 edit_channel changes exactly the selected channel — proved

* `c08_edit_channel` (Image; axioms pcq): `edit_channel f k` replaces channel `k` of every pixel by `f` of it and changes nothing else.

### C09 The pixel iterator visits every pixel exactly once, in row-major order, and then stays exhausted — proved

* `c09_iterator` (Image; axioms pq): The first `n` calls of `next` (any `n`) return, in order, the pixels `(i mod w, i div w)` with their `get_pixel` value for `i < w*h`, and `None` from then on.

### C10 The pixel iterator's size_hint brackets the number of remaining items — partial
Violated by the code: size_hint is constant, so the std contract holds exactly at position 0; counterexample c10_violated.

* `c10_size_hint_partial` (Image; axioms pq): (violated by the code) The hint is the total pixel count at every position, so the contract holds exactly before the first `next` (`k = 0`): this is the part that is true. Missing for the full property: positions `k ≥ 1`, where the lower bound is too large.
* `c10_violated` (Image; axioms pq): counterexample: a 1×1 image after one `next` has nothing left but promises one item.

### C11 Sub-images show the selected rectangle — partial
Violated by the code: get_subimage stores columns but reads rows (c11_exact, c11_violated); true part: rectangles with a side of 1.

* `c11_exact` (SubImage; axioms pcq): what the code does for every rectangle inside the image: the pixels are stored column by column but read row by row, so entry `(i, j)` is the `(j*w+i)`-th pixel in column-major order.
* `c11_subimage_partial` (SubImage; axioms pcq): The documented behaviour holds for rectangles one pixel wide or one pixel high. Missing: rectangles with both sides at least 2, where the code transposes (see `c11_violated`).
* `c11_violated` (SubImage; axioms p): counterexample: on a 2×2 image the full rectangle comes back transposed.

### C12 Neighborhoods use clamp padding — partial
Violated by the code for windows larger than 3 at the border: out-of-range coordinates are replaced by the centre, not the edge (c12_exact_2d, c12_violated).

* `c12_exact_2d` (SubImage; axioms pcq): what the code does for every size: entry at offset `o` from the centre coordinate `c` reads coordinate `o` if that lies inside the image and otherwise the centre coordinate `c` itself.
* `c12_neighborhood_partial` (SubImage; axioms pcq): Clamp padding holds for neighborhoods of size at most 3 and for windows that do not leave the image. Missing: larger windows at the border (see `c12_violated`), and coordinates so large that i32 arithmetic overflows (width + size > 2^31).
* `c12_violated` (SubImage; axioms p): counterexample: in a row 10 20 30, the size-5 window at x = 1 reads its first and last entries from the centre (20) instead of the edges (10 and 30).

### C13 Pixel slice helpers — proved

* `c13_pixel_helpers` (Image; axioms pq): `alpha`, `channels_without_alpha` and the maps on a non-empty slice.
* `c13_apply_eq_map` (Image; axioms pq): in-place `apply`/`apply_alpha` agree with `map_all`/`map_alpha` on every slice.
* `c13_is_black` (Image; axioms pq): blackness tests (for any channel type, `==` against `0.into()`).
* `c13_empty_panics` (Image; axioms pq): on an empty slice every alpha-based helper panics.
* `c13_apply_alpha_empty_release` (Image; axioms pq): `apply_alpha` on an empty slice panics in release builds too (the wrapped loop bound `0 - 1` makes the first element access fail).

### C14 u8 images survive a round trip through f32 or f64 — proved

* `c14_f32_round_trip` (Convert; axioms pcq): A u8 image converted to f32 (or f64) holds exactly its channel values, and converting back returns the original image.
* `c14_f64_round_trip` (Convert; axioms pcq): through f64

### C15 Float to u8 conversion rounds and saturates — proved

* `c15_f32_to_u8` (Convert; axioms pcq): `Image<u8>::from(Image<f32>)` never fails, keeps the header and maps every channel as specified: nearest byte with halves up, saturating, NaN to 0.
* `c15_f64_to_u8` (Convert; axioms pcq): for f64
* `c15_spec_unique` (Convert; axioms pcq): (uniqueness) the specification determines the byte, so it is a full description
* `c15_monotone` (Convert; axioms pcq): the conversion is monotone: `x <= y` (float comparison) implies the bytes are ordered.

### C16 u8 <-> scaled f32 conversion round trip — proved

* `c16_scale_round_trip` (Convert; axioms pcq): Converting a u8 image to f32 in the range 0..scale and back returns the image, for every scale from 1 to u32::MAX, rounding included.

### C17 scale_channels maps the endpoints of the source range onto the endpoints of the target range — proved

* `c17_min_to_min` (Convert; axioms pcq): (lower end, IEEE) a channel equal to `current_min` becomes `scaled_min`.
* `c17_max_to_max` (Convert; axioms pcq): (upper end, IEEE) a channel equal to `current_max` becomes the float `(scaled_max - scaled_min) + scaled_min`, which is `scaled_max` exactly when `scaled_min = 0`.
* `c17_scale_channels` (Convert; axioms pcq): (image level) `scale_channels` applies the expression to every channel, keeps the header and never fails; with `c17_min_to_min` / `c17_max_to_max` this gives the endpoint claims.
* `c17_affine_exact` (Convert; axioms pcq): (exact arithmetic) the channel map is the affine bijection of `[cmin, cmax]` onto `[smin, smax]`: affine, endpoints to endpoints, and undone by the call with the ranges swapped.

### C18 Integer images convert to f64 exactly when they fit 53 bits — proved

* `c18_exact` (Convert; axioms pcq): An image of unsigned integers all below 2^53 (every u8/u16/u32 image) converts to an f64 image holding exactly the same values.
* `c18_injective` (Convert; axioms pcq): hence the conversion is injective on such images
* `c18_loss` (Convert; axioms pcq): (the bound is sharp) 2^53 and 2^53+1 convert to the same f64.

### C19 Tone parameter validation — partial
Proved except bias = i16::MIN in debug builds, where abs() overflows and panics.

* `c19_brightness_partial` (Tone; axioms pcq): `brightness` rejects exactly the biases beyond ±255 (with or without AVX2, for every image); missing: `i16::MIN` in a debug build, where `abs` panics instead (`c19_brightness_violated`).
* `c19_brightness_violated` (Tone; axioms p): the exception: in a debug build `brightness` (and `brightness_lab`) of `i16::MIN` panics.
* `c19_brightness_lab_partial` (Tone; axioms pcq): `brightness_lab`, likewise
* `c19_saturation` (Tone; axioms pcq): `saturation` rejects exactly the parameters beyond ±255
* `c19_contrast` (Tone; axioms pcq): `contrast` rejects exactly the gains that are numbers outside [0,1]; NaN is accepted.
* `c19_contrast_lab` (Tone; axioms pcq): `contrast_lab`, likewise
* `c19_gamma` (Tone; axioms pcq): `gamma` rejects exactly the negative exponents; NaN is accepted.
* `c19_histogram_equalization` (Tone; axioms pcq): `histogram_equalization` rejects exactly negative precisions and alphas outside [0,1].

### C20 Brightness adds the bias with saturation and leaves alpha alone — proved

* `c20_brightness` (Tone; axioms pcq): Without AVX2, `brightness` keeps the header, adds the bias to every colour value with saturation, and leaves alpha alone.
* `c20_satAdd` (Tone; axioms pq): the saturating sum, in words

### C21 Brightness does not depend on whether the AVX2 path is taken — partial
Violated by the code: tail bytes become 0 and the alpha mask assumes four channels (c21_exact, c21_violated_tail, c21_violated_alpha); equality proved on full 32-byte blocks.

* `c21_brightness_simd_partial` (Simd; axioms pcq): When the buffer is a multiple of 32 bytes and the image has no alpha channel or exactly four channels, `brightness` returns the same image with and without AVX2; missing: all other images (`c21_exact`, `c21_violated_tail`, `c21_violated_alpha`).
* `c21_exact` (Simd; axioms pcq): exact result of the AVX2 path: the last `len % 32` bytes become 0; with an alpha channel every fourth byte is kept.
* `c21_violated_tail` (Simd; axioms p): violated: on a 2x2 RGB image (12 bytes) the AVX2 path returns a black image.
* `c21_violated_alpha` (Simd; axioms p): violated also for full blocks: with grey + alpha the wrong bytes are left alone.

### C22 Contrast is a monotone, non-amplifying per-channel map — proved

* `c22_contrast` (Tone; axioms pcq): For a gain in [0,1] `contrast` keeps header and alpha and maps every colour value `v` to `m v`, where `m v` is the rounding of the f32 product `v·gain`; `m` is monotone and never exceeds its argument.
* `c22_contrast_nan` (Tone; axioms pcq): NaN is accepted as a gain and turns every colour value into 0.

### C23 Gamma keeps shape and alpha, and gamma 1 is the identity — proved

* `c23_gamma_shape` (Tone; axioms pcq): `gamma` with an accepted exponent keeps header and alpha for every exponent, maximum and libm.
* `c23_gamma_one` (Tone; axioms pcq): with `max = 255` and a libm in which `powf(x, 1) = x`, `gamma(1)` is the identity.

### C24 Saturation shifts only S, and -255 desaturates completely — proved

* `c24_saturation` (Tone; axioms pcq): Without AVX2, `saturation` keeps header and alpha and shifts only the saturation.
* `c24_keeps_max` (Tone; axioms pcq): the shift keeps the largest colour value of every pixel ...
* `c24_desaturates` (Tone; axioms pq): ... and `-255` turns every pixel into the grey of its largest value.

### C25 Saturation's AVX2 path is memory safe and agrees with the scalar path — partial
Violated by the code: out-of-bounds access for RGB images (c25_violated_ub), black tail (c25_violated_tail); equality proved for RGBA with full blocks.

* `c25_saturation_simd_partial` (Simd; axioms pcq): RGBA images whose buffer is a multiple of 32 bytes (pixel count a multiple of 8): the AVX2 path is memory safe and returns the same image as the scalar path; missing: all others (`c25_violated_ub`, `c25_violated_tail`).
* `c25_violated_ub` (Simd; axioms pcq): violated: for every non-empty RGB image (no alpha) whose number of pixels is a multiple of ten, the AVX2 path reads and writes outside its buffers.
* `c25_violated_tail` (Simd; axioms p): violated: on small RGB images the AVX2 path returns black.

### C26 Histogram percentiles form a cumulative distribution — partial
Violated by the code: or_insert(1) followed by += 1 counts every distinct key once too often (c26_exact); the top value exceeds 1 on every non-empty image (c26_violated). Monotone and positive: proved.

* `c26_exact` (Histogram; axioms pcq): what `generate_histogram_percentiles` computes, in any arithmetic: an occurring key `k` gets (number of pixels with key ≤ k **plus the number of different keys ≤ k**) divided by the number of pixels; other entries of the map are left alone.
* `c26_monotone_partial` (Histogram; axioms pcq): **C26, true part**, in IEEE f32 and for every image of fewer than 2^30 pixels: every occurring key gets a percentile, the percentiles are positive and monotone in the key. Missing (and false, see `c26_violated`): they are not at most 1, because every different key is counted once too often.
* `c26_violated` (Histogram; axioms pcq): **C26 is violated on every non-empty image** of up to 2^22 pixels: the largest occurring key gets a "percentile" strictly greater than 1.

### C27 Histogram equalization never fails a lookup — proved

* `c27_total` (Histogram; axioms pcq): On every non-empty image with three colour channels (fewer than 2^30 pixels) and every alpha and precision that pass the argument checks (NaN included), `histogram_equalization` returns `Ok`: the lookup never misses. The header and the alpha channel are unchanged. This holds for every libm.

### C28 CIELAB tone operations preserve dimensions and the alpha channel bit-exactly — proved

* `c28_brightness_lab` (Lab; axioms pcq): `brightness_lab` returns an image with the same header and alpha channel; the colour of each pixel is obtained by adding `bias/255*100` to the lightness of its CIELAB value.
* `c28_contrast_lab` (Lab; axioms pcq): `contrast_lab` likewise, multiplying the lightness by the gain. Every gain that is not a number outside [0,1] is covered (so also NaN, which the checks let through).
* `c28_lab_chain` (Lab; axioms pcq): the underlying chain `srgb -> lab -> srgb` keeps header and alpha for both whites

### C29 Scalar grayscale conversion is the truncated mean of the colour channels — partial
Proved for up to 128 colour channels; beyond that the i16 sum overflows (c29_violated).

* `c29_grayscale_partial` (Gray; axioms pcq): Without AVX2, grayscale conversion maps every pixel with 1 to 128 colour channels to the truncated mean of its colour values followed by its alpha; missing: more than 128 colour channels, where the 16-bit sum overflows (`c29_violated`).
* `c29_between` (Gray; axioms pcq): the grey value lies between the pixel's smallest and largest colour value
* `c29_violated` (Gray; axioms pq): the gap: a white pixel with 129 colour channels panics in a debug build.

### C30 Grayscale conversion does not depend on whether the AVX2 path is taken — partial
Violated by the code: the AVX2 path computes avg(avg(r,g),b) and drops the tail (c30_exact, c30_violated_value, c30_violated_tail); equality proved for grey images with full blocks.

* `c30_exact` (SimdGray; axioms pcq): exact result of the AVX2 path: `avg(avg(r, g), b)`, both averages rounded up, for the first `32 * (pixels / 32)` pixels and zero bytes for the rest.
* `c30_simd_partial` (SimdGray; axioms pcq): When every pixel's three colour values are equal and the number of pixels is a multiple of 32, the AVX2 and the scalar path return the same image. Missing: all other images, on which the paths differ in general (`c30_exact` gives the AVX2 result, `c29_grayscale_partial` the scalar one; `c30_violated_value`, `c30_violated_tail`).
* `c30_violated_value` (SimdGray; axioms pcq): violated: 32 pixels `(0, 0, 1)` become 1 with AVX2 and 0 without.
* `c30_violated_tail` (SimdGray; axioms pcq): violated: an image with fewer than 32 pixels comes out black with AVX2.

### C31 The AVX2 grayscale path is memory safe — partial
Violated by the code for one-channel images (c31_violated: out-of-bounds write); safety proved for 3+ channels (4+ with alpha).

* `c31_memory_safe_partial` (SimdGray; axioms pcq): The AVX2 grayscale path returns (no out-of-bounds access, no panic) for every well-formed image with at least three channels (four if one of them is alpha). Missing: images with fewer channels, where it writes outside its buffer (`c31_violated`).
* `c31_violated` (SimdGray; axioms pcq): violated: for every one-channel (already grey) image of 34 to 95 pixels without alpha, the safe function `rgb_to_grayscale` writes outside its output buffer.

### C32 Integer HSV conversions never truncate — proved

* `c32_rgb_to_hsv_pixel` (Hsv; axioms pcq): (pixel) `rgb_to_hsv` computes the exact integer formula for every RGB triple in both build profiles: no cast truncates and nothing overflows.
* `c32_hsv_to_rgb_pixel` (Hsv; axioms pcq): (pixel) `hsv_to_rgb` computes the exact integer formula for every HSV triple in both build profiles: no cast truncates and nothing overflows.
* `c32_rgb_to_hsv` (Hsv; axioms pcq): (image) `rgb_to_hsv` of an image with three colour channels: same header, alpha untouched, every pixel converted by the exact integer formula.
* `c32_hsv_to_rgb` (Hsv; axioms pcq): (image) `hsv_to_rgb` likewise.

### C33 Integer HSV round trip preserves value, minimum and greys — proved

* `c33_pixel_round_trip` (Hsv; axioms pcq): (pixel) converting any RGB triple to HSV and back keeps its smallest and largest value; in particular greys are returned unchanged.
* `c33_image_round_trip` (Hsv; axioms pcq): (image) the round trip keeps header and alpha, and every pixel keeps its smallest and largest colour value (so a grey pixel is returned unchanged).

### C34 f32 HSV conversion: ranges, value channel, greys and alpha — proved

* `c34_ranges` (HsvF32; axioms pcq): (one pixel, ranges) `rgb_to_hsv_f32` yields three numbers in [0,1]; the third is `max/255`, and the second is 0 exactly for grey pixels.
* `c34_back_pixel` (HsvF32; axioms pcq): (one pixel, back) for HSV values in [0,1], `hsv_to_rgb_f32` returns three bytes whose maximum is the value channel converted back; with saturation 0 all three are that byte.
* `c34_round_trip` (HsvF32; axioms pcq): `rgb_to_hsv_f32` followed by `hsv_to_rgb_f32`, on every image with three colour channels: both return; the intermediate colour channels are numbers in [0,1]; the result has the header and the alpha channel of the input, every pixel keeps its largest colour value, and grey pixels are unchanged.
* `c34_accuracy_pixel` (HsvRound; axioms pcq): (one pixel, accuracy) After `rgb_to_hsv_f32` and `hsv_to_rgb_f32` in IEEE single precision every colour channel is the original byte or one less (the truncation can lose one step, never more, and nothing gets brighter).
* `c34_accuracy` (HsvRound; axioms pcq): (accuracy) In IEEE single precision `hsv_to_rgb_f32(rgb_to_hsv_f32(img))`, for every image with three colour channels, has every colour channel equal to the original or one less, and the alpha channel unchanged.
* `c34_not_lossless` (HsvRound; axioms pcq): (counterexample) The bound is sharp: the colour (11, 7, 3) comes back as (11, 7, 2) whatever libm is used, although exact arithmetic returns it unchanged.

### C35 XYZ conversions apply the published matrices to exactly three colour channels — proved

* `c35_to_xyz` (Lab; axioms pcq): `srgb_lin_to_xyz_f32` on a non-empty image with three colour channels applies the matrix to every pixel's colour channels and keeps header and alpha (any arithmetic: IEEE or exact).
* `c35_to_srgb_lin` (Lab; axioms pcq): `xyz_to_srgb_lin_f32` likewise with the inverse matrix.
* `c35_panics` (Lab; axioms pcq): every other image makes both functions panic.
* `c35_exact_matrices` (Lab; axioms pcq): in exact arithmetic the conversion is the matrix-vector product with the published numbers.
* `c35_inverse` (Lab; axioms pcq): the two matrices are inverse to each other up to 1e-6 per unit of input (exact arithmetic).

### C36 XYZ and CIELAB conversions are mutually inverse — proved
Proved in exact (real) arithmetic; the f32 version only agrees up to rounding.

* `c36_xyz_round_trip` (Lab; axioms pcq): (pixel) in exact arithmetic `lab_to_xyz` inverts `xyz_to_lab` for both whites.
* `c36_lab_round_trip` (Lab; axioms pcq): (pixel) and the other way round.
* `c36_image` (Lab; axioms pcq): (image) on every non-empty image with three colour channels, in exact arithmetic, `lab_to_xyz_f32(xyz_to_lab_f32(img)) = img` and `xyz_to_lab_f32(lab_to_xyz_f32(img)) = img`.

### C37 sRGB linearization keeps shape and alpha — proved

* `c37_linearize` (Lab; axioms pcq): `linearize_srgb_f32` maps every colour channel through the transfer function (linear up to 10, a power above) and copies alpha as a float; nothing else changes.
* `c37_round_trip` (Lab; axioms pcq): `unlinearize_srgb_f32` after `linearize_srgb_f32`: same header, the alpha channel is returned bit for bit, and so are all colour values up to 10.

### C38 get_2d_coords inverts row-major indexing — proved

* `c38_get_2d_coords` (Util; axioms pq): For width ≥ 1 the returned coordinate is the unique one in range with row-major index `i`.
* `c38_get_2d_coords_inv` (Util; axioms pq): the inverse direction: the coordinates of `y*width + x` are `(x, y)`.
* `c38_get_2d_coords_zero` (Util; axioms none): width 0 panics.

### C39 Summed-area tables hold the rectangle-from-origin sums — proved

* `c39_exact` (Summed; axioms pcq): in exact arithmetic: on every well-formed image, entry `(x, y)` of the table is, per channel, the sum of the input over columns `0..=x` and rows `0..=y`.
* `c39_ieee` (Summed; axioms pcq): in IEEE f32: if every channel holds integers whose absolute values add up to at most 2^23, the table is exact.
* `c39_u8` (Summed; axioms pcq): in particular for the float copy of a u8 image with `width * height * 255 ≤ 2^23`
* `c39_rounding_counterexample` (Summed; axioms pcq): **C39, limit of the IEEE version**: for this white image all entries of the true table are integers below 2^24 (so all are representable), yet the computed table is wrong: the intermediate sum exceeds 2^24 and is rounded.

### C40 rectangular_intensity_sum returns the sum over the requested rectangle — proved

* `c40_exact` (Summed; axioms pcq): in exact arithmetic: applied to the table of an image, `rectangular_intensity_sum` returns the per-channel sum over columns `x0..=x1` and rows `y0..=y1`, for every rectangle inside the image.
* `c40_ieee` (Summed; axioms pcq): in IEEE f32, for channels holding integers whose absolute values add up to at most 2^23
* `c40_outside` (Summed; axioms pcq): out-of-image rectangles panic

### C41 vector_mul is matrix-vector multiplication — proved

* `c41_vector_mul` (Util; axioms pq): For a vector of length `n ≥ 1` and a matrix with `len/n = n`, the result is the list of the `n` row products, each a left-to-right sum; if some product or sum overflows in an overflow-checked build the call fails like the first failing row product.
* `c41_vector_mul_total` (Util; axioms pq): the explicit form for number types whose arithmetic cannot fail on the given values (floats; integers in range): entry `i` is `(..((0 + m[n*i]*v[0]) + m[n*i+1]*v[1]) + ..)`.
* `c41_vector_mul_shape` (Util; axioms pq): a matrix of the wrong shape is rejected.
* `c41_vector_mul_empty` (Util; axioms p): an empty vector panics (division by zero).
* `c41_vector_mul_mut` (Util; axioms pq): `vector_mul_mut` leaves the same values in its output argument, whatever it held.

### C42 max_3/max_4/min_3/min_4 return the extremum — proved

* `c42_max_3` (Extremum; axioms pcq): `max_3` returns one of its arguments, at least as large as each of them.
* `c42_min_3` (Extremum; axioms pcq): `min_3`
* `c42_max_4` (Extremum; axioms pcq): `max_4`
* `c42_min_4` (Extremum; axioms pcq): `min_4`

### C43 Gaussian and LoG kernels are size x size, fully populated and symmetric — proved
Proved for size*size < 2^31; beyond that the i32 index arithmetic panics in debug builds (c43_too_large).

* `c43_gaussian` (Kernels; axioms pcq): (Gaussian) For odd `size` with `size² < 2^31`, `generate_gaussian_kernel` returns `size²` numbers; the one in row `i`, column `j` is `(1 / (2·PI·σ·σ)) · E.powf(-d / (2·σ·σ))` where `d` is the squared distance to the centre cell.
* `c43_log` (Kernels; axioms pcq): (Laplacian of Gaussian): with `x = -d / (2·σ·σ)` the entry is `(-1 / (PI·σ.powf(4))) · (1 - x) · E.powf(x)`.
* `c43_symmetric` (Kernels; axioms pcq): both kernels are unchanged by transposition and by reflection in either direction, in whatever arithmetic (in particular in IEEE arithmetic, entry for entry).
* `c43_even` (Kernels; axioms pcq): even sizes are rejected.
* `c43_too_large` (Kernels; axioms pcq): the size bound is needed: the index arithmetic is `i32`, a debug build panics for larger sizes.

### C44 The bilateral spatial matrix holds the Gaussian of the distance to the centre — partial
Violated by the code: the centre entry stays 0 (c44_centre_counterexample) and even sizes panic (c44_even_panics); every other entry is proved (c44_spatial_mat_partial).

* `c44_spatial_mat_partial` (Kernels; axioms pcq): The matrix actually built: the Gaussian everywhere except 0 in the middle.
* `c44_centre_counterexample` (Kernels; axioms pcq): **C44 fails at the centre**: for every odd size the entry at the centre is 0, not the Gaussian of distance 0 (which for sigma = 1 is positive, `powf(e, 0)` being 1).
* `c44_even_panics` (Kernels; axioms pcq): even sizes (which `bilateral_filter` can request, e.g. with spatial = 0.25) make it panic: it writes row `size`, one past the last. Size 0 panics as well.

### C45 Kernel application is the dot product with the neighborhood — proved

* `c45_apply_1d` (Util; axioms pcq): `apply_1d_kernel`: per channel, the left-to-right dot product of the kernel with the pixels. Holds for every previous content of the caller's buffer (`out`).
* `c45_apply_1d_err` (Util; axioms pcq): `apply_1d_kernel` errs exactly when the kernel length is even or differs from the number of pixels.
* `c45_apply_2d` (Util; axioms pcq): `apply_2d_kernel` on a square neighborhood.
* `c45_apply_2d_err` (Util; axioms pcq): `apply_2d_kernel` errs exactly when the kernel length is even or differs from width².

### C46 linear_filter gives the same result through the separable and the unseparable path — proved

* `c46_separable_eq` (Filter3; axioms pcq): (exact arithmetic) separable filtering with factors of the kernel equals filtering with the kernel, at every pixel including the borders.
* `c46_linear_eq_unseparable` (Filter3; axioms pcq): `linear_filter` returns what `unseparable_filter` returns, for every kernel of odd side, whichever path the singular value decomposition selects (exact arithmetic, correct SVD).

### C47 filter_1d / separable_filter / unseparable_filter compute the padded correlation at every pixel — partial
Proved for odd kernel sides up to 65535 (also where the kernel length is not exact in f32) with side + image side at most 2^31; beyond that the code's i32 arithmetic is not covered. Non-square lengths up to 2^32 are rejected (c47_unseparable_nonsquare).

* `c47_filter_1d_partial` (Filter; axioms pcq): `filter_1d` with an odd kernel: the output has the input's info and every channel is the left-to-right dot product of the kernel with the padded 1-d window.
* `c47_filter_1d_even` (Filter; axioms pq): an even-length kernel is rejected, for every image
* `c47_separable_partial` (Filter; axioms pcq): `separable_filter`: the vertical correlation followed by the horizontal one.
* `c47_separable_err` (Filter; axioms pq): `separable_filter` rejects even or unequal kernel lengths, for every image
* `c47_unseparable_even` (Filter; axioms pq): `unseparable_filter` rejects even kernel lengths
* `c47_unseparable_small` (Filter; axioms pcq): `unseparable_filter` (IEEE f32) with an odd square kernel of side at most 4095: the output has the input's info and every channel is the dot product with the padded square window. (Larger sides: `c47_unseparable_large_partial` in Filter6.)
* `c47_unseparable_nonsquare_small` (Filter; axioms pcq): kernels of non-square length (up to 2^24 entries) are rejected, for every image (longer ones: `c47_unseparable_nonsquare` in Filter6)
* `c47_unseparable_large_partial` (Filter6; axioms pcq): **C47, unseparable_filter** with a kernel of any odd side up to 65535 (beyond that the number of window pixels does not fit 32 bits): the kernel length is a perfect square that f32 cannot hold when the side is above 4096, but the code still finds the side. Missing: image side plus kernel side above 2^31.
* `c47_unseparable_nonsquare` (Filter6; axioms pcq): `unseparable_filter` rejects kernels whose length is not a perfect square, also those longer than `2^24` for which the f32 test may accept: then the length is compared with the square of the computed side. (Non-empty images.)

### C48 The rayon build returns exactly what the sequential build returns, for every schedule — partial
Proved for filters and bilateral. Violated in two corners: crop in release builds with overflowing x+width (c48_crop_release_counterexample), and unseparable_filter with some non-square kernel lengths above 2^24, where the sequential build gives an error and the rayon build panics (c48_unseparable_violated). Scale assumes the output size fits u32 in release builds.

* `c48_bilateral` (Bilateral; axioms pcq): `bilateral_filter` under rayon returns, for every schedule, what the sequential build returns (for images whose alpha flag implies at least one channel, as the readers guarantee).
* `c48_unseparable_square` (Filter6; axioms pcq): `unseparable_filter` with any kernel whose length is the square of an odd number up to 65535
* `c48_unseparable_violated` (Filter6; axioms pcq): **C48 is violated for some kernel lengths above `2^24`**: with 16785407 = 4097^2 - 2 entries the f32 test for squareness accepts the kernel, and the later length check gives an error in the sequential build, but is unwrapped in the rayon build.
* `c48_crop_partial` (Par; axioms pcq): `crop`: for rectangles whose corner coordinates fit `u32` (anything else is a caller overflow, see below) the rayon build agrees with the sequential build under every schedule.
* `c48_crop_debug` (Par; axioms pcq): `crop` in a debug build: every argument (overflowing ones panic both ways).
* `c48_crop_release_counterexample` (Par; axioms pq): is violated in release builds when `x + width` wraps: the sequential build panics, the rayon build returns an image with an empty buffer.
* `c48_scale_partial` (Par; axioms pcq): `scale`, every method and scale factor. In release builds the output must fit its `u32` sizes (in debug builds too large outputs panic both ways).
* `c48_scale_lanczos_partial` (Par; axioms pcq): `scale_lanczos` with every window size.
* `c48_filter_1d` (Par; axioms pcq): `filter_1d`, every image, kernel (fewer than 2^32 entries) and schedule.
* `c48_separable` (Par; axioms pcq): `separable_filter` (two parallel passes, each with its own schedule).
* `c48_unseparable` (Par; axioms pcq): `unseparable_filter`, every image, kernel of at most 2^24 entries and schedule.

### C49 box_filter averages the size x size window — partial
Violated by the code: box_filter(size) averages a size^2 x size^2 window (c49_exact, c49_violated); true only for size 1.

* `c49_exact` (Filter3; axioms pcq): what the code computes: the mean of the `size² x size²` window (exact arithmetic)
* `c49_box_partial` (Filter3; axioms pcq): true part: for `size = 1` the box filter is the mean of the 1 x 1 window, the identity
* `c49_even` (Filter3; axioms pcq): even sizes are rejected
* `c49_violated` (Filter3; axioms pcq): **C49 is violated**: on a 5 x 1 image `box_filter(3)` sees a pixel four columns away, so the result differs from the mean of the 3 x 3 window.

### C50 weighted_avg_filter uses a normalised kernel — proved

* `c50_kernel` (Filter3; axioms pq): the kernel of `weighted_avg_filter`, in the float type's own arithmetic: `1/sum` everywhere and `weight/sum` at the centre, with `sum = size² - 1 + weight`
* `c50_even` (Filter3; axioms pq): even sizes give an error, for every image and weight
* `c50_normalised` (Filter3; axioms pcq): (exact arithmetic) the kernel weights add up to one
* `c50_constant` (Filter3; axioms pcq): (exact arithmetic) constant images are unchanged by `weighted_avg_filter`

### C51 Smoothing/sharpening kernels preserve constants and the Laplacian annihilates them — proved

* `c51_sharpen_exact` (Filter4; axioms pcq): (exactness, beyond constants) on every image of integers of magnitude up to 255, `sharpen` in IEEE f32 gives exactly the padded correlation with its integer kernel
* `c51_laplacian_exact` (Filter4; axioms pcq): the same for `laplacian`
* `c51_unsharp_exact` (Filter4; axioms pcq): the same for `unsharp_masking` (weights in 1/256)
* `c51_constants` (Filter4; axioms pcq): `sharpen` and `unsharp_masking` return a constant image of integers 0..=255 unchanged and `laplacian` maps it to zero, exactly in IEEE f32, whatever the image size.

### C52 threshold implements its five documented rules — proved

* `c52_threshold` (Filter2; axioms pcq): C52: threshold applies the documented rule to every colour channel and keeps alpha and info
* `c52_error` (Filter2; axioms pq): C52: inputs that are not grayscale give an `InvalidArg` error
* `c52_above_finite` (Filter2; axioms pcq): C52: "greater" is comparison of values for finite floats
* `c52_above_nan` (Filter2; axioms pcq): C52: a NaN channel (or a NaN threshold) counts as not greater
* `c52_above_inf` (Filter2; axioms pcq): C52: `+inf` exceeds and `-inf` does not exceed every finite threshold

### C53 residual is the channel-wise difference — proved

* `c53_error` (Filter2; axioms p): C53: different headers give `InvalidArg`
* `c53_residual` (Filter2; axioms pcq): C53: when the channel differences exist, the result is the channel-wise difference
* `c53_residual_float` (Filter2; axioms pcq): C53, float images: IEEE subtraction of each channel (never panics)
* `c53_residual_u8_release` (Filter2; axioms pcq): C53, u8 images without overflow checks: wrapping difference
* `c53_residual_u8_debug` (Filter2; axioms pcq): C53, u8 images with overflow checks: the exact difference when no channel of `b` exceeds `a`
* `c53_residual_u8_panic` (Filter2; axioms pq): C53, u8 images with overflow checks: panic when some channel of `b` exceeds `a`

### C54 Derivative masks (Sobel, Prewitt) — partial
One-channel images proved; grayscale images with alpha panic (c54_violated_alpha).

* `c54_derivative_mask_partial` (Filter4; axioms pcq): on one-channel images `derivative_mask` is the root of the sum of squares of the two separable responses (themselves characterised by C47) at every pixel, with unchanged info.
* `c54_error` (Filter4; axioms pq): images that are not grayscale give an error
* `c54_kernel_error` (Filter4; axioms pcq): even or unequal kernels give an error
* `c54_violated_alpha` (Filter4; axioms pcq): **C54 is violated** for the documented grayscale-with-alpha input: every non-empty image with an alpha channel panics (a one-element slice is copied into a two-channel pixel).
* `c54_constant_zero` (Filter4; axioms pcq): Sobel and Prewitt map every constant integer image to zero, in IEEE f32, for every math library whose `powf` squares zero to zero.

### C55 normalize_laplacian stretches the value range to [0, 255] — partial
Proved for images with two different finite values; a single NaN pixel does not panic (c55_violated_single_nan).

* `c55_normalize_partial` (Filter5; axioms pcq): on a grayscale image of finite values, not all equal, whose range does not overflow, there is a monotone map of values to bytes sending the minimum to 0 and the maximum to 255, and every sample of the output is the image of the corresponding input sample.
* `c55_error` (Filter5; axioms pcq): an image that is not grayscale gives an error
* `c55_empty` (Filter5; axioms pcq): empty input panics
* `c55_nan` (Filter5; axioms pcq): NaN input panics (for more than one sample)
* `c55_violated_single_nan` (Filter5; axioms pcq): **C55 is violated** for a single NaN pixel: it is never compared, and becomes 0 without a panic.

### C56 median_filter returns the window median — partial
Violated by the code (c56_violated: radius 0 changes a column 5,3 into 5,5). c56_exact gives the exact result for every image, radius and block size: the window median, except that the value of the row above is kept when exactly size^2/2+1 window values are below it; and the last output column shows the last column of the last block. Right in row 0, along columns whose median does not decrease, on constant images; otherwise never below the median and at most one rank above.

* `c56_exact` (Median; axioms pcq): (exact behaviour): for every image, radius and column block size `median_filter` returns, at `(x, y)`, in every channel, the value `slidingMedian` of the column `medianColumn`.
* `c56_first_row_partial` (Median2; axioms pcq): (row 0): the first row of the result is the window median, at every column but the last; and at the last one too if the block size divides the width.
* `c56_monotone_partial` (Median2; axioms pcq): (columns along which the median never decreases): there the result is the window median in every row
* `c56_rank_partial` (Median2; axioms pcq): (how far off it can be): at every pixel but the last column, the value returned is at least the window median, and at most one rank too high: at most `(2 r + 1)^2 / 2 + 1` values of the window lie below it.
* `c56_constant_partial` (Median2; axioms pcq): (constant images come back unchanged)
* `c56_violated` (Median2; axioms pcq): **C56 is violated**: with radius 0 the window of a pixel is the pixel itself, yet the column 5, 3 becomes 5, 5.

### C57 The partial histograms always sum to the true window histograms — proved
c57_counts: any sequence of additions and removals, any odd block size, radius and channel; counters must stay within i32.

* `c57_counts` (PartialHist; axioms pcq): : start a block of `2 h + 1` columns for radius `r`, then add and remove any rows, in any order, any number of times (each row long enough for the block and its margins). If no net count along the way exceeds `M`, with `M` small enough for 32-bit counters, no update fails, and afterwards the count read off for every column `k` and every value `v` is exactly the number of occurrences of `v` in the added rows minus the removed rows, within the window of column `k`.
* `c57_bound` (PartialHist; axioms pcq): , the use made of it: rows only ever removed after they were added give non-negative counts, at most the number of pixels of the window rows present

### C58 alpha_trimmed_mean_filter returns the trimmed window mean — partial
The code violates the property. Proved for all inputs: odd or too large alpha is refused; on one-row images the exact value the code computes (c58_one_row_exact), which is the rounded trimmed mean when the upper trimming boundary is clean (c58_one_row_partial) and always for alpha <= 2; constant images come back unchanged for every size and even alpha >= 2 (c58_constant_partial; mean exactness shown for exact arithmetic and for f32 up to radius 127). On images of any height, whenever the filter returns, row 0 is exactly the value computed from a window holding row 0 of the image 2r+1 times (c58_first_row_exact), right when rows 1..r equal row 0 (c58_first_row_partial). Violations proved: alpha = 0 panics on every image of two or more rows (c58_alpha_zero_panics); a valid alpha = 8 panics on a 1x8 image (c58_panics, with std's binary search); wrong value 30 instead of 20 on one row (c58_violated); 0 instead of 26 on two rows with alpha = 2 (c58_violated_first_row). For alpha = 2 every row of an image of any height is exactly the rounded trimmed mean, if rows 1..r equal row 0 (c58_alpha_two_partial; std's binary search contract is a hypothesis, proved of its source). Missing: rows below the first for alpha >= 4 on non-constant images, where the code's bookkeeping of the upper values is wrong.

* `c58_odd_alpha` (TrimMean; axioms pq): (bad arguments): an odd `alpha` is refused, whatever the image.
* `c58_large_alpha` (TrimMean; axioms pq): (bad arguments): `alpha ≥ (2 r + 1)^2` is refused.
* `c58_one_row_exact` (TrimMean; axioms pcq): (exact behaviour on one-row images): the byte stored is the mean computed from `codeSum`: from the sum of the window the `alpha / 2` lowest values are taken away, and then the first `alpha / 2` among the remaining values (in ascending order) that have more than `(2 r + 1)^2 - alpha / 2` window values not above them.
* `c58_one_row_partial` (TrimMean; axioms pcq): (one-row images, partly): the result is the rounded trimmed mean of the window at every pixel (but the last of the row, if the block size does not divide the width) whose window is `CleanTop`: the values just above and just below the upper trimming boundary differ, or all values above the boundary are equal.
* `c58_one_row_small_alpha_partial` (TrimMean; axioms pcq): (one-row images, `alpha ≤ 2`): the rounded trimmed mean, without any condition on the values.
* `c58_constant_partial` (TrimMean; axioms pcq): (constant images): for every image size and even `alpha` between 2 and `(2 r + 1)^2`, a constant image comes back unchanged, provided the mean of equal bytes is exact in the floating-point type.
* `c58_alpha_zero_panics` (TrimMean; axioms pcq): **C58 is violated** (nothing to trim): with `alpha = 0`, every image of two or more rows makes the filter panic, in every profile.
* `c58_violated` (TrimMean; axioms pcq): **C58 is violated** (one-row image): the window of the middle pixel of 10, 20, 30 holds each value three times; discarding the 4 lowest and the 4 highest leaves 20, but the code returns 30.
* `c58_first_row_exact` (TrimMean2; axioms pcq): (first row, images of every height): whenever the filter returns, the first row is computed from a window that holds the first row of the image `2 r + 1` times, instead of the rows around it.
* `c58_first_row_partial` (TrimMean2; axioms pcq): (first row, partly): if the rows up to row `r` equal the first one, the first row of the result is the rounded trimmed mean at every pixel (but the last of the row, if the block size does not divide the width) whose window is `CleanTop`.
* `c58_panics` (TrimMean2; axioms pq): **C58 is violated** (panic): a valid even `alpha` on a valid image makes the filter panic, in every profile and floating-point type (that puts five columns into a block, as 4 * 1^(2/3) rounded up to odd does).
* `c58_violated_first_row` (TrimMean2; axioms pcq): **C58 is violated** (two rows, the smallest `alpha`): the window of the upper pixel of 0, 90 holds six zeros and three times 90, its trimmed mean is 180 / 7, rounded 26, but the code returns 0.
* `c58_alpha_two_partial` (TrimMean3; axioms pcq): (`alpha = 2`, images of every height): if rows `1 .. r` of the image equal row 0, so that the window of the first row is right, the filter returns, and at every pixel (but the last of each row, if the block size does not divide the width) it stores the rounded mean of the window without its least and its greatest value.

### C59 bilateral_filter keeps dimensions and never panics on valid parameters — partial
Proved when the derived window size is odd; even window sizes panic (c59_even_panics, c59_quarter_panics). With window size 1 (spatial below 1/4) the accepted call returns all-zero bytes, alpha included (c59_small_spatial_black).

* `c59_negative` (Bilateral; axioms pcq): negative range or spatial parameters are rejected with an error (both builds).
* `c59_returns_partial` (Bilateral; axioms pcq): Whenever the window size `(4·spatial + 1) as u32` is odd, `bilateral_filter` returns on every non-empty 3-colour image (alpha allowed), with the input's info; what it returns is the sRGB image of the CIELAB image in which each channel is replaced by its bilateral mean over the padded window. Missing from the English claim: sizes that are even or too large (see `c59_even_panics`).
* `c59_even_panics` (Bilateral; axioms pcq): **C59 fails for even window sizes**: with valid (non-negative) parameters whose window size is even (or 0, e.g. for a NaN spatial parameter) `bilateral_filter` panics on every image.
* `c59_quarter_panics` (Bilateral; axioms pcq): concrete instances: spatial = 1/4 is an ordinary parameter for which the filter panics; spatial = 1 satisfies the hypotheses of `c59_returns_partial`
* `c59_small_spatial_black` (Bilateral3; axioms pcq): **C59 (defect)** Whenever the window size `(4*spatial + 1) as u32` is 1 (any spatial parameter from 0 to just below 1/4, all of them accepted), `bilateral_filter` returns, for every image and every accepted range, an image in which *every* byte is 0: black, and with an alpha channel also fully transparent. The only weight is 0, so every mean is 0/0.

### C60 crop returns the selected rectangle or an error — proved

* `c60_crop_inside` (Transform; axioms pcq): (inside) A rectangle with `x+width < W` and `y+height < H` is cropped: pixel `(i,j)` of the result is pixel `(x+i, y+j)` of the input, in both build profiles.
* `c60_crop_rejects` (Transform; axioms pcq): (rejection) Every other rectangle whose far corner is representable gives `InvalidArg`.
* `c60_crop_overflow_debug` (Transform; axioms pq): (overflowing corner) When `x+width` or `y+height` exceeds the u32 range, an overflow-checked build never returns an image.
* `c60_crop_sound` (Transform; axioms pcq): (soundness, every u32 rectangle, both profiles) Whatever image `crop` returns, each of its pixels is the input pixel it should be; none comes from elsewhere.

### C61 crop accepts every rectangle that lies inside the image — partial
Violated by the code: crop rejects rectangles that touch the right or bottom edge (c61_violated); proved for rectangles strictly inside.

* `c61_crop_inside_partial` (Transform; axioms pcq): (what the code does) Among rectangles inside the image, exactly those that touch neither the right nor the bottom border are accepted.
* `c61_violated` (Transform; axioms pcq): **C61 violated**: cropping to the full image is always rejected.

### C62 superimpose blends the two images — partial
Violated by the code: superimpose rejects every pair of images (c62_always_rejected), so the blending clause never applies.

* `c62_always_rejected` (Superimpose; axioms pcq): **C62 is violated by the code**: the range check is called with its arguments in the wrong order (it asks whether 0.0 lies in [1.0, alpha]), so `superimpose` returns an error for all images, positions and alphas, valid ones included.
* `c62_never_blends` (Superimpose; axioms pcq): so no input blends: the Ok outcome promised for equal channel counts and alpha in [0,1] never happens

### C63 overlay replaces exactly the overlap — proved

* `c63_overlay` (Transform; axioms pcq): `overlay` has back's header; it shows `front` shifted by `(x,y)` where that covers the pixel, `back` elsewhere.
* `c63_overlay_channels` (Transform; axioms none): unequal channel counts are rejected.
* `c63_overlay_overflow_debug` (Transform; axioms pq): offsets that overflow u32 panic in overflow-checked builds.

### C64 translate shifts and fills with zeros — proved

* `c64_translate` (Transform; axioms pcq): `translate` keeps the header, moves pixels by `(x,y)` and fills with zeros.
* `c64_translate_compose` (Transform; axioms pcq): two translations in a row are one translation by the sum of the offsets.

### C65 reflect mirrors and is an involution — proved

* `c65_reflect` (Transform; axioms pcq): `reflect` keeps the header and mirrors: vertical axis `(w-1-x, y)`, horizontal `(x, h-1-y)`.
* `c65_reflect_involution` (Transform; axioms pcq): reflecting twice along the same axis gives back the image.
* `c65_reflect_comm` (Transform; axioms pcq): the two reflections commute.

### C66 Nearest-neighbour scaling by a positive integer replicates pixels; factor 1 is the identity — proved

* `c66_nearest_integer` (Scale; axioms pcq): nearest-neighbour scaling by positive integers replicates pixels, in IEEE f32: `scale(img, kx, ky)` is an image of `kx*W` by `ky*H` pixels with `output(x, y) = input(x/kx, y/ky)`.
* `c66_identity` (Scale; axioms pcq): scaling by 1 is the identity
* `c66_value` (Scale8; axioms pcq): **C66, arbitrary factors** (exact arithmetic): the pixel at `(x, y)` of the result is the pixel of the original in whose column and row the position `((x + 1) / fx, (y + 1) / fy)` lies.
* `c66_compose` (Scale8; axioms pcq): **C66, composition** (IEEE f32): enlarging by integer factors `(kx, ky)` and then `(lx, ly)` gives the same image as enlarging by `(kx lx, ky ly)`.

### C67 scale never panics for non-negative factors — partial
Violated by the code: nearest-neighbour scaling panics when W*f rounds up (c67_nearest_violated: 1x1 image, factor 1.5) and, when shrinking, when (x+1)/f rounds past the edge (c135_shrink_violated: 61 columns to 1, 22 columns to 13). Proved: bicubic and Lanczos for all factors incl. NaN, bilinear for outputs up to 2^22 per side, nearest neighbour for integer factors, negative factors rejected.

* `c67_bicubic_lanczos_partial` (Scale2; axioms pcq): **C67, bicubic and Lanczos**: scale returns an image of the computed size for every non-empty image and *every* pair of factors accepted by the check (including 0, infinity and NaN) whose output size is representable.
* `c67_bilinear_partial` (Scale3; axioms pcq): **C67, bilinear**: scale returns an image of the computed size for every non-empty image and all finite positive factors for which the output has at most `2^22` columns and rows, in IEEE f32.
* `c67_nearest_integer_partial` (Scale3; axioms pcq): **C67, nearest neighbour, positive integers** (see `c66_nearest_integer`)
* `c67_negative` (Scale3; axioms pcq): negative factors are rejected with an error, by every method
* `c67_nearest_violated` (Scale3; axioms pcq): **C67 is violated by nearest-neighbour scaling**: enlarging a 1 x 1 image by 1.5 panics, in IEEE f32
* `c67_nearest_iff` (Scale8; axioms pcq): **C67, when nearest neighbour scaling returns** (exact arithmetic, non-empty output): exactly if neither side of the output was rounded up, `round(W fx) <= W fx` and `round(H fy) <= H fy`. Otherwise it panics.

### C68 Bilinear scaling interpolates between the neighbours — partial
The interpolation clause is violated: the weights of the neighbours are exchanged (c68_violated). c68_value_partial says exactly what is computed; range, factor 1 and constant images proved in exact arithmetic. The exchange is also shown in f32 arithmetic (c68_violated_ieee); f32 error bounds are C113.

* `c68_value_partial` (Scale4; axioms pcq): **C68, what the code computes**: in exact arithmetic bilinear scaling returns an image of `round(W fx) x round(H fy)` pixels whose value at `(x, y)` is the bilinear interpolation of the four neighbours at the *mirrored* fractions `1 - tx`, `1 - ty` - the weights of the neighbours are exchanged. (If the position is exactly on a column, the right neighbour is that column itself.)
* `c68_between_partial` (Scale4; axioms pcq): **C68, range** (exact arithmetic): every value of the result lies between the minimum and the maximum of the four neighbours of its position.
* `c68_identity_partial` (Scale4; axioms pcq): **C68, factor 1** (exact arithmetic): bilinear scaling by 1 returns the image unchanged.
* `c68_constant_partial` (Scale4; axioms pcq): **C68, constants** (exact arithmetic): an image of equal pixels stays constant.
* `c68_violated` (Scale4; axioms pcq): **C68 is violated** already in exact arithmetic: enlarging the row `0, 100` four times gives 75, not 25, a quarter of the way from the first pixel to the second.
* `c68_violated_ieee` (ScaleErr; axioms pcq): **C68 is violated in f32**: enlarging the row 0, 100 by 4, the pixel a quarter of the way from the first to the second pixel comes out as 75 (to within 0.001), where linear interpolation gives 25.

### C69 Bicubic scaling weights form a partition of unity — proved
Exact arithmetic (F := R).

* `c69_partition` (Scale5; axioms pcq): the 16 weights of every position are non-negative and add up to 1
* `c69_value` (Scale5; axioms pcq): **C69, what bicubic scaling computes** (exact arithmetic): for every non-empty image and all positive factors with a representable output, scale returns an image of `round(W fx) x round(H fy)` pixels, whose value at `(x, y)` is the sum over the 4 x 4 neighbouring pixels (clamped to the image) weighted by the cubic B-spline in both directions.
* `c69_range` (Scale5; axioms pcq): **C69, range** (exact arithmetic): if channel `c` of every input pixel is in `[lo, hi]`, so it is in the result. In particular (`lo = hi`) constant images stay constant.

### C70 shear with zero factors is the identity and horizontal/vertical shears keep every pixel — proved
Identity in IEEE f32; the general description in exact arithmetic.

* `c70_identity` (Shear; axioms pcq): `shear(img, 0, 0)` (either sign of zero) returns the image unchanged, in IEEE f32, for every well-formed image of at most `2^24` columns and rows.
* `c70_shear` (Shear; axioms pcq): (exact arithmetic): shear never panics; the output is `W + floor(H |sx|)` by `H + floor(W |sy|)` pixels; the pixel at `(x, y)` is moved to `(x + shift_x(y), y + shift_y(x))`, positions that receive no pixel are zero, and every other position shows one of the pixels moved there.
* `c70_horizontal` (Shear; axioms pcq): **C70, horizontal shear** (exact arithmetic): every row is kept whole, moved right by its shift; the rest is zero.
* `c70_vertical` (Shear; axioms pcq): **C70, vertical shear** (exact arithmetic): every column is kept whole, moved down by its shift; the rest is zero.

### C71 rotate by 0 degrees is the identity — partial
Violated by the code for every image of at least two rows whose last row is not zero (c71_violated). c71_describe_partial says exactly what rotate(img,0) returns; 1x1 images are returned unchanged. The same description and violation are proved in f32 (c71_f32_describe_partial, c71_f32_violated).

* `c71_describe_partial` (Rotate; axioms pcq): **C71, what rotate(img, 0) returns** (exact arithmetic): an image of the same size, shifted up by one row and left by one or two columns; the last row (if there is more than one) and, for even widths, the last column are zero.
* `c71_single_partial` (Rotate; axioms pcq): **C71, one pixel** (exact arithmetic): a 1 x 1 image is returned unchanged.
* `c71_violated` (Rotate; axioms pcq): **C71 is violated** by every image with at least two rows whose last row is not zero: the last row of rotate(img, 0) is zero. (Likewise the last column for even widths: `c71_describe_partial`.)
* `c71_f32_describe_partial` (RotateExact; axioms pcq): **C71 in f32** What `rotate(img, 0)` returns on 32-bit floats (the platform's cosine of 0 is 1 and its sine of 0 is 0): an image of the same size, shifted up by one row and left by one column (odd width) or two columns (even width); the last row, if there is more than one, and for even widths the last column are zero.
* `c71_f32_violated` (RotateExact; axioms pcq): **C71 is violated in f32** by every image of two or more rows whose last row is not zero

### C72 erode computes binary erosion (background outside the image) — proved
Proved in IEEE f32 within the stated size bound (c72_erode) and in exact arithmetic without it; c72_rounding_counterexample shows why a bound is needed.

* `c72_erode` (Morphology; axioms pcq): erode draws the erosion (pixels outside the image count as black), in IEEE f32, for every one-channel image (binary or not), every radius up to the smaller side, and both build profiles, while `width * height * 255 ≤ 2^23`.
* `c72_erode_exact` (Morphology; axioms pcq): in exact arithmetic, with no bound on the image; `(2r+1)^2 * 255` has to fit in a u32
* `c72_rounding_counterexample` (Morphology2; axioms pcq): **C72/C73, why the size bound**: on an all-white 21932 x 2 image, radius 0, both erode and dilate give a black pixel at (21931, 1), in IEEE f32.
* `c72_not_grayscale` (Morphology3; axioms pcq): non-grayscale images are rejected with an error

### C73 dilate computes binary dilation — partial
Violated by the code for radius >= 2 near the border (c73_violated) and for radius larger than a side (panic, c73_radius_panics); proved for radius <= 1 and in the interior; c73_exact_window describes the code for every radius.

* `c73_exact_window` (Morphology; axioms pcq): **C73, what the code draws**: the pixels whose *code window* contains a white pixel, where the code window extends `r` to the left only if `r` columns exist there (otherwise not at all), and likewise to the right, top and bottom.
* `c73_radius_one_partial` (Morphology; axioms pcq): holds for radius 0 and 1 everywhere
* `c73_interior_partial` (Morphology; axioms pcq): for every radius: white output pixels are always in the dilation, and at least `r` away from the border the output is the dilation. Missing: pixels within `r` of the border when `r ≥ 2` (`c73_violated`).
* `c73_violated` (Morphology2; axioms pcq): **C73 is violated**: with radius 2 the white corner of a 4 x 4 image is not found from (1, 1)
* `c73_radius_panics` (Morphology3; axioms pcq): **C73 and C72, radii out of range**: dilate, erode, majority and gradient panic whenever the radius exceeds the width or the height of a non-empty grayscale image (any arithmetic, both profiles).

### C74 majority outputs the majority value of the window — partial
Violated by the code: majority is dilate (c74_is_dilate, c74_violated); one direction holds.

* `c74_is_dilate` (Morphology2; axioms pq): **C74, what the code computes**: majority is dilate, for every image, radius, arithmetic and profile
* `c74_majority_partial` (Morphology2; axioms pcq): **C74, the half that holds** (radius at most 1, or at least `r` away from the border): where white pixels are in the majority the output is white, and where the window has no white pixel the output is black.
* `c74_violated` (Morphology2; axioms pcq): **C74 is violated**: one white pixel out of nine is enough

### C75 open is anti-extensive, close is extensive, erode and dilate are monotone — partial
erode <= input <= dilate, monotonicity and open <= input proved; input <= close is violated at the border (c75_close_violated), proved in the interior.

* `c75_erode_dilate` (Morphology3; axioms pcq): erosion shrinks, dilation grows
* `c75_monotone` (Morphology3; axioms pcq): erode and dilate preserve order
* `c75_open` (Morphology3; axioms pcq): opening shrinks
* `c75_close_partial` (Morphology3; axioms pcq): closing, away from the border: white pixels at least `r` away from every edge stay white. Missing: the border band, where the claim is false (`c75_close_violated`).
* `c75_close_violated` (Morphology3; axioms pcq): **C75 is violated by close**: closing an all-white image gives black border pixels

### C76 gradient is dilation minus erosion — proved
Proved in IEEE f32 for every one-channel image of any size, for radii in range.

* `c76_gradient` (Morphology3; axioms pcq): gradient = dilate - erode at every pixel, in IEEE f32, for every one-channel image of any size (binary or not), every radius up to the smaller side for which `(2r+1)^2 * 255` fits in a u32, both profiles. The subtraction does not wrap: the erosion is never brighter.

### C77 Reading back a written image returns it — proved

* `c77_round_trip` (Io; axioms pq): For every storable image and lossless codec: `write` succeeds, changes no other file, and `read` of the same path then returns the image.
* `c77_rejects_layout` (Io; axioms p): every other layout is rejected and nothing is written.
* `c77_rejects_short` (Io; axioms none): an image whose buffer is shorter than its header says is rejected and nothing is written.
* `c77_only_that_file` (Io; axioms none): whatever happens, only the file at the given path can change.
* `c77_read` (Io; axioms pq): reading rejects files that do not exist, cannot be decoded or have an unsupported colour type, and otherwise reports the decoded dimensions with the layout of the colour type.

### C78 Lookup tables agree with direct evaluation — proved

* `c78_lookup_table` (Util; axioms pcq): After `generate_lookup_table(table, f)` the table holds `f(i)` at every index, whatever it held before.
* `c78_table_map` (Util; axioms pcq): hence a table-driven per-channel map of an image equals the direct map.

### C79 rotate never panics and returns the expected size — proved
Exact arithmetic; sin and cos are the real functions, the angle uses the f32 constant for pi.

* `c79_rotate_ok` (Rotate; axioms pcq): (exact arithmetic): rotate never panics, for any angle and any non-empty image whose rotated size is representable; the result has `floor(W |cos| + H |sin|)` columns and `floor(H |cos| + W |sin|)` rows.

### C80 Dimension arithmetic of ImageInfo — proved

* `c80_size` (Info; axioms p): `size()` is width × height: an overflowing product panics in checked builds and wraps in unchecked ones.
* `c80_full_size` (Info; axioms pq): `full_size()` is width × height × channels, with the same overflow behaviour.
* `c80_channels_non_alpha` (Info; axioms p): `channels_non_alpha()` counts the channels that are not alpha; an image claiming an alpha channel but no channels makes it panic in checked builds.
* `c80_data_length` (Info; axioms p): in a well-formed image `full_size()` is exactly the length of `data()`.

### C81 Reading a sub-image — proved

* `c81_get_pixel` (Info; axioms pcq): `sub.get_pixel(x, y)` returns exactly for coordinates inside the sub-image, and then it is the `y * width + x`-th stored pixel.
* `c81_to_vec` (Info; axioms pq): `to_vec` is the concatenation of the stored pixels, in order.
* `c81_to_vec_channels` (Info; axioms pq): hence for a neighborhood of a well-formed image `to_vec` lists, position by position, the channels of its pixels: value `k * channels + c` is channel `c` of the `k`-th pixel.

### C82 Algebra of morphological operations — proved

* `c82_open_value` (Morphology4; axioms pcq): `open` draws exactly the pixels covered by a white `(2r+1) x (2r+1)` square inside the image, for every radius (the border defect of `dilate` does not show after an erosion).
* `c82_open_idempotent` (Morphology4; axioms pcq): opening twice is the same as opening once
* `c82_close_idempotent` (Morphology4; axioms pcq): closing twice is the same as closing once
* `c82_erode_compose` (Morphology4; axioms pcq): erosions compose: eroding by `r` and then by `s` is eroding by `r + s`
* `c82_dilate_repeat` (Morphology4; axioms pcq): dilating `n` times with radius 1 is the dilation with radius `n`, for every `n` (a single call with radius `n ≥ 2` is not, see C73)

### C83 Cutting and pasting are inverse and compose — proved

* `c83_crop_crop` (Compose; axioms pcq): cropping a crop is one crop at the sum of the offsets
* `c83_overlay_crop` (Compose; axioms pcq): pasting a crop back where it was cut from changes nothing
* `c83_crop_overlay` (Compose; axioms pcq): cutting out what was pasted gives the pasted image back
* `c83_overlay_twice` (Compose; axioms pcq): pasting the same image twice is pasting it once
* `c83_overlay_comm` (Compose; axioms pcq): pastes that do not overlap can be made in either order
* `c83_translate_overlay` (Compose; axioms pcq): translating is pasting onto a black image
* `c83_crop_translate` (Compose; axioms pcq): cropping follows a translation

### C84 Lanczos scaling sums the windowed-sinc weighted neighbours — proved
Value theorem in exact arithmetic, totality in IEEE f32; sizes 2^31-1..2^31+1 overflow i32 and panic with overflow checks (c84_violated_size).

* `c84_kernel` (Scale6; axioms pcq): **C84, the kernel** is even, 1 at 0, at most 1 in absolute value, 0 outside `(-a, a)`, and at most `2.8e-8` at the other integers (not 0: the code uses the f32 nearest to pi).
* `c84_scale_lanczos` (Scale6; axioms pcq): **C84, scale_lanczos** (exact arithmetic), for every non-empty image, positive factors with a representable output and every size below `2^31 - 1`
* `c84_scale` (Scale6; axioms pcq): **C84, scale with the Lanczos method** uses size 3.
* `c84_size_zero` (Scale6; axioms pcq): **C84, size 0** gives an image of zeros.
* `c84_total` (Scale6; axioms pcq): **C84, no panic** (IEEE f32): scale_lanczos returns an image of the computed size for every non-empty image with sides up to `2^24`, every pair of factors that passes the check (also NaN and infinity) with a representable output size, and every size below `2^31 - 1`.
* `c84_violated_size` (Scale6; axioms pcq): **C84, no panic fails for huge sizes**: with overflow checks, scale_lanczos panics for the sizes `2^31 - 1`, `2^31` and `2^31 + 1` on every image with a non-empty output, whatever the numbers.

### C85 Scaling by 1 returns the image — partial
Nearest: IEEE; bilinear: exact arithmetic; Lanczos: within 3e-7 of the largest value (f32 pi); violated by bicubic, which blurs with 1/6, 4/6, 1/6 (c85_bicubic, c85_violated).

* `c85_bilinear_partial` (Scale7; axioms pcq): **C85, bilinear**
* `c85_lanczos_partial` (Scale7; axioms pcq): **C85, Lanczos** (exact arithmetic): scaling by 1 changes no channel by more than `3e-7` of the largest value. (It is not the identity because the code's pi is the f32 nearest to pi.)
* `c85_scale_lanczos_partial` (Scale7; axioms pcq): **C85, scale_lanczos** of any size `a > 0` (exact arithmetic)
* `c85_bicubic` (Scale7; axioms pcq): **C85, bicubic: what scaling by 1 does** (exact arithmetic): it blurs with the weights 1/6, 4/6, 1/6 in both directions.
* `c85_violated` (Scale7; axioms pcq): **C85 is violated by the bicubic method**: scaling the row `0, 100` by 1 gives `100 / 6` instead of 0.
* `c85_nearest_partial` (Scale8; axioms pcq): **C85, nearest neighbour** (IEEE f32)
* `c85_bilinear_ieee_partial` (Scale9; axioms pcq): (bilinear, IEEE) Scaling by 1 returns a finite image unchanged, bit for bit.

### C86 Scaling a constant image gives a constant image — partial
Nearest: any arithmetic; bilinear and bicubic: exact arithmetic; violated by Lanczos, whose weights do not sum to 1 (c86_lanczos_value, c86_violated).

* `c86_bilinear_partial` (Scale7; axioms pcq): **C86, bilinear and bicubic** (exact arithmetic)
* `c86_bicubic_partial` (Scale7; axioms pcq): (bicubic, exact arithmetic) a constant channel stays constant with the same value
* `c86_lanczos_value` (Scale7; axioms pcq): **C86, what Lanczos scaling does to a constant image**: it multiplies the value by the sums of the weights, which depend on the position.
* `c86_violated` (Scale7; axioms pcq): **C86 is violated by the Lanczos method**: enlarging a white pixel twice gives a pixel darker by more than 0.5%.
* `c86_nearest_partial` (Scale8; axioms pcq): **C86, nearest neighbour** (IEEE f32 and every other arithmetic): whatever the factors, every pixel of the result is a pixel of the image; so constant images stay constant.

### C87 Un-linearizing a linearized image returns it — proved

* `c87_curve` (Lab2; axioms pcq): (the curve) black is 0, white is 1, and a larger byte is strictly brighter.
* `c87_linearize` (Lab2; axioms pcq): (exact arithmetic) `linearize_srgb` applies the curve to every colour channel and keeps the alpha value.
* `c87_round_trip` (Lab2; axioms pcq): (exact arithmetic) un-linearizing the linearized image gives the image back, for every u8 image.

### C88 A trip through XYZ or CIELAB and back loses at most one level per channel — proved

* `c88_xyz` (Lab2; axioms pcq): (exact arithmetic) sRGB to XYZ and back: no channel changes by more than one level, and only downwards.
* `c88_lab` (Lab2; axioms pcq): (exact arithmetic) sRGB to CIELAB and back, for both reference whites.
* `c88_brightness_zero` (Lab2; axioms pcq): (exact arithmetic) brightness by 0 in CIELAB mode
* `c88_contrast_one` (Lab2; axioms pcq): (exact arithmetic) contrast by 1 in CIELAB mode
* `c88_white` (Lab2; axioms pcq): the loss does happen: every white pixel comes back as (254, 255, 254), because the published matrices are inverse only up to seven digits and the conversion to bytes truncates.

### C89 Histogram equalization only remaps lightness, monotonically, and alpha 0 means no equalization — proved

* `c89_value` (Equalize; axioms pcq): (exact arithmetic) `histogram_equalization` replaces the CIELAB lightness of every pixel by `alpha * 100 * percentile + (1 - alpha) * lightness` and changes nothing else.
* `c89_monotone` (Equalize; axioms pcq): the new lightness keeps the order: a pixel at least as light as another stays at least as light.
* `c89_alpha_zero` (Equalize; axioms pcq): `alpha = 0` means no equalization: the image comes back, at most one level darker in places.

### C90 The bilateral filter takes weighted means of CIELAB windows — proved

* `c90_value` (Bilateral2; axioms pcq): (exact arithmetic) `bilateral_filter` converts to CIELAB, replaces every channel of every pixel (alpha included) by the weighted mean of its window, and converts back.
* `c90_between` (Bilateral2; axioms pcq): the mean lies between any bounds that hold for the cells of the window other than the middle one; the middle one does not count.
* `c90_constant` (Bilateral2; axioms pcq): (exact arithmetic) an image of one colour comes back, at most one level darker.

### C91 Linear filters obey superposition, are local and keep channels apart — proved

* `c91_filter_1d` (Linear; axioms pcq): (exact arithmetic) `filter_1d` is linear: filtering `a * f + b * g` gives `a` times the filtered `f` plus `b` times the filtered `g`, at every pixel, in every channel.
* `c91_separable` (Linear; axioms pcq): `separable_filter` is linear
* `c91_unseparable` (Linear; axioms pcq): `unseparable_filter` is linear
* `c91_linear_filter` (Linear; axioms pcq): `linear_filter` is linear (given a correct singular value decomposition)
* `c91_kernel` (Linear; axioms pcq): the response is linear in the kernel too: filtering with `a * k + b * l` (entry by entry)
* `c91_local` (Linear; axioms pcq): (any arithmetic) the output pixel depends only on the `n x n` window: two images of the same shape that agree on the pixels within `n / 2` of `(x, y)` have the same filtered pixel there
* `c91_channel` (Linear; axioms pcq): (any arithmetic) each channel is filtered by itself: if two images agree on channel `c`, so do the outputs

### C92 Averaging filters stay within the range of their window (violated by gaussian_blur) — proved

* `c92_averaging_kernel` (Linear; axioms pcq): (exact arithmetic) a kernel of non-negative entries that sum to 1 averages: the filtered channel value of a pixel lies between the smallest and the largest value of that channel in the window
* `c92_weighted_avg` (Linear; axioms pcq): (exact arithmetic) `weighted_avg_filter` averages
* `c92_box` (Linear; axioms pcq): (exact arithmetic) `box_filter` averages (over the window it really uses, `size² x size²`: see C49)
* `c92_gaussian_constant` (Linear; axioms pcq): `gaussian_blur` of an image of one colour multiplies it by the sum of the kernel entries (exact arithmetic, given a correct singular value decomposition)
* `c92_gaussian_not_averaging` (Linear; axioms pcq): the Gaussian kernel is not normalised: whenever `size² ≤ 6 sigma²` the blur makes an image of one positive colour strictly darker, and whenever `7 sigma² ≤ 1` strictly brighter
* `c92_violated` (Linear; axioms pcq): for the usual 3 x 3 kernel with sigma = 1: a white image (255) comes back below 200

### C93 Brightness changes add up and can be undone exactly when nothing saturates — proved

* `c93_zero` (Tone2; axioms pcq): Bias 0 changes nothing.
* `c93_add` (Tone2; axioms pcq): Two biases of the same sign act like their sum (which has to stay within the documented range).
* `c93_undo` (Tone2; axioms pcq): Undoing: where no colour value of the image leaves 0..255, the opposite bias restores it; where one does, the image that comes back is a different one.
* `c93_monotone` (Tone2; axioms pq): A larger bias never gives a smaller value, a larger value never gives a smaller result, and the negative of an image is brightened exactly as the image is darkened.

### C94 The thresholding methods are idempotent, complementary and split the image — proved

* `c94_to_zero_idempotent` (Tone2; axioms pcq): `to_zero` and `to_zero_inv` are idempotent in any arithmetic, for any threshold and image whatever, NaN included.
* `c94_trunc_idempotent` (Tone2; axioms pcq): `trunc` is idempotent in IEEE f32 for every threshold; `binary` and `binary_inv` are idempotent and complementary when the threshold separates 0 from `max`.
* `c94_binary` (Tone2; axioms pcq): For 0 ≤ threshold < max, binary thresholding is idempotent, and applying it before or after the inverse method exchanges the two.
* `c94_split` (Tone2; axioms pcq): On one-channel images of finite values, `to_zero` and `to_zero_inv` split the image: the residual of the image and one of them is the other, in IEEE f32.

### C95 Operations commute with mirroring (violated by the median filter), per-pixel ones also with cropping — proved
Proved for the operations listed; the median filter violates it (c95_median_violated), as the statement says.

* `c95_tone` (Mirror; axioms pcq): the tone operations on bytes
* `c95_colour` (Mirror; axioms pcq): the colour operations on RGB (and HSV) bytes
* `c95_grayscale` (Mirror; axioms pcq): `rgb_to_grayscale` (up to 128 colour channels)
* `c95_threshold` (Mirror; axioms pcq): `threshold`, in any arithmetic
* `c95_linearize` (Mirror; axioms pcq): `linearize_srgb` in IEEE f32
* `c95_unseparable` (Mirror2; axioms pcq): (exact arithmetic) mirroring the result of `unseparable_filter` is filtering the mirror image with the mirrored kernel; in particular kernels that are their own mirror image commute with mirroring.
* `c95_separable` (Mirror2; axioms pcq): (exact arithmetic) the same for `separable_filter`: the mirrored kernel pair is the reversed one
* `c95_fixed_kernels` (Mirror2; axioms pcq): (exact arithmetic) the fixed-kernel filters commute with mirroring
* `c95_averages` (Mirror2; axioms pcq): (exact arithmetic) `weighted_avg_filter` and `box_filter` commute with mirroring
* `c95_derivative_mask` (Mirror2; axioms pcq): (exact arithmetic) gradient magnitudes commute with mirroring: `derivative_mask` with a symmetric smoothing kernel and an antisymmetric difference kernel
* `c95_sobel_prewitt` (Mirror2; axioms pcq): (exact arithmetic) Sobel and Prewitt magnitudes commute with mirroring
* `c95_erode` (Mirror2; axioms pcq): (IEEE f32) erosion commutes with mirroring
* `c95_dilate` (Mirror2; axioms pcq): (IEEE f32) dilation commutes with mirroring (also near the border, where the window the code uses is not the documented one)
* `c95_open_close` (Mirror2; axioms pcq): (IEEE f32) so do opening, closing and `majority`
* `c95_median_violated` (Mirror2; axioms pcq): **C95 is violated by the median filter**: filtering the column 5, 3 with radius 0 and turning it upside down gives 5, 5; turning it upside down first gives 5, 3.

### C96 The median filter only moves values around and commutes with increasing changes of the values — proved

* `c96_values` (Median3; axioms pcq): Every value of the output of `median_filter` is a value of the same channel of the input, taken from at most `r` rows further down and (except in the last column) from at most `r` columns to either side.
* `c96_invariant` (Median3; axioms pcq): hence whatever holds for every value of a channel of the input (bounds, being 0 or 255, ...) holds for the output
* `c96_remap` (Median3; axioms pcq): The median filter commutes with every change of the values that keeps the order of the values occurring in each channel: remapping the filtered image is filtering the remapped image.

### C97 Gamma correction is an increasing curve through black and the maximum — proved

* `c97_value` (Gamma; axioms pcq): (exact arithmetic) `gamma` with exponent `g >= 0` maps every colour byte `v` through one map of bytes and keeps the header and the alpha channel; for a maximum `max > 0` the map sends every `v <= max` to the integer nearest to the curve `(v/max)^g * max`, and saturates at 255 where the curve (for `v > max`) leaves the byte range.
* `c97_curve` (Gamma; axioms pcq): the byte map is increasing, fixes `max` (and 0 unless the exponent is 0), keeps values up to `max` up to `max`, is the identity for exponent 1, and a larger exponent darkens.
* `c97_one` (Gamma; axioms pcq): hence `gamma` with exponent 1 returns the image (whatever the maximum), and with exponent 0 makes every colour byte `max` on images whose values are at most `max`.

### C98 Sobel and Prewitt are the gradient magnitude — proved

* `c98_value` (Edge; axioms pcq): (exact arithmetic) On one-channel images `sobel_weighted(img, w)` is, at every pixel, the magnitude of the gradient taken with middle weight `w`; `sobel` is the case `w = 2`, `prewitt` the case `w = 1`.
* `c98_weights` (Edge; axioms pcq): `sobel` is `sobel_weighted` with weight 2 and `prewitt` is `sobel_weighted` with weight 1.
* `c98_affine` (Edge; axioms pcq): Scaling all values by `a` and adding `k` scales the result by `|a|`: the filters ignore the offset.
* `c98_ramp` (Edge; axioms pcq): On an inclined plane `a*x + b*y + k` the result away from the border is `(2*weight + 4)` times the slope `sqrt(a^2 + b^2)`, whatever the direction: `8` times for Sobel, `6` times for Prewitt.
* `c98_range` (Edge; axioms pcq): For values between 0 and `m` the result lies between 0 and `sqrt 2 * (weight + 2) * m` (about 1443 for Sobel on bytes: larger than 255).

### C99 The Laplacian of Gaussian vanishes on constant images — partial
Violated by the code: the kernel has 1 + d/(2 sigma^2) where the formula has 1 - d/(2 sigma^2), so every weight is negative and every positive image becomes strictly negative (c99_violated, for every odd size and sigma > 0). What the code does compute is proved (c99_value, c99_even).

* `c99_value` (Edge; axioms pcq): (exact arithmetic) `laplacian_of_gaussian(img, size, sigma)` is the two-dimensional filter with the kernel `logWeight`; even sizes are rejected.
* `c99_even` (Edge; axioms pcq): even sizes are rejected
* `c99_violated` (Edge; axioms pcq): **C99 is violated**: a Laplacian vanishes on constant images, and its weights sum to zero. The sign slip makes every weight negative, so the filter turns *every* image of positive values (in particular every constant one) into strictly negative values, for every odd size and every sigma > 0.

### C100 Float grayscale is the mean of the colour values — proved

* `c100_value` (GrayF32; axioms pcq): `rgb_to_grayscale_f32` returns, for every non-empty image with at least one colour channel and in every arithmetic, the mean of the colour values of each pixel (summed left to right) followed by its alpha value.
* `c100_mean` (GrayF32; axioms pcq): (exact arithmetic) the grey value is the mean of the colour values: between the smallest and the largest, equal to the common value of a grey pixel, and independent of the order of the channels.
* `c100_ieee` (GrayF32; axioms pcq): (IEEE f32) For integer-valued channels whose absolute values sum to at most 2^24 the sum is exact, so the grey value is the correctly rounded mean; a grey pixel (all channels `v`) gives exactly `v`.

### C101 Float HSV conversion is the textbook hexcone model — proved

* `c101_back_pixel` (HsvReal; axioms pcq): (one pixel, exact arithmetic) For a hue in `[0, 1)` and any saturation and value, `hsv_to_rgb_f32` computes the textbook hexcone colour, each channel truncated to a byte.
* `c101_hue_one` (HsvReal; axioms pcq): **C101 is violated at hue 1** The textbook hue is periodic: 1 is the same as 0, red. `hsv_to_rgb_f32` returns the value in red *and blue* there: magenta instead of red.
* `c101_forward_pixel` (HsvReal; axioms pcq): (one pixel, exact arithmetic) `rgb_to_hsv_f32` computes the textbook hexcone hue (in turns, in `[0, 1)`), saturation, and value `max/255` of every byte colour.
* `c101_round_trip_pixel` (HsvReal; axioms pcq): (one pixel) In exact arithmetic the two conversions are inverse: every byte colour comes back unchanged.
* `c101_round_trip` (HsvReal; axioms pcq): In exact arithmetic `hsv_to_rgb_f32(rgb_to_hsv_f32(img))` is `img`, for every image with three colour channels, with or without alpha.

### C102 Arithmetic and argument checks of the channel types — proved

* `c102_u8` (Numbers; axioms pcq): (u8)
* `c102_u32` (Numbers; axioms pcq): (u32 and usize)
* `c102_usize` (Numbers; axioms pcq): (usize)
* `c102_signed` (Numbers; axioms pq): (i16 and i32)
* `c102_checks` (Numbers; axioms pcq): (argument checks) On every integer type `check_odd`, `check_even`, `check_non_neg` and `check_in_range` accept exactly the odd, even, non-negative values and those between the two bounds, and otherwise report InvalidArg.
* `c102_float_checks` (Numbers; axioms pcq): (argument checks on floats) On finite floats `check_non_neg` and `check_in_range` decide the same mathematical conditions; a NaN passes both.

### C103 vector_mul is the matrix-vector product — proved

* `c103_mut` (Numbers; axioms pq): (reusing a buffer) `vector_mul_mut` puts in its output exactly what `vector_mul` returns, whatever the output held before, and fails in the same cases.
* `c103_dims` (Numbers; axioms pcq): (dimensions) An empty vector is a division by zero; a matrix with fewer than `n * n` or at least `n * n + n` entries is reported as InvalidArg before anything is computed.
* `c103_integers` (Numbers; axioms pcq): (integers) On an integer type, for an `n`-vector and a matrix of at least `n * n` and fewer than `n * n + n` entries, `vector_mul` returns the matrix-vector product when every product and partial sum fits in the type; otherwise a debug build panics with an overflow, and a release build returns each entry of the product modulo the number of values of the type.
* `c103_real` (Numbers; axioms pcq): (exact arithmetic) In exact arithmetic, for an `n`-vector and a matrix of at least `n * n` and fewer than `n * n + n` entries, `vector_mul` returns the product of the leading `n * n` entries, read row by row, with the vector.

### C104 Bilinear enlargement by whole factors keeps the original samples — proved

* `c104_samples` (Scale9; axioms pcq): Bilinear enlargement by whole factors in IEEE f32 keeps every original sample: the output pixel at `(kx * X, ky * Y)` is the input pixel at `(X, Y)`, bit for bit, for every finite image.

### C105 The predefined Gaussian kernels are exact and separable — proved

* `c105_separable` (Dyadic; axioms pcq): On an image of integers up to `B` in size and kernels whose entries are integers over powers of two, the sums fitting in 24 bits, `separable_filter` with the two kernels and `unseparable_filter` with their outer product return the same image, bit for bit in IEEE f32: the exact padded correlation.
* `c105_gaussian3` (Dyadic; axioms pcq): (the predefined Gaussian kernels, side 3) On every image of integers up to 65536 in size, and so on every converted 8-bit image, filtering with the predefined 1-d kernel in both directions and with the predefined 2-d kernel give the same image bit for bit: the exact correlation with the binomial weights over 16.
* `c105_gaussian5` (Dyadic; axioms pcq): (the predefined Gaussian kernels, side 5)
* `c105_range` (Dyadic; axioms pcq): (range) Both predefined blurs keep every channel within the range of values it has in the image, exactly in IEEE f32; in particular a constant image comes back unchanged.

### C106 In f32, trips through linear RGB, XYZ or CIELAB lose at most one level per channel — proved

* `c106_linearize_accuracy` (Trip3; axioms pcq): (f32) `linearize_srgb_f32` is within 1.5e-6 of the exact curve, for every byte of every image; alpha is kept.
* `c106_linear_trip` (Trip3; axioms pcq): (f32) un-linearizing a linearized image gives the image back up to one level, downwards; the darkest eleven levels and the alpha values come back exactly.
* `c106_xyz` (Trip3; axioms pcq): (f32) sRGB to XYZ and back loses at most one level per colour channel, and only downwards.
* `c106_lab` (Trip3; axioms pcq): (f32) sRGB to CIELAB and back, for both reference whites.
* `c106_brightness_zero` (Trip3; axioms pcq): (f32) brightness by 0 in CIELAB mode changes no channel by more than one level.
* `c106_contrast_one` (Trip3; axioms pcq): (f32) contrast by 1 in CIELAB mode changes no channel by more than one level.

### C107 f32 conversions between linear RGB, XYZ and CIELAB are accurate — proved

* `c107_matrices` (Trip4; axioms pcq): (f32) linear RGB in `[0, 1]` to XYZ and back: every channel within 6e-6, alpha untouched.
* `c107_lab` (Trip4; axioms pcq): (f32) XYZ in `[0, 1.09]` (all colours of the sRGB gamut) to CIELAB and back, for both reference whites: every channel within 1.5e-5, alpha untouched.

### C108 f32 gamma correction rounds the exact curve — proved

* `c108_gamma` (Trip4; axioms pcq): (f32) `gamma` with exponent `0 < g <= 4` and maximum `max` maps every colour byte `1 <= v <= max` to a byte within 0.5003 of the exact curve `(v/max)^g * max` (so to the nearest integer unless the curve comes within 0.0003 of a tie), never exceeds `max` there, fixes `max` exactly, fixes 0 when the platform's `powf(0, g)` is 0, and keeps alpha.

### C109 The f32 filters are close to the exact padded correlation — proved

* `c109_filter_1d` (FilterErr; axioms pcq): `filter_1d` on finite f32 numbers: every output channel is a finite number that differs from the exact padded correlation by at most `(n + 1) / 2^23` of the correlation of the absolute values, plus `n / 2^147` for underflow.
* `c109_unseparable` (FilterErr; axioms pcq): `unseparable_filter` on finite f32 numbers, kernels of up to 8388608 entries
* `c109_separable` (FilterErr; axioms pcq): `separable_filter` on finite f32 numbers at most `B` in size: the result is within `3 (n + 1) / 2^23 · Σ|vert| · Σ|horz| · B` (plus underflow) of the exact two-dimensional padded correlation with the outer product of the kernels.
* `c109_separable_vs_unseparable` (FilterErr2; axioms pcq): f32 counterpart of C46: `separable_filter` with two kernels and `unseparable_filter` with their outer product (the products being representable) return images whose channels differ by at most about `(n² + 3 n) / 2^23` of the largest possible response.

### C110 The averaging filters in f32 stay inside the range of the window — proved

* `c110_averaging_kernel` (FilterErr2; axioms pcq): `unseparable_filter` in f32 with non-negative weights adding up to about one: every output channel is a number in the range of the window, up to an error of about `n² / 2^23` of the largest value.
* `c110_weighted_avg` (FilterErr2; axioms pcq): `weighted_avg_filter` in f32: every output channel is a number in the range of the window, up to `(size² + 3) / 2^23` of the largest value (and an underflow term). In particular a constant image is kept up to that error.
* `c110_box` (FilterErr2; axioms pcq): `box_filter` in f32: every output channel is a number in the range of the `size² × size²` window that the code averages over (see C49), up to `(3 size² + 15) / 2^23` of the largest value and an underflow term.

### C111 Sobel and Prewitt in f32 are the gradient magnitude to f32 accuracy — proved

* `c111_gradient` (EdgeF32; axioms pcq): On every one-channel image of bytes, the f32 `sobel`, `prewitt` and `sobel_weighted` (weight at most 9) compute the gradient magnitude to f32 accuracy; the only assumption on the platform is that `powf(n, 2.0)` is exact for integers up to 4096.

### C112 Histogram equalization in f32 — proved

* `c112_value` (EqualizeF32; axioms pcq): (f32) `histogram_equalization` replaces the CIELAB lightness `t` of every pixel by a float within 0.0002 of `alpha * 100 * share + (1 - alpha) * t`, where `share` is the percentile of the pixel's bin, and changes nothing else: the two colour coordinates go back through the conversion as they came, and alpha is kept.
* `c112_alpha_zero` (EqualizeF32; axioms pcq): (f32) `alpha = 0` means no equalization: the image comes back, at most one level darker in places — whatever the precision, as long as the function accepts it.
* `c112_order` (EqualizeF32; axioms pcq): (f32) the order of the lightnesses is kept exactly, rounding included: if one pixel's lightness is at most another's, the new lightness the function computes is at most the other's.

### C113 Bilinear scaling computes its blend in f32, without overshoot — proved

* `c113_bilinear_value` (ScaleErr; axioms pcq): (f32) What bilinear scaling computes, for every factor: the output pixel at (x, y) is, to within 2^-18 of the largest value of that channel, the blend of the four pixels around the position (x / xf, y / yf) (each coordinate rounded to a float), with the fractional part of the position as the weight of the *left* and *upper* pixels.
* `c113_bilinear_range` (ScaleErr; axioms pcq): (f32) Bilinear scaling does not overshoot: if all values of a channel lie between `lo` and `hi`, so do all output values, up to 2^-18 of the largest absolute value.
* `c113_bilinear_constant` (ScaleErr; axioms pcq): (f32) A constant image stays constant, up to 2^-18 of its value.

### C114 Bicubic scaling computes the B-spline blend in f32, without overshoot — proved

* `c114_bicubic_value` (CubicErr; axioms pcq): (f32) What bicubic scaling computes, for every factor: the output pixel at (x, y) is, to within 2^-10 of the largest value, the sum of the 4 x 4 pixels around the position (x / xf, y / yf) (each coordinate rounded to a float), weighted by the cubic B-spline of their distances. The only assumption about the platform is that `powf` computes cubes accurately.
* `c114_bicubic_range` (CubicErr; axioms pcq): (f32) Bicubic scaling does not overshoot: if all values of a channel lie between `lo` and `hi`, so do all output values, up to 2^-10 of the largest absolute value.
* `c114_bicubic_constant` (CubicErr; axioms pcq): (f32) Bicubic scaling of a constant image gives the constant, up to a relative 2^-10.

### C115 Lanczos scaling computes the windowed sinc sum in f32 — proved

* `c115_lanczos_value` (LanczosErr; axioms pcq): (f32) What scale_lanczos computes, for every factor and every size up to 100: the output pixel at (x, y) is the sum of the `2A x 2A` pixels around the position (x / xf, y / yf) (each coordinate rounded to a float), weighted by the Lanczos window, with an error of at most `4 A² (8 A² + 70) / 2^24` times the largest value. The only assumption about the platform is that `sin` is accurate.
* `c115_lanczos_scale` (LanczosErr; axioms pcq): (f32) scale with the Lanczos method is size 3, with an error of at most 2^-11 of the largest value.
* `c115_lanczos_identity` (LanczosErr; axioms pcq): (f32) scale_lanczos by the factors 1 returns the image, up to the rounding error.

### C116 Gaussian and LoG kernels hold the mathematical weights in f32 — proved

* `c116_gaussian_value` (GaussErr; axioms pcq): `generate_gaussian_kernel(size, sigma)` in f32, for every odd size up to 4095 and every sigma from 1/16 to 1000: every entry is a non-negative number; with `d` the squared distance of its position from the centre it differs from the Gaussian `exp(-d / 2σ²) / 2πσ²` (true constants, real arithmetic) by at most `(1 + d / 2σ²) / 2^20` of it, plus 2^-130 for underflow.
* `c116_log_value` (GaussErr; axioms pcq): `generate_log_kernel(size, sigma)` in f32: every entry is a number that is not positive and differs from `-1/πσ⁴ (1 + d / 2σ²) exp(-d / 2σ²)` by at most `(1 + d / 2σ²) / 2^19` of it, plus 2^-80.

### C117 Gaussian blur and Laplacian of Gaussian compute their weighted sums in f32 — proved

* `c117_gaussian_blur` (GaussBlur; axioms pcq): `gaussian_blur` in f32, on an image of numbers of magnitude at most `B`: every output channel is a number that differs from the padded correlation with the true Gaussian weights by at most `(n² + 24) / 2^23` of `B` times the sum of the weights times `1 + d / 2σ²`, whichever branch `linear_filter` takes; `δ` is the accuracy of the singular value decomposition.
* `c117_log` (GaussBlur; axioms pcq): `laplacian_of_gaussian` in f32, on an image of numbers of magnitude at most `B`: every output channel is a number that differs from the padded correlation with the weights `-1/πσ⁴ (1 + d / 2σ²) exp(-d / 2σ²)` by at most `(n² + 33 + 32 d / 2σ²) / 2^23` of each term, plus an underflow term; and on an image of numbers of at least 2^-60 every output channel is negative (so C99 is violated in f32 as well, for every size up to 2047).
* `c117_gaussian_darkens` (GaussBlur2; axioms pcq): (f32) `gaussian_blur` darkens: an image of one positive value comes back at least 3 per cent darker in every channel when `size² ≤ 6 sigma²` (sizes up to 181).
* `c117_gaussian_brightens` (GaussBlur2; axioms pcq): (f32) and it brightens: by at least 9 per cent when `7 sigma² ≤ 1` (sizes up to 15).

### C118 Bilateral filter computes its weighted mean in f32 — proved

* `c118_spatial_value` (BilateralErr2; axioms pcq): `generate_spatial_mat(size, spatial)` in f32, for every odd size up to 4095 and every spatial parameter from 1/16 to 1000: the middle entry is 0, and every other entry is a non-negative number within a relative error of `(1 + d / 2σ²) / 2^20` of the Gaussian of the distance to the middle (plus 2^-130), `d` being the squared distance.
* `c118_mean` (BilateralErr3; axioms pcq): `bilateral_filter` in f32: the image is converted to CIELAB numbers `v` of magnitude at most 500; wherever the values of the window around a pixel are within `D ≤ 8 range` of the pixel's own value and at most `B` in magnitude, the filtered channel is a number within `D / 2^13 + 3 (size² + 1) / 2^23 B + 2^-40` of the exact Gaussian-weighted mean; and the filtered image is converted back.
* `c118_between` (BilateralErr3; axioms pcq): where the CIELAB values of the window lie in an interval `[lo, hi]` at most `8 range` wide, the filtered channel lies in it too, up to `(hi - lo) / 2^13 + 3 (size² + 1) / 2^23 B + 2^-40`.

### C119 srgb_to_lab in f32 gives the CIELAB coordinates — proved

* `c119_lab_accurate` (LabErr; axioms pcq): `srgb_to_lab` in f32, either white: every pixel `(a, b, c, alpha)` becomes numbers within 0.003 (lightness), 0.026 (a) and 0.011 (b) of the exact CIELAB coordinates, followed by the alpha channel as a float.
* `c119_exact_lightness` (LabErr; axioms pcq): the exact lightness is between 0 (black) and that of white, which is 100 (and a bit: the published matrix adds up to 1.0000001), and it does not decrease when a channel increases
* `c119_lightness_range` (LabErr; axioms pcq): in f32 the lightness of every pixel is between -0.003 and 100.004, the one of a black pixel within 0.003 of 0, the one of a white pixel within 0.004 of 100.

### C120 In f32 the bilateral filter blackens isolated pixels (defect) — proved

* `c120_isolated_black` (BilateralHole; axioms pcq): (defect, f32) With a `powf` that underflows to 0, every pixel whose exact lightness differs from the lightness of each other pixel of its window by at least `16 range + 0.01` comes out black, whatever its colour: all weights are 0, and so the mean is 0/0.
* `c120_grey_on_white` (BilateralHole; axioms pcq): the defect on a concrete image: a pixel of any grey level up to 128 on white, filtered with range 1 and spatial 1/2 (a 3 x 3 window), comes out black, although its whole neighbourhood is lighter than it.

### C121 Linear filters obey superposition in f32 up to rounding — proved

* `c121_unseparable` (LinearErr; axioms pcq): `unseparable_filter` in f32 obeys superposition up to rounding: if `h = α f + β g` then the filtered `h` is `α` times the filtered `f` plus `β` times the filtered `g`, up to `(1 + |α| + |β|) ((n² + 1) / 2^23 Σ|kernel| B + n² / 2^147)`.
* `c121_filter_1d` (LinearErr; axioms pcq): `filter_1d` in f32, in either direction
* `c121_separable` (LinearErr; axioms pcq): `separable_filter` in f32

### C122 Shear in f32: exact size, positions within rounding, and when it panics — proved

* `c122_shear` (ShearF32; axioms pcq): `shear` in f32: if neither `H |sx|` nor `W |sy|` lies just below an integer, the shear succeeds, its output has the exact size `W + floor(H |sx|)` by `H + floor(W |sy|)`; every pixel is moved to a position that differs from the exact one by less than one pixel downwards and by at most `(W + H |sx|) / 2^20` upwards (the truncation to a pixel plus rounding); an output pixel is a copy of one of the pixels moved there, or zero if there is none.
* `c122_dyadic` (ShearF32; axioms pcq): shears by multiples of `1 / 2^j` are exact in f32: as long as `W 2^j + H |a|` and `H 2^j + W |b|` do not exceed `2^24`, the shear by `a / 2^j` and `b / 2^j` succeeds, the output is `W + floor(H |sx|)` by `H + floor(W |sy|)` pixels, the pixel `(x, y)` moves to exactly `(x + floor(dist_x(y)), y + floor(dist_y(x)))`, and positions that receive no pixel are zero.
* `c122_violated` (ShearF32; axioms pcq): **C122, violated without the condition**: there are factors for which `shear` panics on every image of at least three columns although the exact result would fit: whenever the offset `H sx` is rounded to `1 - 2^-24` (for instance `sx = (1 - 2^-24) / H` with `H` a power of two), the last pixel of the first row is sent to column `W` of an image `W` columns wide.

### C123 Summed-area tables of arbitrary f32 images are accurate — proved

* `c123_table` (SummedErr; axioms pcq): summed-area tables in f32, for any numbers: if the absolute values of a channel add up to at most `B`, entry `(x, y)` of the table differs from the sum over columns `0..=x` and rows `0..=y` by at most `(x + 1) (y + 1) B / 2^20`.
* `c123_rectangle` (SummedErr; axioms pcq): rectangle sums from such a table: `rectangular_intensity_sum` differs from the sum over the rectangle by at most `(4 (x1 + 1) (y1 + 1) + 2) B / 2^20`.

### C124 Rotation in f32 never fails and lands where it should — proved

* `c124_exact` (RotateExact; axioms pcq): **C124, exact positions** If the platform's cosine and sine of the angle are multiples of `2^-k` and the image has at most `2^(22-k)` columns plus rows, nothing is rounded: the output has exactly the truncated size, every pixel goes to exactly the truncated position (and the left neighbour), and of several pixels sent to the same place the last one, row by row, wins.
* `c124_rotate` (RotateF32; axioms pcq): `rotate` in f32 never fails: for every non-empty image of at most `2^22` columns plus rows and every angle (whatever values of magnitude at most one the platform's sine and cosine return, as long as `|sin| + |cos| ≥ 1`), the rotation succeeds. The output is `W |cos| + H |sin|` columns by `H |cos| + W |sin|` rows, truncated, up to a relative error of `2^-20`; every pixel moves to the exactly rotated position, truncated (and not below zero), up to the same error; it is written there and to the left neighbour, and an output pixel is a copy of the last (row by row) of the pixels moved there, or zero if there is none.
* `c124_every_angle` (RotateF32; axioms pcq): On a platform whose sine and cosine are correctly rounded, `rotate` in f32 succeeds for every finite angle and every non-empty image of at most `2^22` columns plus rows; the output has the size of the exactly rotated rectangle, truncated, up to a relative error of `2^-19`.

### C125 Accuracy of the float HSV conversions — proved

* `c125_back_pixel` (HsvErr; axioms pcq): (one pixel, conversion back) For every hue in `[0, 1)` and saturation and value in `[0, 1]`, all single-precision numbers, each byte `hsv_to_rgb_f32` returns is the textbook hexcone channel, truncated, where the rounding errors before the truncation amount to at most 1/4000 of a step.
* `c125_forward_pixel` (HsvErr; axioms pcq): (one pixel, forward) `rgb_to_hsv_f32` in IEEE single precision: for every byte colour the hue lies in `[0, 1)` and is within 2⁻¹⁶ of the textbook hue, the saturation is within 2⁻²² of the textbook saturation, and the value is within 2⁻²⁴ of `max/255`.
* `c125_forward` (HsvErr; axioms pcq): (forward) `rgb_to_hsv_f32` in IEEE single precision, for every image with three colour channels: it succeeds, keeps the shape, every pixel holds a hue, saturation and value in their ranges within 2⁻¹⁶, 2⁻²² and 2⁻²⁴ of the textbook ones, and the alpha channel, if any, is within 2⁻²⁴ of `byte/255`.
* `c125_back` (HsvErr; axioms pcq): (back) `hsv_to_rgb_f32` in IEEE single precision, for every image with three colour channels that holds hues in `[0, 1)` and saturations and values in `[0, 1]`: it succeeds, keeps the shape, and every byte is the truncated textbook channel (up to 1/4000 of a step before truncating); an alpha value in `[0, 1]` becomes the nearest byte (up to 1/4000 of a step before rounding).

### C126 Undoing the sRGB transfer function follows its curve, which drops at the threshold — proved

* `c126_curve` (UnlinErr; axioms pcq): (the curve) Below the threshold and above it the curve increases, but at the threshold it falls from above 10.3 to below 5.6, and that is the most it ever loses: for `x ≤ y` the level of `y` is at least that of `x` minus 4.8.
* `c126_f32` (UnlinErr; axioms pcq): (f32) `unlinearize_srgb_f32` of every image of floats: it succeeds and keeps the shape; every colour channel holding a number between -2 and 1.9 (outside a gap of 1e-8 right above the threshold) becomes the truncated level of the curve, with rounding errors of at most 1/1000 of a level before the truncation; alpha is rounded to the nearest byte.
* `c126_drop` (UnlinErr; axioms pcq): (f32, defect) In every image, linear values between 0.0031 and the threshold 0.0031308 become level 10, but the brighter ones from there to 0.0032 become level 5: the conversion is not monotone.
* `c126_exact` (UnlinErr; axioms pcq): (exact arithmetic) `unlinearize_srgb_f32` computes the truncated curve and rounds alpha.

### C127 CIELAB back to sRGB, and brightness and contrast through CIELAB, compute the published formulas — proved

* `c127_equalize` (EqLevels; axioms pcq): (f32) histogram equalization: every pixel becomes the levels of the linear colour whose lightness is `100 alpha s + (1 - alpha) l`, where `l` is the lightness of the pixel and `s` the share of pixels (plus that of occupied bins, see C26) that are not lighter, and whose other two coordinates are those of the pixel, with an error of at most `0.00146 m² + 2e-5` in linear light, where `m` bounds the three CIELAB arguments of the new colour. Alpha is kept.
* `c127_exact` (LabBackErr; axioms pcq): (exact arithmetic) `lab_to_srgb`, either white: every pixel `(l, a, b, alpha)` becomes the truncated levels of its linear red, green and blue, followed by the rounded alpha.
* `c127_f32` (LabBackErr; axioms pcq): (f32) `lab_to_srgb` of every image of floats, either white: it succeeds and keeps the shape; every pixel holding numbers `l, a, b` whose three CIELAB arguments are between -0.98 and 1.19 becomes the levels of linear values within 3e-5 of its linear red, green and blue (as long as these are at most 1.89); alpha is rounded to the nearest byte.
* `c127_brightness` (LabBackErr; axioms pcq): (f32) brightness in CIELAB mode: every pixel becomes the levels of the linear colour whose lightness is that of the pixel plus `bias * 100 / 255` and whose other two coordinates are those of the pixel, with an error of at most `0.00145 m² + 2e-5` in linear light, where `m` bounds the three CIELAB arguments of the new colour (so 0.0022 at most, and 9e-5 near black). Alpha is kept.
* `c127_levels` (LabBackErr; axioms pcq): (in levels) A level of a linear value known up to `e` is, away from the threshold, the level of that value up to `3294.6 e + 1/500` before the truncation: a tenth of a level for the 3e-5 of `c127_f32`.
* `c127_contrast` (LabBackErr; axioms pcq): (f32) contrast in CIELAB mode with a gain between 0 and 1: every pixel becomes the levels of the linear colour whose lightness is that of the pixel times the gain and whose other two coordinates are those of the pixel, with an error of at most `0.00145 m² + 2e-5` in linear light, where `m` bounds the three CIELAB arguments of the pixel (1.2 always does). Alpha is kept.
* `c127_darkens` (LabBackErr; axioms pcq): (f32, defect) Increasing the brightness in CIELAB mode by one level darkens: every pixel `(10, 10, 10)` of every image gets colour channels of at most 6.

### C128 Debug and release builds agree unless the debug build stops at an overflow — proved

* `c128_channels` (Builds; axioms p): the hypothesis on channel types below holds for every supported one
* `c128_image` (Builds; axioms p): the image type: construction, pixel access, neighbourhoods, map/apply/edit families (with closures that agree themselves) and the pixel iterator
* `c128_util` (Builds; axioms pcq): kernel application, histograms, kernel generators, summed-area tables
* `c128_convert` (Builds; axioms pq): image type and range conversion
* `c128_colorspace` (Builds; axioms pcq): colour space conversions, scalar and SIMD grayscale
* `c128_tone` (Builds; axioms pcq): tone operations
* `c128_transform` (Builds; axioms pcq): geometric transforms; a parallel one under the same task order in both builds
* `c128_filter` (Builds; axioms pcq): linear, edge, threshold and bilateral filters; the SVD is the same external function in both builds
* `c128_order` (Builds; axioms pq): order-statistic filters (the standard library's binary search, `bs`, is the same in both builds)
* `c128_morphology` (Builds; axioms pcq): morphology

### C129 How calls end: which errors are returned, and no undefined behaviour without AVX2 — proved

* `c129_channels` (Orderly; axioms p): the hypothesis on channel types below holds for every supported one
* `c129_image` (Orderly; axioms p): the image type: construction, pixel access, neighbourhoods, map/apply/edit families (with closures that end in order themselves) and the pixel iterator
* `c129_util` (Orderly; axioms pcq): kernel application, histograms, kernel generators, summed-area tables
* `c129_convert` (Orderly; axioms pq): image type and range conversion
* `c129_colorspace` (Orderly; axioms pcq): colour space conversions, scalar grayscale
* `c129_tone` (Orderly; axioms pcq): tone operations
* `c129_transform` (Orderly; axioms pcq): geometric transforms, parallel ones under every task order
* `c129_filter` (Orderly; axioms pcq): linear, edge, threshold and bilateral filters; the SVD is any external function
* `c129_order` (Orderly; axioms pq): order-statistic filters (the standard library's binary search, `bs`, is any function)
* `c129_morphology` (Orderly; axioms pcq): morphology
* `c129_io` (Orderly; axioms none): reading and writing files never panics: `read` returns an image, an io error or the unsupported-colour error; `write` returns `Ok`, one of these errors or the image-write error

### C130 Filtering an image tile by tile gives the same pixels as filtering it whole — proved

* `c130_crop` (Tiling; axioms pcq): `crop` cuts a tile: no seam effects at all
* `c130_nested` (Tiling; axioms pq): a tile of a tile is a tile
* `c130_filter_1d` (Tiling; axioms pcq): `filter_1d`, any kernel of odd length, any arithmetic: the margin grows by half the kernel
* `c130_separable` (Tiling; axioms pcq): `separable_filter`: the margin grows by half the kernel, not by twice that
* `c130_box` (Tiling; axioms pcq): `box_filter` (whose kernel is `size * size` long): the margin grows by `size * size / 2`
* `c130_derivative_mask` (Tiling; axioms pcq): the gradient filters (`sobel`, `prewitt`, `sobel_weighted` and any other pair of 1-d masks)
* `c130_edge` (Tiling; axioms pcq): `sobel`, `prewitt` and `sobel_weighted`: the margin grows by one pixel
* `c130_threshold` (Tiling; axioms pcq): `threshold` looks at one pixel: the margin stays
* `c130_unseparable` (Tiling; axioms pcq): `unseparable_filter`, any `n x n` kernel, bit for bit in f32
* `c130_sharpen` (Tiling; axioms pcq): `sharpen`, `laplacian` (margin 1) and `unsharp_masking` (margin 2)
* `c130_kernels` (Tiling; axioms pcq): `weighted_avg_filter` and `laplacian_of_gaussian`
* `c130_linear` (Tiling2; axioms pcq): `linear_filter`, whatever the SVD routine answers: if it succeeds on the image it succeeds on the tile, and the margin grows by half the kernel side
* `c130_gaussian_blur` (Tiling2; axioms pcq): `gaussian_blur`
* `c130_bilateral` (Tiling2; axioms pcq): `bilateral_filter`: colour conversion, smoothing and conversion back, bit for bit
* `c130_erode` (Tiling2; axioms pcq): `erode`
* `c130_dilate` (Tiling2; axioms pcq): `dilate` and `majority`. At the image border the code's window is not the one documented (C73); the tile sees the same window.
* `c130_stitch` (Tiling2; axioms pq): stitching: two tiles that overlap by `2 m` columns and are right `m` away from the seam determine the whole image: take columns before `a` from the left tile, the others from the right tile

### C131 Every image a user holds is consistent, after any history of calls — proved

* `c131_call` (Histories; axioms pcq): C131: one call that returns normally turns a consistent image into a consistent image.
* `c131_history` (Histories; axioms pcq): C131: after any history of calls, of any length and in any order, every image the user holds is consistent: its buffer has exactly `width * height * channels` elements and every pixel inside it can be read in both build profiles.
* `c131_same_header` (Histories; axioms pcq): C131: the calls that keep the header of the image they are given.
* `c131_three_colours` (Histories; axioms pcq): C131: the colour conversions return three colours, plus the alpha channel if the image has one.
* `c131_sizes` (Histories; axioms pcq): C131: a call to `crop` or `scale` that returns gives an image of exactly the size asked for, also when the size does not fit the machine integers of a build without overflow checks (such calls do not return).
* `c131_violated` (Histories; axioms pcq): C131 fails for `shear` without overflow checks: shearing an image of one pixel by (-2147483648, -1) returns an image whose header says 2147483649 × 2 and whose buffer has two elements. (`rotate` has the same computation.)
* `c131_crop_violated` (Histories; axioms none): C131 fails for the rayon `crop` without overflow checks when the corner plus the size wraps: the image returned has the header 2147483648 × 2 and an empty buffer. (The sequential version does not return, see `c131_sizes`.)

### C132 Geometric operations only move channel values — proved

* `c132_get_pixel` (Moves; axioms p): `get_pixel`
* `c132_set_pixel` (Moves; axioms p): `set_pixel`
* `c132_crop` (Moves; axioms p): `crop`
* `c132_crop_par` (Moves; axioms p): `crop` (rayon), for every schedule
* `c132_overlay` (Moves; axioms p): `overlay`
* `c132_translate` (Moves; axioms p): `translate`
* `c132_reflect` (Moves; axioms p): `reflect`
* `c132_shear` (Moves; axioms pq): `shear`
* `c132_rotate` (Moves; axioms pcq): `rotate`
* `c132_scale_nearest` (Moves; axioms pcq): nearest-neighbour scaling
* `c132_scale_nearest_par` (Moves; axioms pcq): nearest-neighbour scaling (rayon), for every schedule
* `c132_commute` (Moves; axioms pcq): Images of one channel type turned into another (or the same): cropping, moving and mirroring can be done before or after.
* `c132_only_moves` (Moves; axioms pq): Every channel value of the result is a value of the input or zero.
* `c132_commute_float` (Moves; axioms pcq): The same for the operations on float images.
* `c132_only_moves_float` (Moves; axioms pcq): No new values appear: nearest-neighbour scaling, shearing and rotating give values of the input or zero.

### C133 Brightening an image never darkens its filtered version (linear filters; the median filter violates it) — proved

* `c133_filter_1d` (Brighter; axioms pq): `filter_1d`
* `c133_filter_1d_par` (Brighter; axioms pq): `filter_1d` (rayon), for every schedule
* `c133_separable` (Brighter; axioms pq): `separable_filter`
* `c133_unseparable` (Brighter; axioms pq): `unseparable_filter`
* `c133_unseparable_par` (Brighter; axioms pq): `unseparable_filter` (rayon), for every schedule
* `c133_brighter` (Brighter; axioms pcq): The linear filters with weights that are not negative, sequential and rayon (for every schedule).
* `c133_box` (Brighter; axioms pcq): `box_filter`, for every size
* `c133_weighted_avg` (Brighter; axioms pcq): `weighted_avg_filter`, for every size and weight
* `c133_median_violated` (Brighter; axioms pcq): **C133 is violated by the median filter**: brightening two values turns the value in the middle of the filtered image from 1 to 0
* `c133_bilinear` (Brighter2; axioms pcq): bilinear scaling, for every positive factor and all images whose sides fit a float exactly
* `c133_bilinear_par` (Brighter2; axioms pcq): bilinear scaling (rayon), for every two schedules

### C134 Filters and scaling treat an image and its negative alike — proved

* `c134_filters` (Polarity; axioms pcq): Every linear filter, of every kernel: the filtered negative is exactly the negative of the filtered image.
* `c134_linear_filter` (Polarity; axioms pcq): `linear_filter`, whatever the singular value decomposition returns for the kernel
* `c134_named` (Polarity; axioms pcq): the named filters: box, weighted average, Gaussian blur, sharpen, unsharp masking, Laplacian, Laplacian of Gaussian
* `c134_scale` (Polarity; axioms pcq): Scaling, with every method and factor, sequential and rayon.
* `c134_derivative_mask` (Polarity; axioms pcq): the derivative masks
* `c134_edges` (Polarity; axioms pcq): The edge filters do not see polarity: the negative of an image has the same edges, exactly.

### C135 Nearest-neighbour shrinking by a power of two undoes enlarging (violated by other factors) — proved

* `c135_shrink` (Shrink; axioms pcq): Shrinking by factors that are exactly `1/s` and `1/t`: the last column and row of every block.
* `c135_undo` (Shrink; axioms pcq): Shrinking undoes enlarging.
* `c135_shrink_violated` (Shrink; axioms pcq): **C135 is violated for other factors** (and so is C67): shrinking 61 columns to one by the factor `1.0 / 61.0`, and 22 columns to 13 by the factor `13.0 / 22.0`, panics, although the size of the output is computed as 1 and 13.

### C136 Operations treat rows and columns alike — proved

* `c136_transpose` (Transpose; axioms pcq): Every image has exactly one transpose, and transposing that gives the image back.
* `c136_crop` (Transpose; axioms pcq): `crop`
* `c136_translate` (Transpose; axioms pcq): `translate`
* `c136_reflect` (Transpose; axioms pcq): mirroring left to right becomes mirroring top to bottom
* `c136_overlay` (Transpose; axioms pcq): `overlay`: both images transposed
* `c136_nearest` (Transpose; axioms pcq): enlarging by whole numbers with the nearest neighbour, in IEEE f32
* `c136_bilinear` (Transpose; axioms pcq): (exact arithmetic) bilinear scaling
* `c136_bicubic` (Transpose; axioms pcq): (exact arithmetic) bicubic scaling
* `c136_lanczos` (Transpose; axioms pcq): (exact arithmetic) Lanczos scaling, by both entry points
* `c136_shear` (Transpose; axioms pcq): (exact arithmetic) a horizontal shear becomes a vertical one
* `c136_tone` (Transpose; axioms pcq): the tone operations on bytes
* `c136_colour` (Transpose; axioms pcq): the colour operations on RGB (and HSV) bytes
* `c136_grayscale` (Transpose; axioms pcq): `rgb_to_grayscale` (up to 128 colour channels), `threshold` (in any arithmetic) and `linearize_srgb`
* `c136_threshold` (?; axioms pcq): 
* `c136_linearize` (?; axioms pcq): 
* `c136_unseparable` (Transpose2; axioms pcq): (exact arithmetic) `unseparable_filter` with the transposed kernel
* `c136_separable` (Transpose2; axioms pcq): (exact arithmetic) `separable_filter` with the two kernels exchanged
* `c136_fixed_kernels` (Transpose2; axioms pcq): (exact arithmetic) the filters with fixed kernels
* `c136_averages` (Transpose2; axioms pcq): (exact arithmetic) `box_filter` and `weighted_avg_filter`
* `c136_derivative_mask` (Transpose2; axioms pcq): (exact arithmetic) gradient magnitudes: the two kernels may be any; horizontal and vertical differences change places
* `c136_sobel_prewitt` (Transpose2; axioms pcq): (exact arithmetic) Sobel, Prewitt and weighted Sobel magnitudes
* `c136_summed_area` (Transpose2; axioms pcq): (exact arithmetic) the summed area table
* `c136_erode_dilate` (Transpose2; axioms pcq): (IEEE f32) erosion, dilation and `majority`
* `c136_open_close` (Transpose2; axioms pcq): (IEEE f32) opening and closing
* `c136_median_violated` (Transpose2; axioms pcq): **C136 is violated by the median filter**: with radius 0 the column 5, 3 becomes 5, 5, but the row 5, 3 stays 5, 3.
* `c136_equalize` (Transpose3; axioms pcq): (exact arithmetic) histogram equalization

### C137 Colour and tone operations do not look at positions — proved

* `c137_tone` (Positions; axioms pcq): the tone operations on bytes
* `c137_colour` (Positions; axioms pcq): the colour operations on RGB (and HSV) bytes
* `c137_grayscale` (Positions; axioms pcq): `rgb_to_grayscale` (up to 128 colour channels)
* `c137_threshold` (Positions; axioms pcq): `threshold`, in any arithmetic
* `c137_linearize` (Positions; axioms pcq): `linearize_srgb`, in IEEE f32
* `c137_equalize` (Positions; axioms pcq): (exact arithmetic) histogram equalization looks at how often every lightness occurs, not at where

### C138 Enlarging and mirroring go well with cutting and pasting — proved

* `c138_crop` (Enlarge; axioms pcq): (IEEE f32) cropping the enlarged image is enlarging the cropped one
* `c138_translate` (Enlarge; axioms pcq): (IEEE f32) enlarging a translated image is translating the enlarged image further
* `c138_reflect` (Enlarge; axioms pcq): (IEEE f32) enlarging the mirror image is mirroring the enlarged image
* `c138_overlay` (Enlarge; axioms pcq): (IEEE f32) enlarging an overlay is overlaying the enlarged images
* `c138_reflect_crop` (Enlarge; axioms pcq): mirroring a crop is cropping the mirror image at the mirrored place
* `c138_reflect_overlay` (Enlarge; axioms pcq): mirroring a paste that fits is pasting the mirror image at the mirrored place

### C139 Operations treat the channels one by one and alike — proved

* `c139_pick` (Channels; axioms pcq): picking channels always makes an image, and only one for either alpha flag
* `c139_crop` (Channels; axioms pcq): `crop`
* `c139_translate` (Channels; axioms pcq): `translate`
* `c139_reflect` (Channels; axioms pcq): `reflect`
* `c139_overlay` (Channels; axioms pcq): `overlay`: the same channels of both images
* `c139_nearest` (Channels; axioms pcq): enlarging by whole numbers with the nearest neighbour, in IEEE f32
* `c139_bilinear` (Channels; axioms pcq): (exact arithmetic) bilinear scaling
* `c139_bicubic` (Channels; axioms pcq): (exact arithmetic) bicubic scaling
* `c139_lanczos` (Channels; axioms pcq): (exact arithmetic) Lanczos scaling, by both entry points
* `c139_shear` (Channels; axioms pcq): (exact arithmetic) shear in one direction
* `c139_filter_1d` (Channels; axioms pcq): `filter_1d`, bit for bit in any arithmetic
* `c139_separable` (Channels; axioms pcq): `separable_filter`, bit for bit in any arithmetic
* `c139_unseparable` (Channels; axioms pcq): `unseparable_filter`, bit for bit in f32
* `c139_fixed_kernels` (Channels; axioms pcq): the sharpening and Laplacian filters, in f32
* `c139_median` (Channels; axioms pcq): `median_filter`
* `c139_tone` (Channels; axioms pcq): brightness, contrast and gamma on bytes
* `c139_linearize` (Channels; axioms pcq): linearization to f32
* `c139_grayscale` (Channels; axioms pcq): the grey value does not depend on the order of the colour channels

### C140 Filtering a byte image, end to end — proved

* `c140_gaussian3` (Bytes; axioms pcq): the predefined Gaussian blurs of size 3 (2-D, and twice 1-D): every byte is the binomially weighted sum over 16, rounded
* `c140_gaussian5` (Bytes; axioms pcq): the predefined Gaussian blurs of size 5
* `c140_integer_kernel` (Bytes; axioms pcq): kernels of integers: the byte is the exact sum, saturated
* `c140_sharpen` (Bytes; axioms pcq): `sharpen`, `laplacian` and `unsharp_masking`: the exact sum (over 256 for the last), rounded and saturated
* `c140_unseparable` (Bytes; axioms pcq): any kernel of numbers: the byte is the exact weighted sum, saturated, to within one half and the f32 error bound
* `c140_average_range` (Bytes2; axioms pcq): `weighted_avg_filter` (up to size 89) and `box_filter` (up to size 51) never leave the range of the bytes they average: f32 rounding is too small to show after rounding to bytes
* `c140_bilinear_range` (Bytes2; axioms pcq): bilinear scaling by any factor: no byte leaves the range of the bytes of its channel
* `c140_gradient` (Bytes2; axioms pcq): `sobel`, `prewitt` and `sobel_weighted` on one-channel byte images: every byte is the integer nearest to the exact gradient magnitude (saturated at 255) – f32 rounding never moves it to another integer
* `c140_threshold` (Bytes2; axioms pcq): `threshold` on byte images with byte parameters is exact: every grey byte follows the documented table, every alpha byte is kept
* `c140_bicubic_range` (Bytes3; axioms pcq): bicubic scaling by any factor: no byte leaves the range of the bytes of its channel (so a constant image stays constant)
* `c140_lanczos_identity` (Bytes3; axioms pcq): Lanczos scaling by 1 returns the byte image itself: the f32 error of the window sum never moves a byte
* `c140_gaussian_blur` (Bytes3; axioms pcq): `gaussian_blur` of a byte image: every byte is the sum weighted with the true Gaussian, saturated, to within one half and the explicit f32 error (`δ` is the accuracy of the singular value decomposition)
* `c140_log_black` (Bytes3; axioms pcq): `laplacian_of_gaussian` of a byte image without zero bytes is black: every value is negative (C99, seen by the user)

### C141 Edges and blurs of byte images under brightness changes — proved

* `c141_brightness` (Bytes4; axioms pcq): `brightness` without saturation is such a change of the bytes (images without alpha)
* `c141_gradient` (Bytes4; axioms pcq): `sobel`, `prewitt` and `sobel_weighted` do not see a brightness change or a negation that does not saturate: the same image comes out
* `c141_integer_kernel` (Bytes4; axioms pcq): a kernel of integers that add up to `S`: raising all bytes by `k` raises the exact value by `S * k` before rounding and saturation
* `c141_laplacian` (Bytes4; axioms pcq): `laplacian` does not see a brightness change that does not saturate
* `c141_gaussian` (Bytes4; axioms pcq): the predefined Gaussian blurs commute exactly with a brightness change that does not saturate

### C142 Mean filters of byte images are exact — proved

* `c142_fractions` (Bytes5; axioms pcq): a kernel of the fractions `p i / N`, computed in f32, with `p` adding up to `N`: the filter of a byte image is the exact fraction `Σ p i · byte / N`, rounded, as long as `N (n² + 3) ≤ 16000`
* `c142_weighted_mean` (Bytes5; axioms pcq): `weighted_avg_filter` on bytes: the exact weighted mean of the padded window, rounded
* `c142_box_mean` (Bytes5; axioms pcq): `box_filter` of size 3 on bytes: the exact mean of the 9 by 9 padded window it averages over, rounded
* `c142_brightness` (Bytes5; axioms pcq): the weighted mean (odd weight) and the box mean commute exactly with a brightness change that does not saturate
* `c142_monotone` (Bytes5; axioms pcq): blurs and means are monotone: where every byte of `b` is at least that of `a`, so is every byte of the result
* `c142_same_bytes` (Bytes5; axioms pcq): different routes to the same blur give the same bytes: `box_filter` of size 3 is the mean over a 9 by 9 window (not 3 by 3), and each predefined Gaussian gives the same image in its 2-d and its separable form

### C143 Enlarging a byte image bilinearly by whole numbers — proved

* `c143_bilinear` (Bytes6; axioms pcq): bilinear enlargement of a byte image by whole numbers: every byte is the exact blend of four bytes, rounded, as long as `kx * ky * (width + height)` stays below about 32000

### C144 Float and byte grayscale of a byte image — proved

* `c144_float_gray` (Bytes7; axioms pcq): a byte image (up to 255 colour channels), converted to float, to grayscale and back: the mean of the colour bytes, correctly rounded, followed by the unchanged alpha byte
* `c144_versions` (Bytes7; axioms pcq): the float and the byte version of the grayscale conversion (without AVX2) differ by at most one: the byte version truncates. Where the fraction of the mean is below one half they agree.

