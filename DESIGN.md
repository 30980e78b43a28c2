# Formal model of nikq/ColorSystem — design

The library is one header, `/repo/include/colorsystem.hpp` (7869 lines, of which about 5700 are
numeric tables).  All line numbers in the model's comments refer to that file ("hpp").

## 1. Trusted base

* **Lean 4.33.0's kernel**, and the statement of the theorems (a reader must check those).
* **Axioms**: every theorem of `MANIFEST.json` depends on at most `propext`, `Classical.choice` and
  `Quot.sound` (`#print axioms`).  No axiom is added; no `sorry`, `admit`, `native_decide`, `bv_decide`.
  Finite checks (tables, binary32 matrices) use `decide +kernel`: the kernel itself evaluates them.
* **The model is a faithful transcription** of the header (section 3).  The transcription is by hand, function
  by function with line citations; the tables are generated by `tools/gen_data.py`.  `Verif/Validation.lean`
  evaluates the expectations of the repository's own tests (`/repo/test/*.cpp`) in the model.
* **Assumptions about the platform**, where binary32 statements are made: `float` is IEEE-754 binary32 with
  round-to-nearest-even and gradual underflow, expressions are evaluated in their own type
  (`FLT_EVAL_METHOD == 0`) and are not contracted into fused operations; `int` has 32 bits, `char` 8;
  `<math.h>` provides the `float` overloads of `fabs` and `exp` in the global namespace (as libstdc++, libc++ and MSVC
  do in C++).  Library functions other than `fabs` are an *arbitrary* parameter (`F32.Oracle`): a
  binary32 theorem that does not mention them holds for every libm.  C83-C86 assume of `powf` a relative error of at
  most 2^-22 where the result lies between 2^-120 and 2^120 (`F32.Oracle.PowAccurate`, shown satisfiable by
  `exists_powAccurate`): a hypothesis of the theorems, not an axiom.  C90 likewise
  assumes accuracy of `sqrtf`, `logf`, `expf` (`Lemmas/FloatLibm.lean`, `exists_accurate`), and C107 ranges and rough
  accuracy of the functions `Delta::E00` calls (`F32.Oracle.Sane00`, `exists_sane00`).

## 2. How the code is modelled

### One text, several semantics
Every numeric function is written once, polymorphically over a type `α` with the operations the
C++ code uses (`class Arith`: `+ - * /`, unary minus, `<`, `<=`, `==`, decimal literals, conversion
to `int`; `class Libm`: `powf`, `sqrtf`, `logf`, ...), and is then given several meanings:

* `ℝ` — *exact arithmetic*: the operations are those of the real numbers, `powf` is `Real.rpow`
  etc., literals are their decimal values.  Round-trip, linear algebra and metric properties are
  proved here; each such property's statement says "in exact arithmetic".
* `F32` — *IEEE-754 binary32*: an executable model (finite values as rationals with a
  representability invariant, `-0`, `±inf`, `NaN`).  Properties about NaN, order, termination, bit-for-bit
  equality, memory safety and rounding error are proved here, for every binary32 input.
* `F32` with `F64` — the same model of binary64 and the conversions (`Float/Convert.lean`), for the functions in which the
  header promotes to `double` (`Model/Mixed.lean`: C94 and following).
* `PR` — *exact arithmetic with undefined results*: division by zero, roots/logarithms/powers outside their
  domain yield `undef`, which propagates like NaN.  C67-C70 are proved here.  They justify the exact
  reading: where they apply, Lean's totalised `x / 0 = 0` played no part.
* any `α` — statements that use no law of arithmetic at all (C27, C38, C41, C42, C57 in part).
* `readEq E` — real arithmetic with the floating-point *absorption test* `fabs(x) + anorm == anorm` read with any
  tolerance `ε` (`NearEq ε E`), for the convergence tests of the SVD (C51, C62); `ε = 0` is exact arithmetic.

### Undefined behaviour, divergence
* Out-of-bounds access, float-to-int conversion out of range, integer division by zero, signed overflow of the
  stream cursor and of row counts, failed `assert` are distinct outcomes (`UB`, `Except`/`Option`), never
  assumed away; theorems state the precondition under which they do not occur, or prove that they do.
* Unbounded recursion (`mod360`, `sqrtNewtonRaphsonF`) is modelled with `partial_fixpoint` into
  `Option`: `none` is exactly "never returns".

### Loops
`for` loops are small total combinators (`forUp`, `forDown`) over a state record which holds the
C++ function's mutable locals under the same names.

### Layout
* `Verif/Arith.lean`, `Verif/Partial.lean`, `Verif/Float/*` — numeric interfaces and semantics.
* `Verif/Model/*` — the model, function by function, each definition citing the header's lines.
* `Verif/Data/*` — the numeric tables, generated from the header.
* `Verif/Spec/*` — specifications written from the standards and from mathematics, not from the model.
* `Verif/Lemmas/*` — helper lemmas.
* `Verif/Props/*` — the property theorems, named `Cnn_*`, with satisfiability examples beside them.
* `Verif/Validation.lean` — the repository's test values in the model.

## 3. What is modelled and what is not

Modelled: every function of the header: `util` (hpp:23-47), `Vector3` and `Matrix3` (49-178), `Tristimulus` (180-491),
`Gamut` (493-558), `OTF` (560-786), `MemoryStream` (788-1228), ICC loading (1230-1234), `Spectrum` (1236-1352),
illuminants, predefined gamuts, `GamutConvert`, `Bradford` (1354-1395), ICtCp and OKLAB (1397-1467), `Delta`
(1469-1540), `Observer` (1542-1583), the CIE, TM-30-15 and Macbeth tables (1585-7388), `SOLVER` (7390-7786),
`Corrector` (7788-7868).

Not modelled, or simplified (also said in the comment of each definition):
* `XYZ_to_OKLAB`'s debugging `printf`s (hpp:1428-1448); iostream/exception plumbing; typedefs, defaulted
  constructors, copy/assignment operators, `operator[]` on constant indices.
* `Y_to_SLog` (hpp:656), `SLog3_to_Y` (hpp:676), `blackbody_x/y_approx` (hpp:338), `planck` (hpp:1269): C++ evaluates
  parts of these in `double`.  The polymorphic text has a single number type and is used in exact arithmetic;
  `Model/Mixed.lean` has the same functions with binary32, binary64 and every conversion explicit.
* `MemoryStream`: bytes are `BitVec 8`, the cursor an integer in the range of `int`; allocation failure of
  `std::vector` is not modelled; the caller's blocks are assumed large enough.
* `Macbeth`/TM-30 tables: generated as integers over a power of ten (exact decimal values), converted by `lit`.
* The `PI` constants are the header's decimals, not π (see C73).

## 4. Properties: how each is proved

C01-C03 (matrices) ring identities on the nine entries; refinement to Mathlib's `Matrix (Fin 3) (Fin 3) ℝ`.
C04-C08 (gamuts, Bradford) consequences of C01/C02; concrete gamuts by `norm_num` on their determinants.
C09-C11 (Yxy, Yuv, CIELAB) field identities with the code's guards split out.
C12-C13 (HSV) sector-by-sector case analysis of the real model; `mod360` unrolled on the reals.
C14, C15 binary32; least-fixed-point induction for divergence, a ranking argument for termination.
C16, C17 OKLAB from C01 and the cube root; ICtCp from explicit matrix residuals.
C18-C26 (transfer curves) real powers/logarithms, the knees compared by rational powers or Taylor bounds.
C27 channel-wise clauses in any arithmetic by cases on the type; encoders and decoders identified with the
published curves of `Spec/OTF.lean` in exact arithmetic.
C28-C37 (streams) state machine with bytes as `BitVec 8`, cursor an `Int` in C++ `int` range; `UB` and `abort`
explicit; invariants over all operation sequences.
C38-C44 (spectra, observers, charts) functions on 400 samples; induction over the index recursion of the code;
tables checked by the kernel in full; Planck's law by monotonicity of `exp`.
C45-C47 (differences) Euclidean norm; E00 by positive definiteness of its quadratic form (|R_T| < 2).
C48 polymorphic loop invariants on shapes plus `rv1[0] = 0` and `anorm` not NaN; every binary32 content.
C50 Mathlib matrices: normal equations from the factorisation.
C51 invariant of the orthogonal updates; perturbation argument for full column rank; explicit runs for the
witness; complete analysis for one and two columns (the 2x2 step converges in one rotation in exact arithmetic).
C52 real algebra.  C53-C55 explicit computation of the system, checked accesses.
C56, C61 binary32 Newton iteration: ranking argument, then the fixed-point interval.
C57 real algebra.  C60 the standard rounding model, from `rnd_rel`.
C62 C50 composed with C51.  C63, C64 (HSV in binary32) monotonicity of rounding, interval by interval.
C65, C66 published numbers restated in the specification, uniqueness of the normalised primary matrix.
C67-C69 evaluation in `PR`.  C71, C72 (colour temperature) vector geometry; polynomial derivative bounds on
rational intervals.  C73 the published CIEDE2000 text in `Spec/CIEDE.lean`; equality up to the decimal π, with
an error bound where the header's mean hue differs by a full turn.
C74-C76, C78 kernel comparison of whole tables lifted to all lights by monotone sums.
C77 forward error analysis of the 400-term recursive sums by induction; monotonicity of every rounded operation.
C79 the binary32 matrices computed by the kernel, then a row-wise forward error bound for all colours.
C80 the components times the area of the triangle are the areas of the sub-triangles (`Mixes`).
C81 `convexHull_min` on the three corners, then C80. AP1 is not inside AP0: witness pure red.
C82 the three edge forms of AP0 are non-negative at each wavelength of each observer (kernel), linearity lifts this to spectra.
C83 error calculus `F32.Ap x r e` (finite and within e of r) through the text of the functions; `rpow_perturb` for base and exponent.
C84 the same; the float nearest 0.018 is not less than the constant 0.018f, so it takes the power segment although it lies below 0.018 (section 5).
C85 the same, exponent an arbitrary float in [1,4].
C86 backward analysis: the float decoder is the exact one for a root within 3.3e-7 (`pq_dec`), where the rational part is well conditioned (`pqN_lip`).
C87 compares `arg` of the chroma vector with the hexagonal hue in each sector through a Taylor bound on arctan; C88 is algebra on the six orders of the channels.
C89: `dip` is a 1-Lipschitz periodic description of what each channel loses at a hue; the float reconstruction is within 4e-7 of it (`fromHSVwrapped_near`) and the exact colour satisfies it (`colour_of_hue`), so the hue error of C63 is the only thing that matters and landing in a neighbouring sector is harmless.
C90: `Ap` calculus with `Ap.logf`, `Ap.expf`; `hlg_back` is the real-analysis part (the published encoder after an approximate decoder, all four combinations of segments).
C91: `F32.Opp` (opposite up to the sign of zero) is propagated through subtraction, multiplication, division and the library sine; the sum of squares has sign bit 0, so the sign of a zero `Rt*dc*dh` cannot show. Accuracy of E76: differences and sums of floats have a purely relative error (`rnd_add_rel`), only the squares can underflow.
C92: the two branches of the CIE function are tangent at the knee, `(u-6/29)^2 (u+12/29)` apart, so a value on the wrong side costs 1e-11; the rest is the `Ap` calculus.
C93: sums and quotients by relative errors (`add_rel`, `div_rel`); monotonicity of rounding gives the range [0,1]; the rest is the `Ap` calculus scaled by X+Y+Z.
C94: `Model/Mixed.lean` writes the conversions out; Horner steps in an absolute error calculus for binary64 (`F64.Ap`); order by the slope of the polynomial (at least 1e-6 per kelvin), the spacing of floats (2^-14) and monotonicity of the conversion. Finding: from 999 K to 1020 K the returned Z is negative.
C95: relative error calculus for binary64 (`F64.Re`); exp(x)-1 by e^x <= (e^x-1)(1+x)/x; growth of the radiance by convexity of exp.
C96: `Ap.log10f` and `Ap.pow` with base ten; the mixed operations from `Model/Mixed.lean`; at each knee both segments are bounded on the window where the float comparison can differ (10^(-1.424997) and 10^(-0.9513946665...) enclosed by rational powers).
C97: the float matrices and their float inverses are evaluated by the kernel (residual at most 1e-6, condition number at most 5.2); between them the error of root, mix, unmix, cube is relative to the largest cone response, so no bound away from zero is needed for the round trip. The forward accuracy needs one (`rho`), as the cube root is not Lipschitz at zero.
C98: `Lemmas/FloatScale.lean`: rounding commutes with powers of two on multiples of 2^n for n at least -126 (`rnd_scale`), and rounding keeps multiples of 2^n; `Sc k n B x y` (y is x scaled by 2^k, x a multiple of 2^n, at most B) is carried through sums, differences, products with constants, comparisons, minima and maxima, and quotients of scaled numbers are equal.
C99: exact rational matrices (`Lemmas/RatModel.lean`, an exact reading the kernel can evaluate, embedded in the reals) and binary32 matrices as fractions (`Lemmas/GamutValues.lean`); products of matrices are bounded symbolically (`Lemmas/CloseMatrix.lean`) so that only the 20 matrices themselves are evaluated in binary32.
C100: cone responses by `Close` (kernel-checked matrix), the PQ curve damps relative errors by 0.8 (`pq_sens`), the opponent matrix by the error calculus, the decoder by `pq_dec` and the inverse of the rational part.
C101: chord length in terms of chroma difference and half-hue sine, G between 0 and 1/2, T between 0.07 and 1.93, |R_T| at most sqrt 3 (so the mixed term costs at most a factor 1 - sqrt 3/2 of the squares).
C102: the specification is the published pair of matrices, validated by C102_reference against the published table; cube roots are enclosed by rational brackets.
C103: the chord of the locus is bounded below by 3.9e-6 through the slope of X+Y in 1/T (Lemmas/LocusSlope.lean, polynomial certificates), the frame error is compared with it (Lemmas/MixedFrame.lean), and the root is the header's Newton loop with its own error bound.
C104: Spec.sumXYZ and Spec.sumUV are the weights of the two diagrams; the hull statement uses Mathlib's convexHull over a list of lights (Spec.mix).
C105: the CIE function is Spec.labF of C11, here shown strictly increasing; toCIELAB0/fromCIELAB0 are the overloads without a white (hpp:439-440).
C106: from the cube-root law cbrt(xk) = cbrt x cbrt k.
C107: intervals with representable ends (Lemmas/FloatInterval.lean): rounding is monotone and keeps representable numbers, so bounds pass through each operation without an error term. The quadratic form is non-negative because |Rt| <= 1 when the mean chroma is at most 20, and otherwise the chroma difference is zero or at least 2^-50. Assumptions on the library functions: F32.Oracle.Sane00, shown satisfiable by exists_sane00.
C108: a wavelength from 381 to 512 is a multiple of 2^-15 and from 512 a multiple of 2^-14, so its distance below the next integer exceeds what the two roundings of 399*(t-380)/399 can add (lemma cell).
C109: error calculus F32.Ap over the six triple products of the determinant and the nine cofactors; the comparison is with Mathlib's matrix inverse. C109_singular_missed is the witness of an unnoticed singular matrix.
C110: general whites, where C99 has the twelve illuminants of the header; the exact adaptation is the one C07 describes.
C111: the sRGB curve stretches differences by at most 12.92 (srgb_lip), so a trip that changes no linear component by more than d is harmless when (12.92 d + 3.5e-6) N < 1/2 (pixel_trip). The errors of the linear steps are tracked component by component against exact rational matrices (Tracks, step_ok). C111_default_white is the negative result: decoded sRGB white has Z = 1.089, which the default D50 white clamps to 0.8249.
C112: Data.Table.at is the piecewise linear curve through the published samples; C108_weights gives fetch as two exact weights and two rounded products. C112_juddvos is a finding about the data: the Judd-Vos luminosity is not normalised to 1.
C113: as C111, with the BT.709 curve. Its two segments do not meet at the knee (a jump of 2.5e-4, see C84), so the budget is (4.6 d + 2.6e-4) N < 1/2, which 12 bits exceed; the value of every segment is compared with the signal whichever segment the encoder takes (lin_near, pow_near).
C114: from C62_uncorrelated_patches (solve is a least squares minimiser) and the uniqueness of the matrix that agrees on uncorrelated patches. C114_reversed is a finding: makeGamut stores the camera-to-XYZ matrix as the matrix from XYZ; the witness uses that all chart colours have positive components, so a matrix of them is not its own inverse.
C115: as C111 and C113, with the PQ curve. Its inverse is far from Lipschitz near black, so a relative budget is used: pq_trip bounds the error of the code by (6.1e-5 + 0.716 rho) v for a relative error rho of the linear value, and a trip through a matrix and back has rho at most 4e-6 times the ratio of the channels. C115_dark is the finding that a dark channel beside bright ones gains codes; the linear witness is given rather than a pixel of codes because the decoder uses powf, whose value is not fixed.
C116: the white of a space is stated by its published chromaticity (RGBSpace.whiteXYZ), independently of the matrices; C116_white compares primaryWhite with it by decide +kernel over the spaces. labF_lip: the CIE function is Lipschitz with constant 841/108. C116_oklab is the visible effect of the sign error of the OKLAB matrix (C102): neutral greys have a reddish blue tint.
C117: the reference is Spec.srgbInv, any exact matrix with the published chromaticities (Realises), the published white and Spec.labF; nothing of it comes from the float model. C117_linear is the statement for any linear colour near an exact one; euclid3 is the triangle inequality for the CIE76 distance.
C118: convert_rows bounds the row sums of the exact conversion matrices by 6 (decide +kernel over the 64 pairs), convert_lip lifts it to all colours. Out-of-gamut components are clamped to 0..1, in the statement as in the code.
C119: the other direction of C89. The proof goes through the triangle function dip of the hue circle: dip_inj says the three channels fix the position on the circle.
C120: the CIELAB to XYZ to CIELAB, where C92 has XYZ to CIELAB to XYZ. fromCIELAB and toCIELAB may take different branches near the junction; lab_channel covers all four combinations, and lab_curve_neg the case where rounding makes a component slightly negative.
C121: error analysis of the constructor (primMat, invert, the weights, the product) for arbitrary primaries, in terms of the area of the triangle; det_lower compares the float matrix of chromaticities with the area. C99 has the eight published spaces, with smaller constants.
C122: C122_third is a witness that the exact statement (crosstalkInvert is the inverse for every r other than 1/3, C03) does not carry over to binary32: 3 r - 1 is evaluated to 0.
C123, C124: the kernel checks, entry by entry, that the observer's tables have the sign pattern that makes the weighted mean of an increasing function move one way (Chebyshev's inequality with one sign change); the black body of the higher temperature is the cooler one through a bluish filter.
C125: tools/gen_planck.py writes Lemmas/PlanckGrid.lean, which holds 400 base exponentials and 481 temperatures with proposed chromaticities. Nothing in it is trusted: the kernel encloses each exponential by its Taylor polynomial and each chromaticity by fixed-point sums; between grid temperatures C124 bounds the black body, and the monotonicity and slope of the fits bound the polynomials. The bound on y of fromPlanckianLocus is loose by the finding of C58 (the wrong cubic between 2222 K and 4000 K, off by 0.0035).
C126: for each observer the kernel checks 28 separating lines against all 400 entries of the tables; a light of a mixture that matches such a wavelength must itself be that wavelength (pigeonhole).
C128, C134 (finding about the formula): CIEDE2000 is not a metric, exactly and as executed. Nothing to fix in the code, but callers must not use E00 for nearest-neighbour search by triangle inequality.
C130 (finding): GamutConvert(Rec709, AdobeRGB) in binary32 has a red coefficient of about -3e-8 for blue; hasNegative() reports pure BT.709 blue as out of the Adobe RGB gamut.
C133 (finding): PYTHAG(x, NaN) = 0 because both comparisons with NaN are false; a NaN entry can leave the SVD as ordinary numbers.
C135 (Structured documents): A document is an inductive type (scalar, block, text, section); the writer and the reader are programs over the modelled stream calls; the reader gets only the layout. Induction over the document with the invariant 'the bytes from the cursor are the encoding of the document at this position', which section back-patching keeps.
C136 (Untrusted bytes): The same reader on arbitrary bytes: safe for scalars, texts and jumps. Findings: `read` at the end forms `&buffer_[size()]`; a hostile pointer makes a release-build block read leave the buffer; 64-bit pointers are truncated to 32 bits by `seekTo`.
C137 (HLG images through other spaces): Conditions are on the codes or the decoded light because the curve is a square root near black; `C137_dark` shows that a condition is needed.
C138 (S-Log and S-Log2 footage): The curves have bounded slope from black up, so no condition on the channels is needed; codes below black are clamped (a finding).
C139 (sRGB in HLG): The sRGB curve after a square has slope at most 1.446, so half a code of HLG is at most 1.446 N/M < 1/2 of a code of sRGB; the negative half is the pigeonhole principle, since sRGB uses only half the HLG range.
C140 (Chains of conversions): The reference after every step is the colour the published primaries prescribe, whose components are bounded by a constant times the first ones however long the chain (all conversions of the exact colour start from the same XYZ), so each conversion adds a constant error instead of multiplying it.
C141 (The solid of surface colours): Schrödinger's optimal colours. The two-transition theorem needs a spectral locus that is convex; the tabulated loci are not exactly convex, and a weight with more sign changes is exhibited for each observer (a finding).
C142 (Back-substitution in single precision): A forward error analysis of the two loop nests of `svbksb` in binary32, with the exact value being what the same text computes over ℝ (`C142_exact`), i.e. the least-squares solution of C50 when u, v come from a decomposition.
C143 (Order of decoded codes): Accuracy theorems give the separation the exact curves must have; slopes of the exact curves bound it from below. Finding: at the float knee of BT.709 (0.081 against 0.0812) the 12-bit codes 331 and 332 are reversed.
C144 (Adapted conversions): The specification is the published definition of both spaces and von Kries scaling of Bradford cone responses; the exact adapted conversions compose (`comp_comp`), so a chain adds a constant error per conversion as in C140. `C144_tint` records that `GamutConvert` is colorimetric: it does not adapt the white.
C145 (Delta::ICtCp in single precision): C100 bounds the coordinates; the last line is analysed as in C91; the two combine by the triangle inequality in the Euclidean space of (I, Ct/2, Cp). The clamp of the PQ encoder at 100 makes the difference blind above it (`C145_peak`).
C146 (Encoding keeps order): The exact curves grow at least as fast as at the top of their range (`rpow_gap`, `log_gap`), which outweighs the errors of C83, C84, C90 and C96. The counterpart of C143.
C147 (sRGB in PQ): Close PQ signals are signals of close light: light 1.5 % (dim) or 0.38 % (bright) larger has a signal larger by more than half a 12-bit code and all errors of C86 (`pq_dim`, `pq_bright`), and such changes of light are less than half a level of sRGB. The negative half: the brightest 31 levels have signals between 0.47979 and 0.508127, where a 10-bit scale has room for 30 codes.
C148 (BT.709 in PQ): As C147. Sender and receiver may be on different segments of BT.709 (`across`); the float nearest to 0.018, which the code puts on the wrong segment (C84), is included.

## 5. Where the code disagrees with the property

These are recorded with status `partial`: a theorem proves the negation with a witness, and `_partial` theorems (or
`_actual` ones) say what does hold.
* C23 — `Y_to_SLog3` has the factor 261.5 inside the logarithm (hpp:673): no round trip above the knee.
* C32 — a put in the interior of a `MemoryStream` does not advance the cursor: multi-byte values collapse to one byte.
* C33 — `put_at` is out of bounds for every argument.
* C34 — `putString` drops the last character and is undefined for the empty string.
* C38 — spectrum lookup is wrong on the first interval and undefined (float to int) far outside the range.
* C49 — `solve` returns 0 for every system; non-convergence (30 rounds) is not reported.
* C51, C62 — the SVD's cancellation loop omits `rv1[i] = c*rv1[i]`: wrong for rank-deficient matrices.
* C55 — `Corrector::solve` reads past the targets when there are fewer targets than patches.
* C58 — the Planckian locus approximation jumps at 4000 K.
* C59 — ICC loading ignores the profile's content; undefined for an empty one.
* C66 — `Illuminant_B` is (1.99072, ...) instead of (0.99072, ...).
* C70 — `ICtCp_to_XYZ (XYZ_to_ICtCp (0,0,1))` takes a power of a negative number.
* C102 — the first OKLAB matrix has -0.0329845436 where the cited publication has +0.0329845436 (hpp:1422, 1457): agreement only
  for X = 0; white is not neutral.
Proved properties whose statement records a limit of the code: C14 (hue wrapping does not return beyond 2^33), C18
and C26 (sRGB thresholds leave a window of width 1e-8 without round trip and break monotonicity), C24 (gap of the
HLG decoder), C73 (mean hue), C84 (the float nearest 0.018 lies below 0.018 but is encoded by the power segment, 2.4e-4
too bright; 12-bit code 332 does not survive).

For C51/C62 beyond two columns the missing part is a convergence bound of the shifted QR iteration: in exact
arithmetic the iteration is infinite and the code stops after 30 rounds, so the theorems are stated with the
remaining superdiagonal as a parameter `η`.

## 6. Mutation testing

`seeded/LOG.jsonl` has one line per wrong program tried: the model definition edited in a scratch copy, the edit,
the claim it breaks, the theorems that stopped checking, and the theorems tightened when a false claim still
proved.  Theorems tightened this way: `C50_zero_skipped`, `C63_grey`,
`C63_hue`, `C65_published`, `C71_position`, `C71_distance`, `C27_slog2`, `C27_decoders`, `C02_tristimulus`,
`C15_hasNegative`, `C87_direction`, `C103_position`, `C103_distance`, `C105_default`.
