{
 "claims": [
  {
   "property": "C01",
   "status": "proved",
   "theorems": [
    "CS.C01_invert",
    "CS.C01_invert_invert",
    "CS.C01_apply"
   ],
   "note": "Exact arithmetic, all matrices with non-zero determinant (Mathlib determinant)."
  },
  {
   "property": "C02",
   "status": "proved",
   "theorems": [
    "CS.C02_ops",
    "CS.C02_sdiv",
    "CS.C02_row_col",
    "CS.C02_laws",
    "CS.C02_dot",
    "CS.C02_tristimulus"
   ],
   "note": "Exact arithmetic; model operations equal the Mathlib matrix operations."
  },
  {
   "property": "C03",
   "status": "proved",
   "theorems": [
    "CS.C03_crosstalk",
    "CS.C03_singular",
    "CS.C03_neutral"
   ],
   "note": "Exact arithmetic; C03_singular shows r = 1/3 is the only exception."
  },
  {
   "property": "C04",
   "status": "proved",
   "theorems": [
    "CS.C04_matrix",
    "CS.C04_primaries"
   ],
   "note": "Exact arithmetic, both constructors."
  },
  {
   "property": "C05",
   "status": "proved",
   "theorems": [
    "CS.C05_white",
    "CS.C05_primaries"
   ],
   "note": "Exact arithmetic."
  },
  {
   "property": "C06",
   "status": "proved",
   "theorems": [
    "CS.C06_same_xyz",
    "CS.C06_compose",
    "CS.C06_constructors"
   ],
   "note": "Exact arithmetic; C06_constructors shows every non-degenerate gamut meets the hypotheses."
  },
  {
   "property": "C07",
   "status": "proved",
   "theorems": [
    "CS.C07_vonKries",
    "CS.C07_white",
    "CS.C07_id",
    "CS.C07_compose",
    "CS.C07_inverse"
   ],
   "note": "Exact arithmetic."
  },
  {
   "property": "C08",
   "status": "proved",
   "theorems": [
    "CS.C08_roundtrip",
    "CS.C08_white"
   ],
   "note": "Exact arithmetic; all ten predefined gamuts."
  },
  {
   "property": "C09",
   "status": "proved",
   "theorems": [
    "CS.C09_xyz",
    "CS.C09_yxy",
    "CS.C09_chroma",
    "CS.C09_fallback",
    "CS.C09_luminance"
   ],
   "note": "Exact arithmetic; the luminance clause for any arithmetic."
  },
  {
   "property": "C10",
   "status": "proved",
   "theorems": [
    "CS.C10_yxy",
    "CS.C10_yuv",
    "CS.C10_xyz",
    "CS.C10_cie"
   ],
   "note": "Exact arithmetic."
  },
  {
   "property": "C11",
   "status": "proved",
   "theorems": [
    "CS.C11_cie",
    "CS.C11_clamp",
    "CS.C11_roundtrip",
    "CS.C11_lab",
    "CS.C11_white",
    "CS.C11_monotone"
   ],
   "note": "Exact arithmetic."
  },
  {
   "property": "C12",
   "status": "proved",
   "theorems": [
    "CS.C12_roundtrip",
    "CS.C12_zero_max"
   ],
   "note": "Exact arithmetic."
  },
  {
   "property": "C13",
   "status": "proved",
   "theorems": [
    "CS.C13_range",
    "CS.C13_roundtrip",
    "CS.C13_periodic",
    "CS.C13_anchors"
   ],
   "note": "Exact arithmetic."
  },
  {
   "property": "C14",
   "status": "proved",
   "theorems": [
    "CS.C14_returns",
    "CS.C14_diverges",
    "CS.C14_nan",
    "CS.C14_iff"
   ],
   "note": "Every binary32 value: exactly when the recursion returns, and the value; C14_diverges for the rest."
  },
  {
   "property": "C15",
   "status": "proved",
   "theorems": [
    "CS.C15_clip",
    "CS.C15_positive",
    "CS.C15_hasNegative",
    "CS.C15_min3_max3"
   ],
   "note": "Every binary32 value including NaN, infinities and signed zeros."
  },
  {
   "property": "C16",
   "status": "proved",
   "theorems": [
    "CS.C16_xyz",
    "CS.C16_lab",
    "CS.C16_formula"
   ],
   "note": "Exact arithmetic; C16_formula pins the forward transform to the matrices in the header; that the first of them is not the published one is C102."
  },
  {
   "property": "C17",
   "status": "proved",
   "theorems": [
    "CS.C17_neutral",
    "CS.C17_roundtrip"
   ],
   "note": "Exact arithmetic."
  },
  {
   "property": "C18",
   "status": "proved",
   "theorems": [
    "CS.C18_roundtrip",
    "CS.C18_window",
    "CS.C18_window_nonempty"
   ],
   "note": "Exact arithmetic."
  },
  {
   "property": "C19",
   "status": "proved",
   "theorems": [
    "CS.C19_roundtrip",
    "CS.C19_identity"
   ],
   "note": "Exact arithmetic."
  },
  {
   "property": "C20",
   "status": "proved",
   "theorems": [
    "CS.C20_roundtrip",
    "CS.C20_signal",
    "CS.C20_black"
   ],
   "note": "Exact arithmetic, both directions."
  },
  {
   "property": "C21",
   "status": "proved",
   "theorems": [
    "CS.C21_roundtrip",
    "CS.C21_identity"
   ],
   "note": "Exact arithmetic."
  },
  {
   "property": "C22",
   "status": "proved",
   "theorems": [
    "CS.C22_roundtrip",
    "CS.C22_low"
   ],
   "note": "Exact arithmetic."
  },
  {
   "property": "C23",
   "status": "partial",
   "theorems": [
    "CS.C23_roundtrip_partial",
    "CS.C23_fixpoint_partial",
    "CS.C23_false",
    "CS.C23_encoder_wrong"
   ],
   "note": "False of the code: the encoder puts the factor 261.5 inside the logarithm (hpp:673). C23_false is the negation; the round trip holds up to the knee 0.01125 and at exactly one value above it."
  },
  {
   "property": "C24",
   "status": "proved",
   "theorems": [
    "CS.C24_roundtrip",
    "CS.C24_signal",
    "CS.C24_gap"
   ],
   "note": "Exact arithmetic; C24_gap describes the excluded signals."
  },
  {
   "property": "C25",
   "status": "proved",
   "theorems": [
    "CS.C25_roundtrip"
   ],
   "note": "Exact arithmetic."
  },
  {
   "property": "C26",
   "status": "proved",
   "theorems": [
    "CS.C26_range",
    "CS.C26_monotone",
    "CS.C26_sRGB_not_monotone"
   ],
   "note": "Exact arithmetic; C26_sRGB_not_monotone shows why sRGB is not listed."
  },
  {
   "property": "C27",
   "status": "proved",
   "theorems": [
    "CS.C27_channelwise",
    "CS.C27_linear",
    "CS.C27_named",
    "CS.C27_slog2",
    "CS.C27_decoders"
   ],
   "note": "Channel-wise and LINEAR clauses for any arithmetic; C27_named, C27_slog2 and C27_decoders identify the curves with the published ones in exact arithmetic (S-Log3 encoder: C23)."
  },
  {
   "property": "C28",
   "status": "proved",
   "theorems": [
    "CS.C28_typed_roundtrip"
   ],
   "note": "Any sequence of typed values up to 2 GiB, both endiannesses, with and without asserts."
  },
  {
   "property": "C29",
   "status": "proved",
   "theorems": [
    "CS.C29_append_bytes",
    "CS.C29_read_bytes",
    "CS.C29_swapped",
    "CS.C29_digits"
   ],
   "note": "Bytes, digits and byte swapping for all ten kinds."
  },
  {
   "property": "C30",
   "status": "proved",
   "theorems": [
    "CS.C30_reads",
    "CS.C30_feof",
    "CS.C30_ptr"
   ],
   "note": "All ten kinds, any cursor position inside the buffer."
  },
  {
   "property": "C31",
   "status": "proved",
   "theorems": [
    "CS.C31_write_at",
    "CS.C31_read_at",
    "CS.C31_write_read",
    "CS.C31_cursor"
   ],
   "note": "Empty blocks at the end are excluded: the code forms &buffer_[size] there."
  },
  {
   "property": "C32",
   "status": "partial",
   "theorems": [
    "CS.C32_overwrite_actual",
    "CS.C32_overwrite_false",
    "CS.C32_readback_false",
    "CS.C32_overwrite_partial"
   ],
   "note": "False of the code: in the interior putUint8 does not advance the cursor, so multi-byte puts overwrite one byte. C32_overwrite_actual says what happens; single bytes are stored."
  },
  {
   "property": "C33",
   "status": "partial",
   "theorems": [
    "CS.C33_put_at_false"
   ],
   "note": "False of the code: put_at is out of bounds for every argument (C33_put_at_false)."
  },
  {
   "property": "C34",
   "status": "partial",
   "theorems": [
    "CS.C34_strings_false",
    "CS.C34_strings_actual",
    "CS.C34_empty_string_ub",
    "CS.C34_strings_partial"
   ],
   "note": "False of the code: putString drops the last character (C34_strings_actual) and is undefined on the empty string. The round trip holds for putSubstr with the terminator counted."
  },
  {
   "property": "C35",
   "status": "proved",
   "theorems": [
    "CS.C35_align",
    "CS.C35_idempotent"
   ],
   "note": "Includes the overflow case."
  },
  {
   "property": "C36",
   "status": "proved",
   "theorems": [
    "CS.C36_pointer32",
    "CS.C36_pointer64"
   ],
   "note": "Both widths, any appended values."
  },
  {
   "property": "C37",
   "status": "proved",
   "theorems": [
    "CS.C37_cursor_inside",
    "CS.C37_no_out_of_bounds",
    "CS.C37_seek_end"
   ],
   "note": "Any finite sequence of operations from a constructed stream."
  },
  {
   "property": "C38",
   "status": "partial",
   "theorems": [
    "CS.C38_binary32_at",
    "CS.C38_binary32_identity",
    "CS.C38_in_bounds",
    "CS.C38_at_samples",
    "CS.C38_interpolates_partial",
    "CS.C38_first_interval",
    "CS.C38_interpolates_false",
    "CS.C38_clamped",
    "CS.C38_far_undefined",
    "CS.C38_between",
    "CS.C38_spectrum_at",
    "CS.C38_identity"
   ],
   "note": "False of the code on the first interval (C38_first_interval, C38_interpolates_false) and undefined for far-away wavelengths (C38_far_undefined); the rest holds. Bounds clause for any arithmetic; identity at the sample wavelengths also in binary32."
  },
  {
   "property": "C39",
   "status": "proved",
   "theorems": [
    "CS.C39_commute_bitwise",
    "CS.C39_elementwise",
    "CS.C39_algebra",
    "CS.C39_sums"
   ],
   "note": "Linearity in exact arithmetic; commutativity bit for bit in binary32."
  },
  {
   "property": "C40",
   "status": "proved",
   "theorems": [
    "CS.C40_linear",
    "CS.C40_equal_energy",
    "CS.C40_monotone_general",
    "CS.C40_monotone",
    "CS.C40_standard_observers"
   ],
   "note": "Exact arithmetic."
  },
  {
   "property": "C41",
   "status": "proved",
   "theorems": [
    "CS.C41_reflectance_bitwise"
   ],
   "note": "Any arithmetic, hence bit for bit."
  },
  {
   "property": "C42",
   "status": "proved",
   "theorems": [
    "CS.C42_entries",
    "CS.C42_plausible",
    "CS.C42_standard_observers"
   ],
   "note": "Entries for any arithmetic, bounds in exact arithmetic."
  },
  {
   "property": "C43",
   "status": "proved",
   "theorems": [
    "CS.C43_proportional",
    "CS.C43_same_Y",
    "CS.C43_bounded",
    "CS.C43_CIE1931",
    "CS.C43_peak"
   ],
   "note": "Exact arithmetic; wavelengths whose lookup is defined."
  },
  {
   "property": "C44",
   "status": "proved",
   "theorems": [
    "CS.C44_positive",
    "CS.C44_strictMono",
    "CS.C44_blackbody",
    "CS.C44_planck_law"
   ],
   "note": "Exact arithmetic."
  },
  {
   "property": "C45",
   "status": "proved",
   "theorems": [
    "CS.C45_E76_dist",
    "CS.C45_UV_dist",
    "CS.C45_E76",
    "CS.C45_UV",
    "CS.C45_symmetric_bitwise"
   ],
   "note": "Metric laws in exact arithmetic; symmetry bit for bit in binary32."
  },
  {
   "property": "C46",
   "status": "proved",
   "theorems": [
    "CS.C46_defined",
    "CS.C46_symm",
    "CS.C46_zero_iff",
    "CS.C46_zero_straddle"
   ],
   "note": "Exact arithmetic."
  },
  {
   "property": "C47",
   "status": "proved",
   "theorems": [
    "CS.C47_dist",
    "CS.C47_metric"
   ],
   "note": "Exact arithmetic."
  },
  {
   "property": "C48",
   "status": "proved",
   "theorems": [
    "CS.C48_in_bounds",
    "CS.C48_in_bounds_real",
    "CS.C48_short",
    "CS.C48_never_zero"
   ],
   "note": "All shapes and all binary32 contents, for any library sqrtf; also in exact arithmetic."
  },
  {
   "property": "C49",
   "status": "partial",
   "theorems": [
    "CS.C49_always_zero",
    "CS.C49_reports_failure_false",
    "CS.C49_svdcmp_reports_partial"
   ],
   "note": "False of the code: solve answers 0 for every system (C49_always_zero), also for unsolved ones (C49_reports_failure_false). Only the status inside svdcmp distinguishes the shapes."
  },
  {
   "property": "C50",
   "status": "proved",
   "theorems": [
    "CS.C50_least_squares",
    "CS.C50_zero_skipped"
   ],
   "note": "Exact arithmetic, all shapes; binary32 for the skipped zero singular values."
  },
  {
   "property": "C51",
   "status": "partial",
   "theorems": [
    "CS.C51_orthogonal",
    "CS.C51_orthogonal_exact",
    "CS.C51_backward_error_partial",
    "CS.C51_full_rank_partial",
    "CS.C51_two_columns",
    "CS.C51_diagonal",
    "CS.C51_orthogonal_columns",
    "CS.C51_rank_deficient_false",
    "CS.C51_false"
   ],
   "note": "False of the code for rank-deficient matrices (C51_rank_deficient_false, C51_false): the cancellation loop omits an update of rv1. Proved: orthogonality of u and v for all matrices; the SVD for one and two columns, for diagonal matrices and for orthogonal columns; for full column rank a backward error bound in terms of the convergence tolerance and the residual superdiagonal. Not covered: a bound on the number of QR rounds for three columns and more."
  },
  {
   "property": "C52",
   "status": "proved",
   "theorems": [
    "CS.C52_pythag",
    "CS.C52_no_division_by_zero",
    "CS.C52_origin",
    "CS.C52_dsign"
   ],
   "note": "Exact arithmetic for the value; binary32 for the absence of 0/0."
  },
  {
   "property": "C53",
   "status": "proved",
   "theorems": [
    "CS.Corrector.C53_system",
    "CS.Corrector.C53_minimiser"
   ],
   "note": "Exact arithmetic, all list lengths."
  },
  {
   "property": "C54",
   "status": "proved",
   "theorems": [
    "CS.Corrector.C54_zero_matrix",
    "CS.Corrector.C54_zero_matrix_real",
    "CS.Corrector.C54_makeGamut"
   ],
   "note": "All binary32 contents."
  },
  {
   "property": "C55",
   "status": "partial",
   "theorems": [
    "CS.Corrector.C55_safe_iff",
    "CS.Corrector.C55_out_of_bounds",
    "CS.Corrector.C55_macbeth_partial",
    "CS.Corrector.C55_any_number_false"
   ],
   "note": "False of the code: defined exactly when there are enough targets, so for at most 24 patches against the chart (C55_any_number_false). Lists of more than 715827881 patches overflow the int row count and are reported as such."
  },
  {
   "property": "C56",
   "status": "proved",
   "theorems": [
    "CS.C56_guard",
    "CS.C56_terminates",
    "CS.C56_total"
   ],
   "note": "Every binary32 value: the recursion returns, with NaN exactly outside the finite non-negative numbers."
  },
  {
   "property": "C57",
   "status": "proved",
   "theorems": [
    "CS.C57_luminance",
    "CS.C57_linear",
    "CS.C57_chroma"
   ],
   "note": "Luminance clause for any arithmetic, linearity in exact arithmetic."
  },
  {
   "property": "C58",
   "status": "partial",
   "theorems": [
    "CS.C58_false",
    "CS.C58_continuous_partial"
   ],
   "note": "False of the code at 4000 K (C58_false: y jumps by more than 0.003); continuous everywhere else."
  },
  {
   "property": "C59",
   "status": "partial",
   "theorems": [
    "CS.C59_icc_false",
    "CS.C59_icc_empty_ub"
   ],
   "note": "False of the code: the profile content is ignored (C59_icc_false)."
  },
  {
   "property": "C60",
   "status": "proved",
   "theorems": [
    "CS.C60_dot",
    "CS.C60_apply"
   ],
   "note": "Error bounds of dot product and matrix application in binary32 barring overflow."
  },
  {
   "property": "C61",
   "status": "proved",
   "theorems": [
    "CS.C61_faithful",
    "CS.C61_exact",
    "CS.C61_zero"
   ],
   "note": "Every finite non-negative binary32 value."
  },
  {
   "property": "C62",
   "status": "partial",
   "theorems": [
    "CS.C62_two_columns",
    "CS.C62_solve_partial",
    "CS.C62_diagonal",
    "CS.C62_corrector_partial",
    "CS.C62_uncorrelated_patches"
   ],
   "note": "Unconditional for one and two unknowns, for diagonal systems and for the corrector on uncorrelated patches; for the rest under full column rank and convergence of the decomposition (C62_solve_partial, C62_corrector_partial)."
  },
  {
   "property": "C63",
   "status": "proved",
   "theorems": [
    "CS.C63_hue",
    "CS.C63_saturation",
    "CS.C63_grey"
   ],
   "note": "Every finite binary32 colour with components up to 2^120 in magnitude."
  },
  {
   "property": "C64",
   "status": "proved",
   "theorems": [
    "CS.C64_range",
    "CS.C64_value_roundtrip",
    "CS.C64_nan"
   ],
   "note": "Every binary32 hue up to 2^33 in magnitude (C14: beyond that the wrap does not return), saturation in [0,1], finite value."
  },
  {
   "property": "C65",
   "status": "proved",
   "theorems": [
    "CS.C65_published",
    "CS.C65_determined"
   ],
   "note": "Exact arithmetic; published numbers restated in Spec."
  },
  {
   "property": "C66",
   "status": "partial",
   "theorems": [
    "CS.C66_whites_partial",
    "CS.C66_illuminant_B_false",
    "CS.C66_gamut_whites"
   ],
   "note": "False of the code for Illuminant_B, whose X is 1.99072 instead of 0.99072 (C66_illuminant_B_false). Proved for the other eleven."
  },
  {
   "property": "C67",
   "status": "proved",
   "theorems": [
    "CS.C67_Yxy",
    "CS.C67_YxyToYuv",
    "CS.C67_fromYuv",
    "CS.C67_toYuv",
    "CS.C67_toYuv_nonneg",
    "CS.C67_CIELAB",
    "CS.C67_toHSV",
    "CS.C67_fromHSV",
    "CS.C67_invert",
    "CS.C67_crosstalkInvert",
    "CS.C67_gamut",
    "CS.C67_predefined",
    "CS.C67_primaryMatrix",
    "CS.C67_Bradford",
    "CS.C67_planckian",
    "CS.C67_fromCT",
    "CS.C67_OKLAB"
   ],
   "note": "Exact arithmetic with an explicit undefined value (Verif/Partial.lean)."
  },
  {
   "property": "C68",
   "status": "proved",
   "theorems": [
    "CS.OTF.C68_toScreen",
    "CS.OTF.C68_toScene",
    "CS.OTF.C68_gamma",
    "CS.OTF.C68_degamma",
    "CS.OTF.C68_ST2084",
    "CS.OTF.C68_ST2084_unit"
   ],
   "note": "Exact arithmetic with an explicit undefined value; exact domains."
  },
  {
   "property": "C69",
   "status": "proved",
   "theorems": [
    "CS.C69_distances",
    "CS.C69_E00"
   ],
   "note": "Exact arithmetic with an explicit undefined value."
  },
  {
   "property": "C70",
   "status": "partial",
   "theorems": [
    "CS.C70_undefined",
    "CS.C70_partial"
   ],
   "note": "False of the code: undefined for (0, 0, 1) (C70_undefined). Proved for every colour with the three cone responses at least 1e-6."
  },
  {
   "property": "C71",
   "status": "proved",
   "theorems": [
    "CS.C71_position",
    "CS.C71_distance",
    "CS.C71_zero"
   ],
   "note": "Exact arithmetic."
  },
  {
   "property": "C72",
   "status": "proved",
   "theorems": [
    "CS.C72_box",
    "CS.C72_monotone",
    "CS.C72_injective"
   ],
   "note": "Exact arithmetic."
  },
  {
   "property": "C73",
   "status": "proved",
   "theorems": [
    "CS.C73_exact",
    "CS.C73_close",
    "CS.C73_pi"
   ],
   "note": "Exact arithmetic; published formula in Spec/CIEDE.lean."
  },
  {
   "property": "C74",
   "status": "proved",
   "theorems": [
    "CS.C74_greyscale"
   ],
   "note": "Exact arithmetic; tables compared entry by entry by the kernel."
  },
  {
   "property": "C75",
   "status": "proved",
   "theorems": [
    "CS.C75_reflectance",
    "CS.C75_colour"
   ],
   "note": "Exact arithmetic; tables compared entry by entry by the kernel."
  },
  {
   "property": "C76",
   "status": "proved",
   "theorems": [
    "CS.C76_D65"
   ],
   "note": "Exact arithmetic."
  },
  {
   "property": "C77",
   "status": "proved",
   "theorems": [
    "CS.C77_accurate",
    "CS.C77_monotone"
   ],
   "note": "Binary32 semantics (Verif/Float); every light of finite non-negative samples up to 2^100."
  },
  {
   "property": "C78",
   "status": "proved",
   "theorems": [
    "CS.C78_bounded",
    "CS.C78_greyscale"
   ],
   "note": "Binary32 semantics (Verif/Float); every light of finite non-negative samples up to 2^100."
  },
  {
   "property": "C79",
   "status": "proved",
   "theorems": [
    "CS.C79_roundtrip",
    "CS.C79_codes",
    "CS.C79_convert"
   ],
   "note": "Binary32 semantics; the binary32 matrices of the gamuts are evaluated by the kernel."
  },
  {
   "property": "C80",
   "status": "proved",
   "theorems": [
    "CS.C80_triangle",
    "CS.C80_mixtures"
   ],
   "note": "Exact arithmetic; triangle = convex hull of the published primaries."
  },
  {
   "property": "C81",
   "status": "proved",
   "theorems": [
    "CS.C81_nested",
    "CS.C81_ap1_not_in_ap0"
   ],
   "note": "Exact arithmetic."
  },
  {
   "property": "C82",
   "status": "proved",
   "theorems": [
    "CS.C82_real_colours",
    "CS.C82_surfaces",
    "CS.C82_only_aces"
   ],
   "note": "Exact arithmetic; one linear form per edge of the triangle, checked by the kernel at every wavelength, lifted to all spectra by linearity."
  },
  {
   "property": "C83",
   "status": "proved",
   "theorems": [
    "CS.C83_encode",
    "CS.C83_decode",
    "CS.C83_decode_encode",
    "CS.C83_encode_decode",
    "CS.C83_codes"
   ],
   "note": "Binary32, any powf with relative error at most 2^-22 between 2^-120 and 2^120."
  },
  {
   "property": "C84",
   "status": "proved",
   "theorems": [
    "CS.C84_encode",
    "CS.C84_encode_knee",
    "CS.C84_decode",
    "CS.C84_encode_decode",
    "CS.C84_decode_encode",
    "CS.C84_codes",
    "CS.C84_12bit"
   ],
   "note": "Binary32, any powf with relative error at most 2^-22; the exception at 0.018f and the lost 12-bit code are proved too."
  },
  {
   "property": "C85",
   "status": "proved",
   "theorems": [
    "CS.C85_encode_decode",
    "CS.C85_decode_encode",
    "CS.C85_codes"
   ],
   "note": "Binary32, any powf with relative error at most 2^-22."
  },
  {
   "property": "C86",
   "status": "proved",
   "theorems": [
    "CS.C86_decode_encode",
    "CS.C86_codes",
    "CS.C86_encode",
    "CS.C86_decode",
    "CS.C86_black"
   ],
   "note": "Binary32, any powf with relative error at most 2^-22; black under the C annex F rule powf(0,y)=0."
  },
  {
   "property": "C87",
   "status": "proved",
   "theorems": [
    "CS.C87_direction",
    "CS.C87_near"
   ],
   "note": "Real arithmetic."
  },
  {
   "property": "C88",
   "status": "proved",
   "theorems": [
    "CS.C88_exposure",
    "CS.C88_add_grey",
    "CS.C88_rotate",
    "CS.C88_complement"
   ],
   "note": "Real arithmetic; rotation and complement for non-grey colours."
  },
  {
   "property": "C89",
   "status": "proved",
   "theorems": [
    "CS.C89_roundtrip",
    "CS.C89_codes"
   ],
   "note": "Binary32, no hypotheses on library functions."
  },
  {
   "property": "C90",
   "status": "proved",
   "theorems": [
    "CS.C90_encode",
    "CS.C90_decode",
    "CS.C90_roundtrip",
    "CS.C90_codes"
   ],
   "note": "Binary32; accuracy of sqrtf, logf and expf is a hypothesis, shown satisfiable (exists_accurate)."
  },
  {
   "property": "C91",
   "status": "proved",
   "theorems": [
    "CS.C91_symmetric",
    "CS.C91_E00_symmetric",
    "CS.C91_self",
    "CS.C91_self_or_nan",
    "CS.C91_E76_accurate",
    "CS.C91_E76_triangle"
   ],
   "note": "Binary32, arbitrary library functions; oddness of sinf (E00 symmetry) and accuracy of sqrtf (E76) are hypotheses, shown satisfiable."
  },
  {
   "property": "C92",
   "status": "proved",
   "theorems": [
    "CS.C92_encode",
    "CS.C92_roundtrip",
    "CS.C92_white"
   ],
   "note": "Binary32; accuracy of powf is a hypothesis, shown satisfiable."
  },
  {
   "property": "C93",
   "status": "proved",
   "theorems": [
    "CS.C93_toYxy",
    "CS.C93_roundtrip",
    "CS.C93_uv",
    "CS.C93_uv_roundtrip"
   ],
   "note": "Binary32, no library functions involved."
  },
  {
   "property": "C94",
   "status": "proved",
   "theorems": [
    "CS.C94_chroma",
    "CS.C94_monotone",
    "CS.C94_fromCT",
    "CS.C94_negative",
    "CS.C94_positive"
   ],
   "note": "Mixed binary32/binary64 as in the header; no library functions involved."
  },
  {
   "property": "C95",
   "status": "proved",
   "theorems": [
    "CS.C95_accurate",
    "CS.C95_hotter"
   ],
   "note": "Mixed binary32/binary64; the accuracy of the double pow and exp is a hypothesis, shown satisfiable."
  },
  {
   "property": "C96",
   "status": "proved",
   "theorems": [
    "CS.C96_slog_encode",
    "CS.C96_slog_decode",
    "CS.C96_slog_roundtrip",
    "CS.C96_slog2_encode",
    "CS.C96_slog2_decode",
    "CS.C96_slog2_roundtrip",
    "CS.C96_slog3_decode"
   ],
   "note": "Mixed binary32/binary64 as in the header; the accuracy of log10f and powf is a hypothesis, shown satisfiable. The S-Log3 encoder is wrong (C23) and has no accuracy statement."
  },
  {
   "property": "C97",
   "status": "proved",
   "theorems": [
    "CS.C97_xyz_roundtrip",
    "CS.C97_codes",
    "CS.C97_accurate"
   ],
   "note": "Binary32 throughout, including the matrices inverted at run time; the accuracy of cbrtf is a hypothesis, shown satisfiable."
  },
  {
   "property": "C98",
   "status": "proved",
   "theorems": [
    "CS.C98_apply",
    "CS.C98_gamut",
    "CS.C98_chromaticity",
    "CS.C98_hsv",
    "CS.C98_lab",
    "CS.C98_observer"
   ],
   "note": "Binary32 throughout, equality of data (signed zeros included). The range hypotheses keep all intermediate results out of the subnormal and overflow ranges; outside them the claim is false in general."
  },
  {
   "property": "C99",
   "status": "proved",
   "theorems": [
    "CS.C99_toXYZ",
    "CS.C99_fromXYZ",
    "CS.C99_convert",
    "CS.C99_bradford"
   ],
   "note": "Binary32 against the published chromaticities (`Spec.Realises`), for every colour of bounded magnitude. The adaptation theorem compares with the exact reading of `Bradford`, which C07 characterises."
  },
  {
   "property": "C100",
   "status": "proved",
   "theorems": [
    "CS.C100_encode",
    "CS.C100_roundtrip"
   ],
   "note": "Binary32 with an arbitrary powf of relative error 2^-22. Colours with a cone response below C/16 (strong cancellation in the matrix) are outside the statement."
  },
  {
   "property": "C101",
   "status": "proved",
   "theorems": [
    "CS.C101_upper",
    "CS.C101_lower"
   ],
   "note": "Exact arithmetic. The constants 2.13 and 32 are not claimed to be the best; the additive 1e-14 is the spacing the guarded pi literals leave."
  },
  {
   "property": "C102",
   "status": "partial",
   "theorems": [
    "CS.C102_spec",
    "CS.C102_published_partial",
    "CS.C102_reference",
    "CS.C102_false"
   ],
   "note": "False of the code: C102_false gives the D65 white and (1,0,0) as witnesses; C102_published_partial shows agreement exactly when X = 0."
  },
  {
   "property": "C103",
   "status": "proved",
   "theorems": [
    "CS.C103_position",
    "CS.C103_distance"
   ],
   "note": ""
  },
  {
   "property": "C104",
   "status": "proved",
   "theorems": [
    "CS.C104_mixture",
    "CS.C104_mixture_uv",
    "CS.C104_exposure",
    "CS.C104_reach",
    "CS.C104_hull"
   ],
   "note": ""
  },
  {
   "property": "C105",
   "status": "proved",
   "theorems": [
    "CS.C105_adapts",
    "CS.C105_neutral",
    "CS.C105_neutral_iff",
    "CS.C105_signs",
    "CS.C105_range",
    "CS.C105_range_sharp",
    "CS.C105_saturates",
    "CS.C105_default"
   ],
   "note": ""
  },
  {
   "property": "C106",
   "status": "proved",
   "theorems": [
    "CS.C106_homogeneous",
    "CS.C106_exposure"
   ],
   "note": ""
  },
  {
   "property": "C107",
   "status": "proved",
   "theorems": [
    "CS.C107_defined",
    "CS.C107_self"
   ],
   "note": ""
  },
  {
   "property": "C108",
   "status": "proved",
   "theorems": [
    "CS.C108_weights",
    "CS.C108_interpolates",
    "CS.C108_ends",
    "CS.C108_undefined"
   ],
   "note": ""
  },
  {
   "property": "C109",
   "status": "proved",
   "theorems": [
    "CS.C109_invert",
    "CS.C109_singular",
    "CS.C109_singular_missed"
   ],
   "note": ""
  },
  {
   "property": "C110",
   "status": "proved",
   "theorems": [
    "CS.C110_matrix",
    "CS.C110_adapt",
    "CS.C110_white"
   ],
   "note": ""
  },
  {
   "property": "C111",
   "status": "proved",
   "theorems": [
    "CS.C111_xyz",
    "CS.C111_convert",
    "CS.C111_hsv",
    "CS.C111_cielab",
    "CS.C111_oklab",
    "CS.C111_yxy",
    "CS.C111_default_white"
   ],
   "note": ""
  },
  {
   "property": "C112",
   "status": "proved",
   "theorems": [
    "CS.C112_lumens",
    "CS.C112_candellas",
    "CS.C112_xyz",
    "CS.C112_efficacy",
    "CS.C112_mono",
    "CS.C112_peak",
    "CS.C112_juddvos"
   ],
   "note": ""
  },
  {
   "property": "C113",
   "status": "proved",
   "theorems": [
    "CS.C113_direct",
    "CS.C113_xyz",
    "CS.C113_convert",
    "CS.C113_hsv",
    "CS.C113_cielab",
    "CS.C113_oklab",
    "CS.C113_yxy"
   ],
   "note": ""
  },
  {
   "property": "C114",
   "status": "proved",
   "theorems": [
    "CS.Corrector.C114_recovers",
    "CS.Corrector.C114_gamut",
    "CS.Corrector.C114_reversed"
   ],
   "note": ""
  },
  {
   "property": "C115",
   "status": "proved",
   "theorems": [
    "CS.C115_xyz",
    "CS.C115_convert",
    "CS.C115_grey",
    "CS.C115_dark"
   ],
   "note": ""
  },
  {
   "property": "C116",
   "status": "proved",
   "theorems": [
    "CS.C116_xyz",
    "CS.C116_convert",
    "CS.C116_hsv",
    "CS.C116_chromaticity",
    "CS.C116_white",
    "CS.C116_cielab",
    "CS.C116_oklab"
   ],
   "note": ""
  },
  {
   "property": "C117",
   "status": "proved",
   "theorems": [
    "CS.C117_linear",
    "CS.C117_pixel",
    "CS.C117_difference"
   ],
   "note": ""
  },
  {
   "property": "C118",
   "status": "proved",
   "theorems": [
    "CS.C118_convert",
    "CS.C118_codes"
   ],
   "note": ""
  },
  {
   "property": "C119",
   "status": "proved",
   "theorems": [
    "CS.C119_roundtrip",
    "CS.C119_picker"
   ],
   "note": ""
  },
  {
   "property": "C120",
   "status": "proved",
   "theorems": [
    "CS.C120_roundtrip",
    "CS.C120_codes"
   ],
   "note": ""
  },
  {
   "property": "C121",
   "status": "proved",
   "theorems": [
    "CS.C121_white",
    "CS.C121_primaries"
   ],
   "note": ""
  },
  {
   "property": "C122",
   "status": "proved",
   "theorems": [
    "CS.C122_forward",
    "CS.C122_roundtrip",
    "CS.C122_codes",
    "CS.C122_third"
   ],
   "note": ""
  },
  {
   "property": "C123",
   "status": "proved",
   "theorems": [
    "CS.C123_filter"
   ],
   "note": ""
  },
  {
   "property": "C124",
   "status": "proved",
   "theorems": [
    "CS.C124_bluer",
    "CS.C124_injective",
    "CS.C124_range"
   ],
   "note": ""
  },
  {
   "property": "C125",
   "status": "proved",
   "theorems": [
    "CS.C125_fromCT",
    "CS.C125_planckian",
    "CS.C125_agree"
   ],
   "note": ""
  },
  {
   "property": "C126",
   "status": "proved",
   "theorems": [
    "CS.C126_lights",
    "CS.C126_space"
   ],
   "note": ""
  },
  {
   "property": "C127",
   "status": "proved",
   "theorems": [
    "CS.C127_metamer"
   ],
   "note": ""
  },
  {
   "property": "C128",
   "status": "proved",
   "theorems": [
    "CS.C128_lightness",
    "CS.C128_shortcut",
    "CS.C128_black_white",
    "CS.C128_relaxed"
   ],
   "note": ""
  },
  {
   "property": "C129",
   "status": "proved",
   "theorems": [
    "CS.C129_apply",
    "CS.C129_luminance",
    "CS.C129_between",
    "CS.C129_blue"
   ],
   "note": ""
  },
  {
   "property": "C130",
   "status": "proved",
   "theorems": [
    "CS.C130_nonneg",
    "CS.C130_monotone",
    "CS.C130_adobe"
   ],
   "note": ""
  },
  {
   "property": "C131",
   "status": "proved",
   "theorems": [
    "CS.C131_components",
    "CS.C131_chromaticity",
    "CS.C131_fromCT"
   ],
   "note": ""
  },
  {
   "property": "C132",
   "status": "proved",
   "theorems": [
    "CS.C132_range",
    "CS.C132_accurate"
   ],
   "note": ""
  },
  {
   "property": "C133",
   "status": "proved",
   "theorems": [
    "CS.C133_accurate",
    "CS.C133_ge",
    "CS.C133_symmetric",
    "CS.C133_nan"
   ],
   "note": ""
  },
  {
   "property": "C134",
   "status": "proved",
   "theorems": [
    "CS.C134_accurate",
    "CS.C134_shortcut"
   ],
   "note": ""
  },
  {
   "property": "C135",
   "status": "proved",
   "theorems": [
    "CS.C135_documents"
   ],
   "note": ""
  },
  {
   "property": "C136",
   "status": "proved",
   "theorems": [
    "CS.C136_release",
    "CS.C136_debug",
    "CS.C136_jump",
    "CS.C136_read_at_end",
    "CS.C136_hostile_pointer"
   ],
   "note": ""
  },
  {
   "property": "C137",
   "status": "proved",
   "theorems": [
    "CS.C137_xyz",
    "CS.C137_convert",
    "CS.C137_grey",
    "CS.C137_dark"
   ],
   "note": ""
  },
  {
   "property": "C138",
   "status": "proved",
   "theorems": [
    "CS.C138_slog_xyz",
    "CS.C138_slog_convert",
    "CS.C138_slog2_xyz",
    "CS.C138_slog2_convert",
    "CS.C138_slog_black",
    "CS.C138_slog2_black"
   ],
   "note": ""
  },
  {
   "property": "C139",
   "status": "proved",
   "theorems": [
    "CS.C139_hlg",
    "CS.C139_codes",
    "CS.C139_too_few"
   ],
   "note": ""
  },
  {
   "property": "C140",
   "status": "proved",
   "theorems": [
    "CS.C140_chain",
    "CS.C140_closed",
    "CS.C140_codes"
   ],
   "note": ""
  },
  {
   "property": "C141",
   "status": "proved",
   "theorems": [
    "CS.C141_mirror",
    "CS.C141_convex",
    "CS.C141_optimal",
    "CS.C141_unique",
    "CS.C141_white",
    "CS.C141_transitions"
   ],
   "note": ""
  },
  {
   "property": "C142",
   "status": "proved",
   "theorems": [
    "CS.BackSubst.C142_forward",
    "CS.BackSubst.C142_uniform",
    "CS.BackSubst.C142_exact"
   ],
   "note": ""
  },
  {
   "property": "C143",
   "status": "proved",
   "theorems": [
    "CS.Order.C143_srgb",
    "CS.Order.C143_bt709",
    "CS.Order.C143_hlg",
    "CS.Order.C143_pq",
    "CS.Order.C143_gamma",
    "CS.Order.C143_slog",
    "CS.Order.C143_slog2",
    "CS.Order.C143_slog3",
    "CS.Order.C143_codes",
    "CS.Order.C143_bt709_12bit"
   ],
   "note": ""
  },
  {
   "property": "C144",
   "status": "proved",
   "theorems": [
    "CS.C144_accuracy",
    "CS.C144_grey",
    "CS.C144_closed",
    "CS.C144_codes",
    "CS.C144_tint"
   ],
   "note": ""
  },
  {
   "property": "C145",
   "status": "proved",
   "theorems": [
    "CS.C145_accuracy",
    "CS.C145_order",
    "CS.C145_triangle",
    "CS.C145_self",
    "CS.C145_peak"
   ],
   "note": ""
  },
  {
   "property": "C146",
   "status": "proved",
   "theorems": [
    "CS.EncOrder.C146_srgb",
    "CS.EncOrder.C146_bt709",
    "CS.EncOrder.C146_hlg",
    "CS.EncOrder.C146_slog",
    "CS.EncOrder.C146_slog2",
    "CS.EncOrder.C146_pq",
    "CS.EncOrder.C146_codes"
   ],
   "note": ""
  },
  {
   "property": "C147",
   "status": "proved",
   "theorems": [
    "CS.C147_pq",
    "CS.C147_codes",
    "CS.C147_ten_bits"
   ],
   "note": ""
  },
  {
   "property": "C148",
   "status": "proved",
   "theorems": [
    "CS.C148_pq",
    "CS.C148_codes",
    "CS.C148_ten_bits"
   ],
   "note": ""
  }
 ]
}