STATUS = {
 'C01': ('proved', 'Exact arithmetic, all matrices with non-zero determinant (Mathlib determinant).'),
 'C02': ('proved', 'Exact arithmetic; model operations equal the Mathlib matrix operations.'),
 'C03': ('proved', 'Exact arithmetic; C03_singular shows r = 1/3 is the only exception.'),
 'C04': ('proved', 'Exact arithmetic, both constructors.'),
 'C05': ('proved', 'Exact arithmetic.'),
 'C06': ('proved', 'Exact arithmetic; C06_constructors shows every non-degenerate gamut meets the hypotheses.'),
 'C07': ('proved', 'Exact arithmetic.'),
 'C08': ('proved', 'Exact arithmetic; all ten predefined gamuts.'),
 'C09': ('proved', 'Exact arithmetic; the luminance clause for any arithmetic.'),
 'C10': ('proved', 'Exact arithmetic.'),
 'C11': ('proved', 'Exact arithmetic.'),
 'C12': ('proved', 'Exact arithmetic.'),
 'C13': ('proved', 'Exact arithmetic.'),
 'C16': ('proved', 'Exact arithmetic; C16_formula pins the forward transform to the matrices in the header; that the first of them is not the published one is C102.'),
 'C17': ('proved', 'Exact arithmetic.'),
 'C18': ('proved', 'Exact arithmetic.'),
 'C19': ('proved', 'Exact arithmetic.'),
 'C20': ('proved', 'Exact arithmetic, both directions.'),
 'C21': ('proved', 'Exact arithmetic.'),
 'C22': ('proved', 'Exact arithmetic.'),
 'C23': ('partial', 'False of the code: the encoder puts the factor 261.5 inside the logarithm (hpp:673). C23_false is the negation; the round trip holds up to the knee 0.01125 and at exactly one value above it.'),
 'C24': ('proved', 'Exact arithmetic; C24_gap describes the excluded signals.'),
 'C25': ('proved', 'Exact arithmetic.'),
 'C26': ('proved', 'Exact arithmetic; C26_sRGB_not_monotone shows why sRGB is not listed.'),
 'C27': ('proved', 'Channel-wise and LINEAR clauses for any arithmetic; C27_named, C27_slog2 and C27_decoders identify the curves with the published ones in exact arithmetic (S-Log3 encoder: C23).'),
 'C46': ('proved', 'Exact arithmetic.'),
 'C47': ('proved', 'Exact arithmetic.'),
 'C57': ('proved', 'Luminance clause for any arithmetic, linearity in exact arithmetic.'),
 'C58': ('partial', 'False of the code at 4000 K (C58_false: y jumps by more than 0.003); continuous everywhere else.'),
 'C45': ('proved', 'Metric laws in exact arithmetic; symmetry bit for bit in binary32.'),
 'C28': ('proved', 'Any sequence of typed values up to 2 GiB, both endiannesses, with and without asserts.'),
 'C29': ('proved', 'Bytes, digits and byte swapping for all ten kinds.'),
 'C30': ('proved', 'All ten kinds, any cursor position inside the buffer.'),
 'C31': ('proved', 'Empty blocks at the end are excluded: the code forms &buffer_[size] there.'),
 'C32': ('partial', 'False of the code: in the interior putUint8 does not advance the cursor, so multi-byte puts overwrite one byte. C32_overwrite_actual says what happens; single bytes are stored.'),
 'C33': ('partial', 'False of the code: put_at is out of bounds for every argument (C33_put_at_false).'),
 'C34': ('partial', 'False of the code: putString drops the last character (C34_strings_actual) and is undefined on the empty string. The round trip holds for putSubstr with the terminator counted.'),
 'C35': ('proved', 'Includes the overflow case.'),
 'C36': ('proved', 'Both widths, any appended values.'),
 'C37': ('proved', 'Any finite sequence of operations from a constructed stream.'),
 'C59': ('partial', 'False of the code: the profile content is ignored (C59_icc_false).'),
 'C38': ('partial', 'False of the code on the first interval (C38_first_interval, C38_interpolates_false) and undefined for far-away wavelengths (C38_far_undefined); the rest holds. Bounds clause for any arithmetic; identity at the sample wavelengths also in binary32.'),
 'C39': ('proved', 'Linearity in exact arithmetic; commutativity bit for bit in binary32.'),
 'C40': ('proved', 'Exact arithmetic.'),
 'C41': ('proved', 'Any arithmetic, hence bit for bit.'),
 'C42': ('proved', 'Entries for any arithmetic, bounds in exact arithmetic.'),
 'C43': ('proved', 'Exact arithmetic; wavelengths whose lookup is defined.'),
 'C44': ('proved', 'Exact arithmetic.'),
 'C14': ('proved', 'Every binary32 value: exactly when the recursion returns, and the value; C14_diverges for the rest.'),
 'C15': ('proved', 'Every binary32 value including NaN, infinities and signed zeros.'),
 'C60': ('proved', 'Error bounds of dot product and matrix application in binary32 barring overflow.'),
 'C56': ('proved', 'Every binary32 value: the recursion returns, with NaN exactly outside the finite non-negative numbers.'),
 'C61': ('proved', 'Every finite non-negative binary32 value.'),
 'C48': ('proved', 'All shapes and all binary32 contents, for any library sqrtf; also in exact arithmetic.'),
 'C49': ('partial', 'False of the code: solve answers 0 for every system (C49_always_zero), also for unsolved ones (C49_reports_failure_false). Only the status inside svdcmp distinguishes the shapes.'),
 'C50': ('proved', 'Exact arithmetic, all shapes; binary32 for the skipped zero singular values.'),
 'C52': ('proved', 'Exact arithmetic for the value; binary32 for the absence of 0/0.'),
 'C53': ('proved', 'Exact arithmetic, all list lengths.'),
 'C54': ('proved', 'All binary32 contents.'),
 'C55': ('partial', 'False of the code: defined exactly when there are enough targets, so for at most 24 patches against the chart (C55_any_number_false). Lists of more than 715827881 patches overflow the int row count and are reported as such.'),
 'C51': ('partial', 'False of the code for rank-deficient matrices (C51_rank_deficient_false, C51_false): the cancellation loop omits an update of rv1. Proved: orthogonality of u and v for all matrices; the SVD for one and two columns, for diagonal matrices and for orthogonal columns; for full column rank a backward error bound in terms of the convergence tolerance and the residual superdiagonal. Not covered: a bound on the number of QR rounds for three columns and more.'),
 'C62': ('partial', 'Unconditional for one and two unknowns, for diagonal systems and for the corrector on uncorrelated patches; for the rest under full column rank and convergence of the decomposition (C62_solve_partial, C62_corrector_partial).'),
 'C63': ('proved', 'Every finite binary32 colour with components up to 2^120 in magnitude.'),
 'C64': ('proved', 'Every binary32 hue up to 2^33 in magnitude (C14: beyond that the wrap does not return), saturation in [0,1], finite value.'),
 'C65': ('proved', 'Exact arithmetic; published numbers restated in Spec.'),
 'C66': ('partial', 'False of the code for Illuminant_B, whose X is 1.99072 instead of 0.99072 (C66_illuminant_B_false). Proved for the other eleven.'),
 'C67': ('proved', 'Exact arithmetic with an explicit undefined value (Verif/Partial.lean).'),
 'C68': ('proved', 'Exact arithmetic with an explicit undefined value; exact domains.'),
 'C69': ('proved', 'Exact arithmetic with an explicit undefined value.'),
 'C70': ('partial', 'False of the code: undefined for (0, 0, 1) (C70_undefined). Proved for every colour with the three cone responses at least 1e-6.'),
 'C71': ('proved', 'Exact arithmetic.'),
 'C72': ('proved', 'Exact arithmetic.'),
 'C73': ('proved', 'Exact arithmetic; published formula in Spec/CIEDE.lean.'),
 'C74': ('proved', 'Exact arithmetic; tables compared entry by entry by the kernel.'),
 'C75': ('proved', 'Exact arithmetic; tables compared entry by entry by the kernel.'),
 'C76': ('proved', 'Exact arithmetic.'),
 'C77': ('proved', 'Binary32 semantics (Verif/Float); every light of finite non-negative samples up to 2^100.'),
 'C78': ('proved', 'Binary32 semantics (Verif/Float); every light of finite non-negative samples up to 2^100.'),
 'C79': ('proved', 'Binary32 semantics; the binary32 matrices of the gamuts are evaluated by the kernel.'),
 'C80': ('proved', 'Exact arithmetic; triangle = convex hull of the published primaries.'),
 'C81': ('proved', 'Exact arithmetic.'),
 'C82': ('proved', 'Exact arithmetic; one linear form per edge of the triangle, checked by the kernel at every wavelength, lifted to all spectra by linearity.'),
 'C83': ('proved', 'Binary32, any powf with relative error at most 2^-22 between 2^-120 and 2^120.'),
 'C84': ('proved', 'Binary32, any powf with relative error at most 2^-22; the exception at 0.018f and the lost 12-bit code are proved too.'),
 'C85': ('proved', 'Binary32, any powf with relative error at most 2^-22.'),
 'C86': ('proved', 'Binary32, any powf with relative error at most 2^-22; black under the C annex F rule powf(0,y)=0.'),
 'C87': ('proved', 'Real arithmetic.'),
 'C88': ('proved', 'Real arithmetic; rotation and complement for non-grey colours.'),
 'C89': ('proved', 'Binary32, no hypotheses on library functions.'),
 'C90': ('proved', 'Binary32; accuracy of sqrtf, logf and expf is a hypothesis, shown satisfiable (exists_accurate).'),
 'C91': ('proved', 'Binary32, arbitrary library functions; oddness of sinf (E00 symmetry) and accuracy of sqrtf (E76) are hypotheses, shown satisfiable.'),
 'C92': ('proved', 'Binary32; accuracy of powf is a hypothesis, shown satisfiable.'),
 'C93': ('proved', 'Binary32, no library functions involved.'),
 'C94': ('proved', 'Mixed binary32/binary64 as in the header; no library functions involved.'),
 'C95': ('proved', 'Mixed binary32/binary64; the accuracy of the double pow and exp is a hypothesis, shown satisfiable.'),
 'C96': ('proved', 'Mixed binary32/binary64 as in the header; the accuracy of log10f and powf is a hypothesis, shown satisfiable. The S-Log3 encoder is wrong (C23) and has no accuracy statement.'),
 'C97': ('proved', 'Binary32 throughout, including the matrices inverted at run time; the accuracy of cbrtf is a hypothesis, shown satisfiable.'),
 'C98': ('proved', 'Binary32 throughout, equality of data (signed zeros included). The range hypotheses keep all intermediate results out of the subnormal and overflow ranges; outside them the claim is false in general.'),
 'C99': ('proved', 'Binary32 against the published chromaticities (`Spec.Realises`), for every colour of bounded magnitude. The adaptation theorem compares with the exact reading of `Bradford`, which C07 characterises.'),
 'C100': ('proved', 'Binary32 with an arbitrary powf of relative error 2^-22. Colours with a cone response below C/16 (strong cancellation in the matrix) are outside the statement.'),
 'C101': ('proved', 'Exact arithmetic. The constants 2.13 and 32 are not claimed to be the best; the additive 1e-14 is the spacing the guarded pi literals leave.'),
 'C102': ('partial', 'False of the code: C102_false gives the D65 white and (1,0,0) as witnesses; C102_published_partial shows agreement exactly when X = 0.'),
 'C103': ('proved', ''),
 'C104': ('proved', ''),
 'C105': ('proved', ''),
 'C106': ('proved', ''),
 'C107': ('proved', ''),
 'C108': ('proved', ''),
 'C109': ('proved', ''),
 'C110': ('proved', ''),
 'C111': ('proved', ''),
 'C112': ('proved', ''),
 'C113': ('proved', ''),
 'C114': ('proved', ''),
 'C115': ('proved', ''),
 'C116': ('proved', ''),
 'C117': ('proved', ''),
 'C118': ('proved', ''),
 'C119': ('proved', ''),
 'C120': ('proved', ''),
 'C121': ('proved', ''),
 'C122': ('proved', ''),
 'C123': ('proved', ''),
 'C124': ('proved', ''),
 'C125': ('proved', ''),
 'C126': ('proved', ''),
 'C127': ('proved', ''),
 'C128': ('proved', ''),
 'C129': ('proved', ''),
 'C130': ('proved', ''),
 'C131': ('proved', ''),
 'C132': ('proved', ''),
 'C133': ('proved', ''),
 'C134': ('proved', ''),
 'C135': ('proved', ''),
 'C136': ('proved', ''),
 'C137': ('proved', ''),
 'C138': ('proved', ''),
 'C139': ('proved', ''),
 'C140': ('proved', ''),
 'C141': ('proved', ''),
 'C142': ('proved', ''),
 'C143': ('proved', ''),
 'C144': ('proved', ''),
 'C145': ('proved', ''),
 'C146': ('proved', ''),
 'C147': ('proved', ''),
 'C148': ('proved', ''),
}
