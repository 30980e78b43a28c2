#!/usr/bin/env python3
"""Writes /verif/properties.jsonl.  Kept as a script so the list stays consistent as it grows."""
import json, os
H = "include/colorsystem.hpp"
P = []
def p(title, statement, quantifier, why, *anchors):
    P.append(dict(id="C%02d" % (len(P) + 1), title=title, statement=statement, quantifier=quantifier,
                  why_tests_cant=why, anchors=[f"{H}: {a}" for a in anchors]))

INF = "The domain is a continuum of colours/matrices; a test samples a handful of points and cannot exclude a wrong sign or index that cancels on them."

# ---- linear algebra
p("Matrix inverse is a two-sided inverse",
  "For every Matrix3 m whose det() is non-zero, m.invert().mul(m) and m.mul(m.invert()) are the identity matrix, invert() is involutive, and applying m then m.invert() returns the original vector (in exact arithmetic).",
  "all 3x3 matrices with non-zero determinant, all vectors", INF, "Matrix3::invert", "Matrix3::det", "Matrix3::mul", "Matrix3::apply")
p("Matrix3 operations are ordinary linear algebra",
  "mul, apply, add, scalar mul/div, det, transpose, diag, row and col of Matrix3 agree with the textbook row-major 3x3 operations: apply(a.mul(b), v) = a.apply(b.apply(v)), det is multiplicative, transpose reverses products, the default constructor is the identity.",
  "all 3x3 matrices, vectors and scalars", INF, "Matrix3::mul", "Matrix3::apply", "Matrix3::det", "Matrix3::transpose", "Matrix3::row", "Matrix3::col", "Matrix3::diag")
p("crosstalkInvert inverts crosstalk",
  "For every r other than 1/3, crosstalk(r).mul(crosstalkInvert(r)) is the identity and crosstalkInvert(r) equals crosstalk(r).invert(); crosstalk preserves neutral (grey) vectors.",
  "all real r, r != 1/3", INF, "Matrix3::crosstalk", "Matrix3::crosstalkInvert")
p("Gamut conversion to and from XYZ round-trips",
  "For every Gamut built from a non-degenerate matrix or from non-degenerate primaries, fromXYZ(toXYZ(c)) = c and toXYZ(fromXYZ(c)) = c for every colour c, including out-of-gamut (negative) ones.",
  "all non-degenerate gamuts, all colours", INF, "Gamut::Gamut", "Gamut::toXYZ", "Gamut::fromXYZ")
p("A gamut built from primaries has the requested white and primaries",
  "A Gamut built from chromaticities (xR,yR,xG,yG,xB,yB,xW,yW) maps RGB (1,1,1) to the XYZ of (xW,yW) at luminance 1, maps pure red/green/blue to the requested chromaticities, and primaryRed/Green/Blue/White report exactly what was requested.",
  "all primary/white chromaticities with |yW| >= 1e-8, independent primaries and non-zero channel weights", INF,
  "Gamut::fromPrimaries", "Gamut::primMat", "Gamut::mulDiag", "Gamut::primaryMatrix", "Gamut::primaryWhite", "Gamut::primaryRed")
p("GamutConvert preserves the colour and composes",
  "GamutConvert(src,dst) applied to src RGB gives the dst RGB with the same XYZ; GamutConvert(g,g) is the identity; converting a->b->c equals converting a->c; a->b->a is the identity.",
  "all triples of non-degenerate gamuts, all colours", INF, "GamutConvert")
p("Bradford adaptation maps source white to destination white",
  "Bradford(s,d) maps white s exactly to white d; Bradford(w,w) is the identity; Bradford(b,c) after Bradford(a,b) equals Bradford(a,c).",
  "all pairs/triples of whites whose Bradford cone responses are non-zero", INF, "Bradford", "LMS")
p("Every predefined gamut is usable and white-preserving",
  "AdobeRGB, Rec709, Rec2020, DCI_P3, S_Gamut, S_Gamut3_Cine, ACEScg, ACES2065, LMS and XYZ all round-trip every colour, and each RGB gamut maps equal RGB (k,k,k) to a colour with luminance k and the white's chromaticity.",
  "the ten gamuts, all colours, all levels k", INF, "AdobeRGB", "Rec709", "Rec2020", "DCI_P3", "S_Gamut", "S_Gamut3_Cine", "ACEScg", "ACES2065", "LMS", "XYZ")
# ---- tristimulus
p("Yxy conversion round-trips",
  "fromYxy(toYxy(XYZ)) = XYZ whenever |X+Y+Z| >= 1e-8 and |y| >= 1e-8; toYxy(fromYxy(Yxy)) = Yxy whenever |y| >= 1e-8 and |Y/y| >= 1e-8; outside, the documented fallback values (white chromaticity / zero X and Z) are returned. Luminance is always passed through unchanged.",
  "all XYZ and Yxy triples", INF + " The guard thresholds are boundaries tests do not hit.", "Tristimulus::toYxy", "Tristimulus::fromYxy", "Tristimulus::X_from_Yxy", "Tristimulus::x_from_XYZ")
p("Yuv conversion round-trips",
  "YuvToYxy(YxyToYuv(c)) = c for every c whose denominator -2x+12y+3 is non-zero, YxyToYuv(YuvToYxy(c)) = c whenever 2u-8v+4 is non-zero, and fromYuv(toYuv(XYZ)) = XYZ wherever the Yxy round-trip holds and X+15Y+3Z is non-zero.",
  "all colours", INF, "Tristimulus::YxyToYuv", "Tristimulus::YuvToYxy", "Tristimulus::toYuv", "Tristimulus::fromYuv")
p("CIELAB round-trips up to the white clamp",
  "fromCIELAB(toCIELAB(c, w), w) = c for every c not exceeding the white w (negative values included); components brighter than the white are clamped to it; toCIELAB(fromCIELAB(lab, w), w) = lab whenever no decoded component exceeds the white. The white maps to L*=100, a*=b*=0.",
  "all XYZ, all whites with positive components", INF, "Tristimulus::toCIELAB", "Tristimulus::fromCIELAB", "Tristimulus::CIELAB_curve", "Tristimulus::CIELAB_decurve")
p("RGB -> HSV -> RGB round-trips",
  "fromHSV(toHSV(c)) = c for every RGB colour with a non-zero maximum (HDR values above 1 and negative components included) and for black; when the maximum is zero but another component is negative the colour is lost (result is black).",
  "all RGB triples", INF + " The six hue sectors meet at ties that random tests never hit.", "Tristimulus::toHSV", "Tristimulus::fromHSV", "Tristimulus::mod360")
p("HSV -> RGB -> HSV round-trips",
  "toHSV(fromHSV(h,s,v)) = (h,s,v) for 0 <= h < 360, 0 < s <= 1, v > 0; fromHSV is 360-periodic in hue; toHSV always reports a hue in [0,360] and, for non-negative RGB, a saturation in [0,1].",
  "all HSV triples in range, all hues", INF, "Tristimulus::toHSV", "Tristimulus::fromHSV", "Tristimulus::mod360")
p("Hue wrapping terminates with a hue in [0,360] exactly for float hues of magnitude up to 2^33",
  "In binary32 arithmetic the hue wrap used by toHSV/fromHSV returns (in finitely many steps) for a finite hue r exactly when |r| <= 2^33, and then the result lies in [0,360]; for larger finite values and infinities it recurses forever; NaN is returned as NaN.",
  "every binary32 value", "2^32 inputs, and non-termination cannot be observed by a test that finishes.", "Tristimulus::mod360")
p("min/max/clip/positive behave on every float including NaN and infinities",
  "For every binary32 colour t and non-NaN bounds l <= h: every component of t.clip(l,h) is a non-NaN float in [l,h] (NaN becomes h), clip is idempotent and leaves in-range components untouched; positive() never yields a NaN or negative component, so hasNegative(positive(t)) is false; min3/max3 of NaN-free colours are the least/greatest component.",
  "every triple of binary32 values, all bounds", "The special values (NaN, -0, inf) and their ordering in a two-way comparison are not covered by sampled tests.", "Tristimulus::clip", "Tristimulus::positive", "Tristimulus::min", "Tristimulus::max", "Tristimulus::hasNegative", "Tristimulus::min3", "Tristimulus::max3")
p("OKLAB round-trips",
  "OKLAB_to_XYZ(XYZ_to_OKLAB(c)) = c and XYZ_to_OKLAB(OKLAB_to_XYZ(l)) = l for every colour, negative ones included (exact arithmetic).",
  "all colours", INF, "XYZ_to_OKLAB", "OKLAB_to_XYZ")
p("ICtCp neutrals and round trip",
  "Colours with equal cone responses have Ct = Cp = 0 and I equal to their PQ code; the signal recovered inside ICtCp_to_XYZ from XYZ_to_ICtCp output differs from the encoded PQ signal by at most 1e-5 on every in-range colour.",
  "all colours", INF, "XYZ_to_ICtCp", "ICtCp_to_XYZ")
# ---- transfer functions
OT = "The curves are piecewise with rounded constants; whether encode/decode pick matching branches near the knee is a question about every real value, and the test suite probes three points."
p("sRGB encode/decode round-trips",
  "toScene(SRGB, toScreen(SRGB, c)) = c for every component in [0,1] outside the knee window [0.0031308, ((0.04045+0.055)/1.055)^2.4), inside which the error is below 1e-8; components below 0 / above 1 come back as 0 / 1.",
  "all reals", OT, "OTF::Y_to_sRGB", "OTF::sRGB_to_Y", "OTF::toScreen", "OTF::toScene")
p("BT.709 encode/decode round-trips",
  "toScene(BT709, toScreen(BT709, c)) = c for every component in [0,1]; outside it is the clamp to [0,1].",
  "all reals", OT, "OTF::Y_to_BT709", "OTF::BT709_to_Y")
p("ST2084 (PQ) encode/decode round-trips",
  "toScene(ST2084, toScreen(ST2084, c)) = c for every component in [0,100] (1 = 100 cd/m^2), and is the clamp to [0,100] elsewhere; toScreen(ST2084, toScene(ST2084, s)) = s for every signal above the black limit c1^m2 (about 7e-7) up to 1, and signals from 0 up to that limit all decode to black.",
  "all reals", OT, "OTF::Y_to_ST2084", "OTF::ST2084_to_Y")
p("S-Log encode/decode round-trips",
  "toScene(SLOG, toScreen(SLOG, c)) = c for c in [0,10] and the clamp to [0,10] elsewhere.",
  "all reals", OT, "OTF::Y_to_SLog", "OTF::SLog_to_Y")
p("S-Log2 encode/decode round-trips",
  "toScene(SLOG2, toScreen(SLOG2, c)) = c for every c >= 1e-6, never negative, off by at most 1e-6 on [0,1e-6], and 0 for every c < 0.",
  "all reals", OT, "OTF::Y_to_SLog2", "OTF::SLog2_to_Y", "OTF::CV_to_IRE_SLog2", "OTF::IRE_to_CV_SLog2")
p("S-Log3 encode/decode round-trips",
  "toScene(SLOG3, toScreen(SLOG3, c)) = c for every scene value c.",
  "all reals", OT, "OTF::Y_to_SLog3", "OTF::SLog3_to_Y")
p("HLG encode/decode round-trips",
  "toScene(HLG, toScreen(HLG, c)) = c for every c >= 0 and 0 for c < 0; toScreen(HLG, toScene(HLG, s)) = s for every signal s in [0, 1/2) and every s at least the code of 1 (the gap between is narrower than 1e-9).",
  "all reals", OT, "OTF::Y_to_HLG", "OTF::HLG_to_Y")
p("Pure gamma round-trips",
  "toScene(GAMMA, toScreen(GAMMA, c, g), g) = c for every c > 0 and every g other than 0, and for c = 0 when g > 0.",
  "all c > 0, g != 0; c = 0, g > 0", OT, "OTF::gamma", "OTF::degamma")
p("Encoders stay in range and are order-preserving",
  "toScreen for SRGB, BT709 and ST2084 always yields signals in [0,1], toScene for SRGB and BT709 always yields values in [0,1], and for ST2084 values in [0,100] for signals in [0,1]; BT709, ST2084, S-Log and HLG encoders are monotone: a brighter scene value never gets a smaller code.",
  "all pairs of reals", OT, "OTF::Y_to_sRGB", "OTF::Y_to_BT709", "OTF::Y_to_ST2084", "OTF::Y_to_HLG", "OTF::Y_to_SLog")
p("toScreen/toScene act channel-wise with the curve named by the type",
  "toScreen(type, c, g) and toScene(type, c, g) apply the named scalar curve independently to each of the three channels; LINEAR (and any unknown type) returns the colour bit-for-bit.",
  "all types, colours and gammas, including non-finite floats", "Needs all enum values crossed with all float triples.", "OTF::toScreen", "OTF::toScene")
# ---- memory stream
MS = "It ranges over every history of stream operations and every byte content; tests execute a few fixed sequences."
p("Typed values written to a stream are read back",
  "Starting from an empty stream, any sequence of putUint8/16/32/64, putInt8/16/32/64, putFloat, putDouble followed by seekTo(0) and the same sequence of gets with the same endianness returns exactly the values written, in order.",
  "all sequences of typed values, both endiannesses", MS, "MemoryStream::putUint16", "MemoryStream::getUint16", "MemoryStream::putInt64", "MemoryStream::getInt64", "MemoryStream::putFloat", "MemoryStream::getFloat")
p("Byte order of the stream",
  "Appending a k-byte integer produces its k bytes least significant first in LITTLE mode and most significant first in BIG mode, appended after the existing content, which is unchanged; reading interprets bytes the same way, so reading with the other endianness yields the byte-swapped value.",
  "all values, widths, endiannesses and prior contents", MS, "MemoryStream::putUint16", "MemoryStream::putUint32", "MemoryStream::putUint64", "MemoryStream::getUint32", "MemoryStream::getUint64", "MemoryStream::setReadEndian", "MemoryStream::setWriteEndian")
p("Reads never change the content and never leave the buffer",
  "Every typed get leaves the stored bytes unchanged, moves the cursor forward by exactly the bytes actually available (at most the width), touches only bytes inside the buffer, and yields zero bytes past the end; at the end feof() is true and stays true.",
  "all stream states with a cursor inside the buffer, all sequences of reads", MS, "MemoryStream::getUint8", "MemoryStream::getUint32", "MemoryStream::getUint64", "MemoryStream::feof")
p("Block reads and writes behave like a growable byte array",
  "write_at(data, n, p) makes the bytes p..p+n-1 equal to data, leaves all other existing bytes unchanged, grows the buffer to max(size, p+n) with zero fill; read_at then returns them; read_at past the end returns fewer bytes; write/read advance the cursor by the number of bytes.",
  "all buffers, positions and data blocks", MS, "MemoryStream::write_at", "MemoryStream::read_at", "MemoryStream::write", "MemoryStream::read")
p("Overwriting in the middle of the stream",
  "Writing a multi-byte value with putUint16/32/64 at a cursor inside the existing content replaces those bytes and advances the cursor, so reading the value back at the same position returns it.",
  "all stream states and cursor positions", MS, "MemoryStream::putUint8", "MemoryStream::putUint16")
p("put_at stores a byte",
  "After put_at(abs, val), get_at(abs) returns val and other bytes below abs are unchanged.",
  "all stream states, positions and values", MS, "MemoryStream::put_at", "MemoryStream::get_at")
p("Strings round-trip",
  "A string written with putString can be read back: after putUint32(len) + putString(s), get_string() returns s.",
  "all strings", MS, "MemoryStream::putString", "MemoryStream::putSubstr", "MemoryStream::get_string", "MemoryStream::getSubstr")
p("align moves to the next multiple",
  "For a > 0, align(a) moves the cursor forward by less than a bytes to the smallest multiple of a not below it, never changes content, and is idempotent; with asserts enabled it aborts exactly when that position is beyond the end.",
  "all cursors and alignments a > 0", MS, "MemoryStream::align", "MemoryStream::fseek")
p("Back-patched pointers read back the patched position",
  "p = putPointer32()/putPointer64() on an appending stream, then any further appends, then adjustPointer32/64(p) stores the current size at p in write endianness, changes no other byte, and a later seekTo(p); getPointer32/64() returns that size (size below 2^32 for the 32-bit form).",
  "all streams and append histories", MS, "MemoryStream::putPointer32", "MemoryStream::adjustPointer32", "MemoryStream::putPointer64", "MemoryStream::adjustPointer64", "MemoryStream::getPointer32")
p("The cursor stays inside the buffer",
  "In an assert-enabled build, after any sequence of stream operations that did not abort, the cursor is between 0 and the buffer size, so no get/put touches memory outside the buffer; fseek(offs, END) lands at size-offs-1.",
  "all operation histories", MS, "MemoryStream::fseek", "MemoryStream::seekTo", "MemoryStream::putUint8")
# ---- spectrum / observer
SP = "400-dimensional inputs; tests evaluate two or three spectra."
p("Spectrum lookup is in-bounds, exact at samples, linear in between and clamped outside",
  "fetch never reads outside the sample array; at a sample wavelength it returns that sample (exactly, in binary32 as well, for the 400-entry 1 nm tables); between samples it returns the linear interpolation, hence a value between the two neighbours; below/above the range it returns the first/last sample. Constructing a Spectrum from its own 400 samples is the identity.",
  "all sample arrays with at least two samples, all wavelengths", SP, "Spectrum::fetch", "Spectrum::lerp", "Spectrum::Spectrum")
p("Spectrum algebra",
  "+ and * are element-wise, commutative (bit-for-bit in binary32), scaling distributes; sum and dot are the sums over all 400 samples: sum(a+b)=sum(a)+sum(b), dot(a,b)=sum(a*b), dot3(a,b,c)=sum(a*b*c).",
  "all spectra", SP, "Spectrum::mul", "Spectrum::add", "Spectrum::sum", "Spectrum::dot", "Spectrum::dot3")
p("Observers are linear and normalised to equal energy",
  "fromSpectrum is linear in the spectrum and maps the flat spectrum E(e) to (e,e,e) for any observer whose three curves have non-zero sum; brighter spectra give no smaller tristimulus values for CIE1931, CIE31JV and CIE2012.",
  "all spectra, all observers", SP, "Observer::fromSpectrum", "Observer::Observer", "CIE1931", "CIE31JV", "CIE2012", "Spectrum::E")
p("Reflectance times light equals the product spectrum, bit for bit",
  "fromReflectanceAndLight(r, l) and fromSpectrum(r * l) return identical floats for every pair of spectra, including non-finite samples.",
  "all pairs of binary32 spectra, all observers", SP, "Observer::fromReflectanceAndLight", "Observer::fromSpectrum", "Spectrum::dot3", "Spectrum::mul")
p("Colour checker references are physically plausible",
  "Macbeth::reference(light, obs) always has 24 entries in chart order, entry i being the colour of patch i under the light; for any non-negative light every component is non-negative and at most that of the light itself (no patch is brighter than a perfect white).",
  "all non-negative lights, all observers with non-negative curves", SP, "Macbeth::reference", "Macbeth::Patch")
p("Monochromatic units",
  "lumensFromMonochromaticFlux and candellasFromMonochromaticRadiance are proportional to power, the Y of the latter equals the former for equal arguments, and lumens never exceed 683.0 lm/W times the curve maximum.",
  "all wavelengths and powers", SP, "Observer::lumensFromMonochromaticFlux", "Observer::candellasFromMonochromaticRadiance", "Observer::xyz")
p("Blackbody radiation is positive and increases with temperature",
  "planck(T, l) > 0 for T, l > 0 and is strictly increasing in T at each wavelength, so blackbody spectra of hotter bodies dominate sample by sample.",
  "all temperatures and wavelengths", SP, "Spectrum::planck", "Spectrum::blackbody")
# ---- differences
DE = "A metric law quantifies over all pairs or triples of colours."
p("Delta UV and Delta E76 are metrics",
  "Delta::E76 is non-negative, symmetric (bit-for-bit in binary32), zero exactly for equal colours and satisfies the triangle inequality; Delta::UV likewise on the (u,v) components and ignores luminance.",
  "all pairs and triples of colours", DE, "Delta::UV", "Delta::E76")
p("Delta E00 is a well-defined symmetric difference",
  "Delta::E00 never takes the square root of a negative number, is symmetric, and is zero exactly when the two LAB colours are equal (all Kl,Kc,Kh > 0) - for pairs on opposite sides of the negative a* axis up to the 35-digit decimal used for pi, i.e. hue angles agreeing to 4e-18 rad.",
  "all pairs of LAB colours", DE, "Delta::E00")
p("Delta ICtCp is a pseudo-metric",
  "Delta::ICtCp is non-negative, symmetric, zero for equal colours and satisfies the triangle inequality.",
  "all triples of XYZ colours", DE, "Delta::ICtCp")
# ---- solver
SO = "The loop nest runs on arbitrary matrices of any size; out-of-bounds indices appear only on specific value/shape combinations."
p("The SVD routine never leaves its arrays and always terminates",
  "SOLVER::svdcmp on any m x n matrix of floats (NaN and infinities included) with m >= n, a length-n w and n x n v performs only in-bounds accesses and returns 1; with m < n it returns -1 and changes nothing. It never returns 0.",
  "all matrix sizes and all float contents", SO, "SOLVER::svdcmp")
p("solve reports failure",
  "SOLVER::solve returns a status that lets the caller tell whether the system was solved (in particular under-determined shapes with fewer rows than columns are reported).",
  "all systems", SO, "SOLVER::solve", "SOLVER::svdcmp")
p("Back-substitution yields the least-squares solution",
  "If u has orthonormal columns, v is orthogonal and A = u diag(w) v^T, then svbksb returns x minimising |Ax-b|, and among minimisers the one of least norm (zero singular values are skipped).",
  "all shapes, all factorisations and right-hand sides", SO, "SOLVER::svbksb")
p("The SVD routine factorises its input",
  "After svdcmp the original matrix equals u * B * v^T with u's columns orthonormal on the non-degenerate part and v orthogonal, B being the (upper bidiagonal) matrix of w and the residual off-diagonal; when the off-diagonal is zero this is the singular value decomposition with w >= 0.",
  "all real matrices with m >= n", SO, "SOLVER::svdcmp", "SOLVER::PYTHAG", "SOLVER::DSIGN")
p("PYTHAG computes the hypotenuse without division by zero",
  "PYTHAG(a,b) = sqrt(a^2+b^2) for all a, b, is symmetric and zero only when both are zero; DSIGN(a,b) has magnitude |a| and the sign of b (negative for b = 0).",
  "all reals", SO, "SOLVER::PYTHAG", "SOLVER::DSIGN")
p("Corrector::solve sets up the right least-squares problem",
  "The system handed to the solver by Corrector::solve(patch, target) is exactly M*patch[i] = target[i] for all patches (plus a vacuous zero row block), so a least-squares solution of it minimises the total squared error over all 3x3 matrices M.",
  "all patch/target lists", SO, "Corrector::solve")
p("Corrector::solve with too few patches",
  "With fewer than two patches the returned matrix is the zero matrix (no error is reported) for every input, and makeGamut then inverts a singular matrix.",
  "all patch lists of length 0 or 1", SO, "Corrector::solve", "Corrector::makeGamut", "SOLVER::solve")
p("Corrector::solve stays in bounds",
  "Corrector::solve(patch, target) reads target only at indices below its size; solve(patch, light, observer) and makeGamut are safe for any number of patches.",
  "all patch/target list lengths", SO, "Corrector::solve", "Macbeth::reference")
# ---- misc
p("util::sqrtf terminates and approximates the square root",
  "util::sqrtf(x) returns NaN for negative, infinite and NaN input, and for every finite x >= 0 the Newton iteration terminates in binary32.",
  "every binary32 value", "2^32 inputs; a hang is not observable by a finite test.", "util::sqrtf", "util::Detail::sqrtNewtonRaphsonF")
p("Colour-temperature whites keep the requested luminance",
  "fromCT(T,Y), fromPlanckianLocus(T,Y) and fromCCT(T,d,Y) return a colour whose luminance is Y and whose other components scale linearly with Y.",
  "all temperatures and luminances", INF, "Tristimulus::fromCT", "Tristimulus::fromPlanckianLocus", "Tristimulus::fromCCT")
p("The Planckian locus approximation is continuous across its segments",
  "fromPlanckianLocus has no visible jump (more than 0.001 in chromaticity) at its segment boundaries 2222 K and 4000 K.",
  "all temperatures", INF, "Tristimulus::fromPlanckianLocus")
p("ICC loading",
  "loadGamutFromICCProfileMemory yields a gamut derived from the profile's content.",
  "all byte buffers", MS, "loadGamutFromICCProfileMemory")
p("Binary32 matrix application is accurate",
  "Evaluating Matrix3::apply and Vector3::dot in binary32 gives a result whose error relative to the exact value is bounded by a small multiple of the unit roundoff times the sum of the absolute products, whenever no overflow occurs.",
  "all binary32 matrices and vectors", "Rounding error bounds must hold for every float combination.", "Matrix3::apply", "Vector3::dot")
# ---- added as the model grew
p("util::sqrtf is faithfully rounded",
  "For every finite binary32 x >= 0 the result r of util::sqrtf(x) is one of the two binary32 neighbours of the real square root: if r*r <= x no larger float has a square <= x, if r*r >= x no smaller non-negative float has a square >= x. Squares of floats get their exact root, and +0/-0 are returned unchanged.",
  "every finite non-negative binary32 value", "2^31 inputs; the Newton iteration stops at whatever fixed point rounding produces.", "util::sqrtf", "util::Detail::sqrtNewtonRaphsonF")
p("solve returns the least-squares solution of a nearby system",
  "SOLVER::solve returns status 0 and the shortest least-squares solution of a system A'x = b, where A' differs from A by no more than the singular values below TOL times the largest one (and the convergence tolerance of the decomposition); for a well-conditioned A it is the least-squares solution of Ax = b itself, so Corrector::solve returns the 3x3 matrix of least total squared error.",
  "all shapes with at least as many rows as columns, all right-hand sides and tolerances", SO, "SOLVER::solve", "SOLVER::svdcmp", "SOLVER::svbksb", "Corrector::solve")
p("toHSV in binary32 is finite, in range and accurate",
  "For every colour with finite binary32 components of magnitude at most 2^120, toHSV returns; the hue is a finite number in [0,360] within 1e-4 degrees (modulo a turn) of the exact hexagonal hue of those components, the value is exactly the largest component, and for non-negative components the saturation is a finite number in [0,1] within 2^-22 of (max-min)/max. Greys give hue 0 and saturation 0, black included: no 0/0.",
  "every finite binary32 colour up to 2^120", "2^96 colours; NaN from 0/0 and cancellation occur only on particular bit patterns.", "Tristimulus::toHSV", "Tristimulus::mod360")
p("fromHSV in binary32 never leaves the range [0, v]",
  "For every finite hue of magnitude at most 2^33, every saturation in [0,1] and every finite value v >= 0, fromHSV returns without undefined behaviour, every component is a finite number in [0,v], one component is v bit for bit, and toHSV of the result has value v. A NaN hue is undefined behaviour (cast of NaN to int).",
  "every binary32 hue, saturation and value in range", "2^96 triples; the sector index and the casts depend on rounding at the sector edges.", "Tristimulus::fromHSV", "Tristimulus::toHSV")
p("Predefined gamuts realise the published colour spaces",
  "AdobeRGB, Rec709, Rec2020, DCI_P3, S_Gamut, S_Gamut3_Cine, ACEScg and ACES2065 map pure red, green and blue to the chromaticities published for Adobe RGB (1998), BT.709, BT.2020, RP 431-2, S-Gamut, S-Gamut3.Cine, AP1 and AP0, and equal full drive to the published white at luminance 1; this determines the XYZ of every RGB value.",
  "all RGB values in the eight spaces", INF, "AdobeRGB", "Rec709", "Rec2020", "DCI_P3", "S_Gamut", "S_Gamut3_Cine", "ACEScg", "ACES2065")
p("Illuminant constants have the published chromaticities",
  "Every Illuminant_* constant has luminance 1 and a chromaticity within 0.0005 of the one published for that illuminant (2 degree observer).",
  "all twelve constants", "A mistyped digit in a constant no test reads is invisible to the test suite.", "Illuminant_A", "Illuminant_B", "Illuminant_C", "Illuminant_D50", "Illuminant_D65", "Illuminant_F11")
p("Colour conversions perform no undefined operation",
  "No division by zero, root or power outside its domain takes part in: toYxy, fromYxy, toHSV, toHSV_atan, fromHSV, fromCIELAB, fromCT and both OKLAB conversions for every colour; toYuv unless X+15Y+3Z = 0 (never for non-negative colours); YxyToYuv, YuvToYxy, fromYuv exactly when their denominator is non-zero; toCIELAB exactly when no white component is zero; Matrix3::invert exactly for a non-zero determinant, crosstalkInvert exactly for r other than 1/3; gamut construction from good primaries and all predefined gamuts; primaryMatrix and Bradford exactly when their divisors are non-zero; fromPlanckianLocus exactly for T other than 0.",
  "all real colours, matrices and temperatures", "NaN and infinity appear on measure-zero sets of inputs that sampling does not hit.", "Tristimulus::toYxy", "Tristimulus::toYuv", "Tristimulus::toCIELAB", "Tristimulus::toHSV", "Tristimulus::fromHSV", "Matrix3::invert", "Gamut", "Bradford", "XYZ_to_OKLAB")
p("Domains of the transfer functions",
  "toScreen is defined for every scene colour and every type except GAMMA, toScene for every screen colour and every type except GAMMA and ST2084. gamma is defined exactly when g is non-zero and the value positive, or the value zero and g positive; degamma exactly for a positive value or zero with g >= 0; the PQ decoder exactly for signals in [0, (c2/c3)^m2), in particular on [0,1].",
  "all real colours and exponents", "A domain is a statement about every point, including the single points where a denominator vanishes.", "OTF::toScreen", "OTF::toScene", "OTF::gamma", "OTF::degamma", "OTF::ST2084_to_Y")
p("Colour differences are defined on every pair of colours",
  "Delta::UV, Delta::E76, Delta::ICtCp and XYZ_to_ICtCp evaluate no undefined operation on any pair of colours; Delta::E00 exactly when none of Kl, Kc, Kh is zero.",
  "all pairs of colours and all weighting factors", "E00 takes roots of ratios and differences that could leave their domain for particular pairs.", "Delta::UV", "Delta::E76", "Delta::ICtCp", "Delta::E00", "XYZ_to_ICtCp")
p("The ICtCp round trip is defined for non-negative colours",
  "For every XYZ colour without negative components, ICtCp_to_XYZ(XYZ_to_ICtCp(c)) evaluates no undefined operation.",
  "all non-negative XYZ colours", "The failure needs a clipped cone response, which test colours near the neutral axis do not produce.", "XYZ_to_ICtCp", "ICtCp_to_XYZ", "OTF::ST2084_to_Y")
p("fromCCT lands at the requested distance from the locus",
  "For T in [1000,10000] K, |dUV| at most 0.05 and non-zero luminance, the CIE 1960 chromaticity of fromCCT(T, dUV) lies at distance |dUV| from that of fromCT(T), at right angles to the chord to the point one kelvin cooler, on the side of greater v for positive dUV and of smaller v for negative dUV (exact square root; in general scaled by the ratio of the chord to the root computed for it). With dUV = 0 it is fromCT(T) exactly.",
  "all temperatures and offsets in range", INF, "Tristimulus::fromCCT", "Tristimulus::CCT_x_approx", "Tristimulus::CCT_y_approx")
p("Along fromCT hotter is bluer",
  "Between 999 K and 10000 K the chromaticity of fromCT stays inside 0.27<=x<=0.66, 0.28<=y<=0.43, and its x and its CIE 1960 u strictly decrease with the temperature, so distinct temperatures have distinct chromaticities.",
  "all temperatures from 999 K to 10000 K", INF, "Tristimulus::fromCT", "Tristimulus::blackbody_x_approx", "Tristimulus::blackbody_y_approx")
p("Delta E00 is the published CIEDE2000 difference",
  "For all pairs of Lab colours and all weighting factors, Delta::E00 equals the published CIEDE2000 formula (evaluated with the decimal of pi in the code), except when the two hues are more than 180 degrees apart and sum to at least 360: then the code takes the mean hue a full turn too high, and the result still agrees within 0.004 per cent.",
  "all pairs of Lab colours, all weighting factors", "Published test pairs exercise a handful of hue combinations; the piecewise mean hue depends on the pair.", "Delta::E00")
p("The grey row of the colour checker is ordered under every light",
  "For every non-negative light and every observer with non-negative curves, entries 18 to 23 of Macbeth::reference get darker from left to right in all three components, entry 18 is the lightest of the 24 and entry 23 the darkest.",
  "all non-negative lights and observers", "A swapped row or patch shows only for lights that weight the differing wavelengths.", "Macbeth::reference", "Macbeth::Patch")
p("TM-30 samples are reflectances",
  "TM_30_15::sample has 99 entries, each between 0 and 1 at all 400 wavelengths, so under every non-negative light and observer no sample is lighter than the light or negative.",
  "all samples, wavelengths, non-negative lights and observers", "39600 entries; a mistyped one shows only under lights strong at its wavelength.", "TM_30_15::sample", "Observer::fromReflectanceAndLight")
p("The daylight table has the chromaticity of D65",
  "CIE1931 applied to CIE_D65, scaled by any non-zero factor, has chromaticity (0.3127, 0.3290) to within 0.0001 in each coordinate.",
  "every scale factor", "One mistyped entry of the daylight table or of a colour matching function moves the white point.", "CIE_D65", "CIE1931", "Observer::fromSpectrum")
p("Observers are accurate and monotone in binary32",
  "For every light of 400 finite non-negative binary32 samples up to 2^100, each component computed by CIE1931, CIE31JV and CIE2012 is finite, non-negative and within 0.005 per cent (plus 2^-140) of the exact mean of the samples weighted by the decimal curve. If one light is nowhere stronger than another, no component of its result is greater, rounding included.",
  "every binary32 light up to 2^100", "Rounding of 400 accumulated terms depends on all samples; monotonicity could fail in the last bit.", "Observer::fromSpectrum", "Spectrum::dot", "Spectrum::sum", "CIE1931", "CIE31JV", "CIE2012")
p("Colour checker references in binary32 respect the light",
  "For every binary32 light up to 2^100 and the three standard observers, no Macbeth or TM-30 patch has a component greater than that of the light itself, the grey row is in decreasing order, and its ends are the lightest and the darkest of the 24 patches: comparisons of the computed floats, without tolerance.",
  "every binary32 light up to 2^100", "Comparisons without tolerance can fail in the last bit for particular lights.", "Macbeth::reference", "TM_30_15::sample", "Observer::fromReflectanceAndLight")
p("Gamut round trips are accurate in binary32",
  "For the ten predefined gamuts and every colour with finite binary32 components of magnitude at most C <= 2^100, fromXYZ(toXYZ(c)) and toXYZ(fromXYZ(c)) are finite and differ from c by at most 4e-6*C + 2^-140 in each component; the same for GamutConvert there and back between any two of the eight RGB spaces. Hence every 16-bit code value survives a round trip through XYZ.",
  "every binary32 colour up to 2^100, all predefined gamuts and pairs", "2^96 colours per gamut; the worst rounding is met by particular bit patterns.", "Gamut::toXYZ", "Gamut::fromXYZ", "GamutConvert", "Matrix3::apply", "Matrix3::invert")
p('No negative component exactly inside the triangle of primaries',
  'For each of the eight predefined RGB gamuts and every XYZ colour with X+Y+Z > 0, fromXYZ has no negative component if and only if the chromaticity lies in the triangle (convex hull) of the published primaries; conversely every non-black mixture of non-negative components has such a chromaticity.',
  'all colours with X+Y+Z > 0, eight gamuts',
  INF,
  'Gamut::fromXYZ',
  'Gamut::toXYZ',
  'AdobeRGB',
  'Rec709',
  'Rec2020',
  'DCI_P3',
  'S_Gamut',
  'S_Gamut3_Cine',
  'ACEScg',
  'ACES2065')
p('Converting to a wider gamut never produces negative components',
  'For 19 ordered pairs of predefined gamuts (for example Rec709 to AdobeRGB, DCI_P3, Rec2020, ACEScg and ACES2065; Rec2020 to ACEScg, S_Gamut and ACES2065) the triangle of the first lies in that of the second, and GamutConvert maps every colour without negative components to one without negative components. ACEScg to ACES2065 is not such a pair.',
  'all colours with non-negative components, 19 pairs of gamuts',
  INF,
  'GamutConvert',
  'Gamut::toXYZ',
  'Gamut::fromXYZ')
p('ACES2065 contains every real colour',
  'For every spectrum without negative samples, and every non-negative reflectance under every non-negative light, the colour seen by CIE1931, CIE31JV or CIE2012 has no negative component in ACES2065. Light at 500 nm has a negative first component in each of the seven other predefined RGB gamuts.',
  'all non-negative spectra (400 samples), three observers',
  'A spectrum has 400 independent samples; the narrowest margin is 1e-11 at one wavelength of one observer.',
  'ACES2065',
  'Gamut::fromXYZ',
  'Observer::fromSpectrum',
  'Observer::fromReflectanceAndLight',
  'CIE1931',
  'CIE31JV',
  'CIE2012')
p('sRGB curve in single precision',
  'In binary32, with any powf of relative error at most 2^-22: Y_to_sRGB of every finite float is within 6e-7 of the published sRGB curve of the clamped value, sRGB_to_Y has relative error at most 2e-6 (plus the smallest float), both round trips return within 4e-6 on [0,1], and every code k/N with N <= 65535 survives decoding and encoding.',
  'all finite floats; all powf with relative error <= 2^-22; all codes of up to 16 bits',
  'powf is an external function: the theorem holds for every implementation within the stated error, not for the one a test happens to link.',
  'OTF::Y_to_sRGB',
  'OTF::sRGB_to_Y')
p('BT.709 curve in single precision',
  'In binary32, with any powf of relative error at most 2^-22: Y_to_BT709 of every finite float except the float nearest to 0.018 is within 6e-7 of the published curve of the clamped value; at that float it is too large by more than 2.4e-4. BT709_to_Y has relative error at most 1.2e-6. Decoding after encoding returns within 4e-6 on [0,1]; encoding after decoding within 4e-6 outside (0.08099, 0.08125) and 4e-4 everywhere, so every code k/N with N <= 1023 survives; code 332 of 4095 returns as 331.',
  'all finite floats; all powf with relative error <= 2^-22; all codes of up to 10 bits',
  'powf is an external function: the theorem holds for every implementation within the stated error, not for the one a test happens to link.',
  'OTF::Y_to_BT709',
  'OTF::BT709_to_Y')
p('Gamma curve in single precision',
  'In binary32, with any powf of relative error at most 2^-22, for every exponent g in [1,4] and every x in [2^-16,1]: gamma followed by degamma and degamma followed by gamma return x with relative error at most 5e-6; every non-zero code k/N with N <= 65535 survives both.',
  'all floats x in [2^-16,1] and g in [1,4]; all powf with relative error <= 2^-22',
  'powf is an external function: the theorem holds for every implementation within the stated error, not for the one a test happens to link.',
  'OTF::gamma',
  'OTF::degamma')
p('ST 2084 (PQ) curve in single precision',
  'In binary32, with any powf of relative error at most 2^-22: Y_to_ST2084 of every finite float from 2^-90 upwards has relative error at most 3.3e-5 against the published curve (1 from 100 upwards); ST2084_to_Y has relative error at most 3e-4 on signals in [1/4096,1]; encoding after decoding returns those signals with relative error at most 6.1e-5, so every non-zero code k/N with N <= 4095 survives. Zero encodes to 0, and with powf(0,y)=0 for y>0 code 0 decodes to 0.',
  'all finite floats in the stated ranges; all powf with relative error <= 2^-22; all non-zero codes of up to 12 bits',
  'powf is an external function: the theorem holds for every implementation within the stated error. The 79th power magnifies rounding errors, so whether 12-bit codes survive is decided by constants no test measures.',
  'OTF::Y_to_ST2084',
  'OTF::ST2084_to_Y')
p('Polar hue of toHSV_atan',
  'toHSV_atan always returns. Its hue lies in [0,360] and equals, to 1e-15 degree, the polar angle of the chroma vector (2r-g-b, sqrt(3)(g-b)); its saturation and value are those of toHSV. For every non-grey colour the two hues differ by at most 1.2 degrees modulo a turn.',
  'all real colours',
  'The hexagonal and polar hues agree at the six corners that tests use; a wrong constant or a swapped argument elsewhere is a small smooth error over a continuum.',
  'Tristimulus::toHSV_atan',
  'Tristimulus::toHSV')
p('How hue, saturation and value transform',
  'Scaling a colour by k>0 keeps hue and saturation and multiplies the value by k. Adding the same amount to all channels keeps the hue and the product saturation*value. Cycling the channels (b,r,g) adds 120 degrees modulo a turn and keeps saturation and value. The complement w-c has the opposite hue.',
  'all real colours, all positive factors, all offsets',
  'Relations between results for unboundedly many pairs of inputs, across the six branches of the hue computation.',
  'Tristimulus::toHSV')
p('RGB to HSV and back in single precision',
  'In binary32, for every colour whose components are finite and in [0,2^120], toHSV followed by fromHSV returns without undefined behaviour and each component is within 3.1e-6 of the largest component (plus 2^-150). Every colour with channels k/N, N<=65535, keeps its codes.',
  'all finite non-negative float colours up to 2^120; all code triples of up to 16 bits',
  '2^96 colours; the sector computed from a rounded hue can be the neighbouring one, and only an argument about the continuity of the reconstruction shows that this is harmless.',
  'Tristimulus::toHSV',
  'Tristimulus::fromHSV')
p('HLG curve in single precision',
  'In binary32, with sqrtf of relative error at most 2^-23, logf and expf of error at most 2^-22: Y_to_HLG of every finite float in [0,2^60] has relative error at most 5e-7 (plus 2^-149) against the published curve; HLG_to_Y of every signal in [0,1] has relative error at most 1e-6 (plus 2^-148); decoding then encoding returns every signal of [0,1] up to 2e-6, so every code k/N with N <= 65535 survives.',
  'all finite floats in the stated ranges; all library functions within the stated errors; all codes of up to 16 bits',
  'sqrtf, logf and expf are external: the theorem holds for every implementation within the stated error. Around the knee a rounded decoder result may be encoded by the other segment of the curve, which a sample of signals does not meet.',
  'OTF::Y_to_HLG',
  'OTF::HLG_to_Y')
p('Colour differences in single precision',
  'In binary32 and for every implementation of the library functions: UV, E76 and ICtCp give the same bits when their arguments are exchanged, NaNs and infinities included; so does E00 for every weighting when sinf is odd. The distance of a finite colour to itself is exactly +0 for UV and E76; for E00 and ICtCp, for all inputs, it is +0 or NaN and never a nonzero number. For components up to 2^50 and sqrtf of relative error at most 2^-23, E76 is within 4.2e-7 relative (plus 2^-72) of the Euclidean distance, and the triangle inequality holds up to a factor 1+1e-6 (plus 2^-70).',
  'all colours with float components, NaN and infinities included for symmetry; all weights; all library functions as stated',
  'Exact symmetry depends on every intermediate operation of E00 being symmetric or antisymmetric under rounding, including the two branches of the hue difference, the mean hue and signed zeros; sampled pairs do not reach NaN, infinities and ties.',
  'Delta::UV',
  'Delta::E76',
  'Delta::E00',
  'Delta::ICtCp')
p('CIELAB in single precision',
  'In binary32, with powf of relative error at most 2^-22: for every finite non-negative colour and positive white (ratios and white up to 2^100), toCIELAB is within 5.3e-5 (L), 4e-4 (a) and 1.6e-4 (b) of the CIE definition applied to the colour clamped to the white; fromCIELAB of the result is the clamped colour up to 5e-6 of the white (plus 2^-149); the white itself is (100, 0, 0) exactly when powf(1,y) is 1.',
  'all finite non-negative float colours and positive float whites in the stated range; all powf within the stated error',
  'The float thresholds 216/24389 and 6/29 and the division by the white put values on the wrong side of the knee; the theorem covers every such value. powf is external.',
  'Tristimulus::CIELAB_curve',
  'Tristimulus::CIELAB_decurve',
  'Tristimulus::toCIELAB',
  'Tristimulus::fromCIELAB')
p('Yxy and Yuv in single precision',
  'In binary32: for every finite non-negative colour with X+Y+Z between 3e-8 and 2^60, toYxy copies the luminance and gives chromaticities inside [0,1] with relative error at most 1.9e-7 (plus 2^-150); if moreover y >= 2^-20, fromYxy returns Y exactly, X up to 5.3e-7 and Z up to 1e-6 of X+Y+Z (plus 2^-120). For 0<=x<=0.75 and 0<=y<=0.85 the CIE 1960 u and v are within 3.1e-6 and 1e-6, and converting back returns x and y up to 2.5e-5 and 1.8e-5 and the luminance exactly.',
  'all finite float colours in the stated ranges',
  'The bounds hold for every pair of floats, including those where 1-x-y cancels and where the sum is rounded twice; that a computed chromaticity never exceeds 1 is a statement about rounding, not about the formula.',
  'Tristimulus::toYxy',
  'Tristimulus::fromYxy',
  'Tristimulus::YxyToYuv',
  'Tristimulus::YuvToYxy')
p("White points by colour temperature, in the code's precision",
  'With the polynomials evaluated in binary64 and converted to binary32 once, as written, and the rest in binary32: for every float T in [999, 10000], x and y are within 4e-8 and 2.6e-8 of the exact polynomials; x never increases when T increases, for any two floats however close; fromCT(T, L) returns Y = L exactly and X, Z within 1.4e-6 L and 1.8e-6 L (plus 2^-120), 0 < L <= 2^58. For T <= 1020 the Z returned is negative (not a colour), for T >= 1030 X and Z are positive, both in exact arithmetic and as computed.',
  'all finite float temperatures in [999, 10000] and luminances in the stated range',
  'About 28 million float temperatures times all luminances; the order statement quantifies over pairs. The negative Z appears only below 1024 K.',
  'Tristimulus::fromCT',
  'Tristimulus::blackbody_x_approx',
  'Tristimulus::blackbody_y_approx')
p("Black-body spectra, in the code's precision",
  "With Planck's law evaluated in binary64, converted to binary32, divided by 1e9f and stored as float, as written: for every float T in [400, 1e8] and every library whose double pow and exp have relative error at most 2^-50, each of the 400 samples is finite, positive and within relative error 1.2e-7 of Planck's law with the header's constants, and is strictly larger for every temperature larger by 2.5e-7 of its value.",
  'all float temperatures in [400, 1e8], all samples, all libraries meeting the accuracy bound',
  'exp(x)-1 cancels for hot bodies and exp(x) is near 1e41 for cold ones; the bound is uniform over the whole range and over all conforming libraries.',
  'Spectrum::planck',
  'Spectrum::blackbody')
p("S-Log, S-Log2 and the S-Log3 decoder, in the code's precision",
  "With every operation in the precision the header uses (double where a double literal appears, float elsewhere) and any library whose log10f and powf meet an error of 2^-22: Y_to_SLog is within 4e-7 of Sony's S-Log for every finite input (clamped to [0,10]) and SLog_to_Y within 1.8e-6 (y + 0.0376) of its inverse on [0, 1.5]; encoding and decoding recovers the clamped input to 4.1e-6 (x + 0.0376). Y_to_SLog2 is within 8.5e-7 of S-Log2 on [-1, 100], SLog2_to_Y within 5.4e-6 (y + 0.054) of the inverse clamped at zero on [0, 1.3], and the round trip recovers [0, 100] to 1.3e-5 (x + 0.054). SLog3_to_Y is within 4e-6 (|y| + 0.01) of the inverse of S-Log3 for all code values in [0,1], including those where the float threshold selects the other segment. No result is NaN or infinite.",
  'all finite floats in the stated ranges, all libraries meeting the accuracy bound',
  'Over a billion float inputs; near the knees the float threshold differs from the published one, so that single values take the wrong segment; the error bounds hold for every conforming library.',
  'OTF::Y_to_SLog',
  'OTF::SLog_to_Y',
  'OTF::Y_to_SLog2',
  'OTF::SLog2_to_Y',
  'OTF::SLog3_to_Y')
p('OKLAB in single precision',
  'With every operation in binary32 and any cbrtf with relative error at most 2^-22: for every colour with finite components of magnitude at most C (2^-60 <= C <= 2^60), OKLAB_to_XYZ(XYZ_to_OKLAB(c)) is finite and differs from c by at most 4.2e-5 C in every component, whatever the signs of the cone responses; 13-bit XYZ code values therefore survive the trip exactly. If the components are at most s^3 and the exact cone responses at least rho s^3 (0 < rho <= 1) then XYZ_to_OKLAB(c) is within 5.5e-6 s / rho of the exact value of the OKLAB formula with the matrices of the header in every coordinate.',
  'all binary32 colours in the stated range, all conforming cube-root functions',
  'Over 2^90 colours and unknown libraries; near zero cone responses the cube root amplifies rounding without bound, so a tested sample says nothing about the worst case.',
  'XYZ_to_OKLAB',
  'OKLAB_to_XYZ')
p('Exposure by whole stops is exact in single precision',
  'In binary32, multiplying a colour by 2^k (|k| <= 20; components zero or of magnitude between 2^-30 and 2^30) commutes bit for bit - signed zeros included - with applying any matrix with entries in that range, hence with conversion between every predefined gamut and XYZ and between any two RGB spaces; leaves x, y, u, v of toYxy and toYuv bit-identical (unless the code takes one of the two for black) while scaling the luminance; leaves hue and saturation of toHSV bit-identical while scaling the value; leaves toCIELAB bit-identical when the white is scaled along, whatever the library; and a light k stops brighter (-8 <= k <= 20) gives a colour k stops brighter, bit for bit, under each of the three observers.',
  'all binary32 colours, matrices and lights in the stated ranges, all k in range',
  'Bit-exact equality over 2^96 colours and all stops; one intermediate result falling into the subnormal range, or one tie broken differently, would break it and no sample would show it.',
  'Tristimulus::apply',
  'Gamut::toXYZ',
  'Gamut::fromXYZ',
  'Tristimulus::toYxy',
  'Tristimulus::toHSV',
  'Tristimulus::toCIELAB',
  'Observer::fromSpectrum')
p('RGB spaces in single precision realise their published definitions',
  'For each of the eight predefined RGB spaces and every binary32 colour with components of magnitude at most C (C up to 2^100), the binary32 XYZ value is within 6e-7*C of the one fixed by the published primaries and white point; the binary32 components of an XYZ colour are within 1.9e-6*C of the published ones; the binary32 conversion matrix between any two of the spaces gives the components of the same colour within 3.2e-6*C; and binary32 Bradford adaptation between any two of the twelve illuminant constants is within 6e-6*C of exact Bradford adaptation. Nothing overflows.',
  'all colours of bounded magnitude, all eight spaces, all 64 pairs of spaces, all 144 pairs of illuminants',
  'The matrices are the result of binary32 inversions at static initialisation; a test compares a few colours with loose tolerances against the same formulas, it cannot bound the error of every colour against the standard.',
  'Gamut::fromPrimaries',
  'Gamut::toXYZ',
  'Gamut::fromXYZ',
  'GamutConvert',
  'Bradford',
  'Matrix3::invert')
p('ICtCp in single precision',
  'For every binary32 XYZ colour with components of magnitude at most C (2^-60 <= C <= 2^100) whose three exact cone responses are at least C/16, and any powf accurate to 2^-22, the binary32 I, Ct and Cp are finite and within 4e-5, 2.7e-4 and 3.5e-4 of the values BT.2100 prescribes for the exact cone responses (luminance clipped at the PQ peak). If moreover the cone responses lie between 0.01 and 99, encoding and decoding in binary32 gives back X within 4.4e-3*C, Y within 1.4e-3*C and Z within 1.3e-3*C.',
  'all colours of the stated region, all powf within the accuracy bound',
  'The PQ curve raises to the 79th power and back, which magnifies every rounding; a test of a few colours with a tolerance cannot bound the worst colour.',
  'XYZ_to_ICtCp',
  'ICtCp_to_XYZ',
  'Y_to_ST2084',
  'ST2084_to_Y')
p('CIEDE2000 is comparable with CIE76',
  'In exact arithmetic, for all pairs of colours and weights Kl, Kc, Kh >= k > 0, k*E00 <= 2.13*E76 + 1e-14 (no assumption on the colours). For colours with L in [0,100] and |a|, |b| <= 128 and weights in (0, k], E76 <= 32*(k*E00) + 1e-15. In particular a pair that is far apart in one measure cannot be close in the other.',
  'all pairs of colours (upper bound), all pairs of the usual CIELAB box (lower bound), all positive weights',
  'E00 has hue averages, a rotation term that can be negative and a square root of their combination; tests compare a table of pairs and cannot exclude a direction where the formula collapses or blows up.',
  'E00',
  'E76')
p('OKLAB is the published OKLAB',
  'For every XYZ colour, XYZ_to_OKLAB gives the OKLAB coordinates of the publication the code cites (the specification, which reproduces the four published reference pairs to three decimals). This is false of the code: the first matrix has the wrong sign at row 2, column 1, and agreement holds exactly for the colours with X = 0. The D65 white comes out with L <= 0.984 and a >= 0.051 instead of L = 1, a = b = 0, and (1,0,0) with negative lightness.',
  'all real XYZ colours',
  'Round-trip tests pass because both directions share the wrong sign; a comparison with a few reference pairs at tolerance 0.1 passes for most of them.',
  'XYZ_to_OKLAB',
  'OKLAB_to_XYZ')
p("Colour temperature with an offset, in the code's precision",
  'For every binary32 temperature T in [1000,10000], offset |d| <= 0.04 and luminance Y in [2^-80, 2^50], fromCCT evaluated as the code evaluates it (double inside the locus polynomials, single precision elsewhere, the Newton square root of the header) returns; X and Z are finite, the luminance is exactly Y, and the (u,v) chromaticity returned is within 0.08|d| + 2.5e-6 of the exact construction (0.037|d| + 2.5e-6 up to 6600 K). Its distance from the Planckian point is |d| up to the same error.',
  'all binary32 temperatures, offsets and luminances in the stated ranges',
  'The frame is the difference of two locus points one kelvin apart, 4e-6 long at the hot end, computed in single precision with errors of the order of 1e-7: cancellation makes the direction, not the value, the fragile part, and only a bound over all temperatures shows how fragile.',
  'fromCCT',
  'fromPlanckianLocus',
  'CCT_x_approx',
  'CCT_y_approx',
  'sqrtf',
  'fromYxy')
p('Additive mixtures of lights',
  'Over the reals, for lights whose X+Y+Z is at least 1e-8 (the threshold of the code): the (x,y) chromaticity of the sum of two lights divides the segment between theirs in the ratio of their X+Y+Z, the (u,v) chromaticity in the ratio of their X+15Y+3Z, and luminances add; every point strictly between two chromaticities is that of some mixture; a sum of any number of lights has its chromaticity in the convex hull of theirs; a change of exposure keeps both chromaticities and scales the luminance.',
  'all pairs of lights, all factors, all lists of lights of any length',
  'Whether chromaticities of sums stay inside the hull is a statement about every list of lights, not about sampled pairs.',
  'Tristimulus::toYxy',
  'Tristimulus::toYuv')
p('How CIELAB responds to colour and white',
  "Over the reals: only the ratio of colour to white matters; every multiple of the white is neutral, and below the white only those are; a* > 0 exactly when X/Xw > Y/Yw and b* > 0 exactly when Z/Zw < Y/Yw; for non-negative colours 0 <= L* <= 100, |a*| <= 12500/29, |b*| <= 5000/29 with all bounds attained; every colour at least as bright as the white in each component gives (100,0,0); the white used when none is given is (0.9642,1,0.8249), which converts to (100,0,0) and back, and the library's own Illuminant_D50 converts to (100,0,0) but not back.",
  'all colours and whites with positive components',
  'Neutrality and sign statements are equivalences over a continuum; the saturation of bright colours only shows outside the usual test range.',
  'Tristimulus::toCIELAB',
  'Tristimulus::fromCIELAB',
  'CIELAB_curve')
p('OKLAB and exposure',
  'Over the reals: scaling a colour by k scales its OKLAB coordinates by the cube root of k (for every k, also negative and zero), and the inverse conversion scales with the third power; so hue and the ratios of the coordinates do not depend on the exposure, and a brighter copy of a colour of positive lightness has greater lightness.',
  'all colours and factors',
  'A homogeneity law relates infinitely many pairs of inputs; a slip in one of the three cube roots or matrix rows breaks it only off the axes.',
  'XYZ_to_OKLAB',
  'OKLAB_to_XYZ')
p('CIEDE2000 in single precision is always a number',
  'For colours with binary32 components of magnitude at most 4096 and weights between 1/1024 and 1024, the argument of the last square root of Delta::E00, evaluated in binary32 with rounding at every step, is finite and never negative, so E00 is finite and not negative; and E00(a,a) is exactly +0. The library functions are arbitrary functions with the usual ranges, a seventh power to 2^-20, a sine to 2^-20 near zero and a square root to 2^-22.',
  'all pairs of binary32 colours in the box, all weights in the range, all library functions with the stated accuracy',
  'The last square root takes a quadratic form with a negative cross term whose coefficient can reach 1.74: exactly it is positive semidefinite only by the size of the rotation term, and a rounding could make it negative, giving NaN for some pair of colours no sample hits.',
  'E00')
p('Table lookup in single precision',
  'For every finite binary32 wavelength t with 381 <= t < 779 the index chosen by Spectrum::fetch is the integer part of t minus 380, and both weights of the interpolation are computed without any error (they are exactly the fractional part of t and one minus it); the value returned is the linear interpolation of the two samples up to a relative error of 2^-23 + 2^-48 of the weighted magnitudes plus 2^-148, is finite, and is not negative when the samples are not. Every t below 381 (to -2^30) returns the first sample and every t from 779 (to 2^30) the last; NaN and infinities are converted to int, which is undefined.',
  'all binary32 wavelengths, all tables of finite samples of magnitude at most 2^100',
  'The index is truncated after two rounded operations: whether any of the three million wavelengths just below an integer is rounded across it cannot be told from a sample, and on a different table size it would be.',
  'Spectrum::fetch',
  'Spectrum::lerp')
p('Matrix inversion in single precision',
  'For every matrix of binary32 entries of magnitude at most B (2^-16 <= B <= 2^16) whose exact determinant is at least d*B^3 (d >= 2^-12), Matrix3::invert returns nine finite numbers, each within 2^-17/(d^2 B) of the entry of the inverse matrix, and both products with the matrix are within 3*2^-17/d^2 of the identity. When the computed determinant is zero or NaN, no entry of the result is finite. But an exactly singular matrix need not be noticed: for the rows (0.5,0.3,0.2), (1,0.6,0.4), (0.9,1,1), the second twice the first, nine finite numbers come out.',
  'all 3x3 binary32 matrices with the stated bounds',
  'The error of an inverse grows with the inverse square of the determinant; tests on a few well conditioned matrices do not bound it.',
  'Matrix3::invert',
  'Matrix3::det')
p('Chromatic adaptation between any whites in single precision',
  'For all source and destination whites with binary32 components of magnitude at most 3/2 and Bradford cone responses of magnitude at most 2, those of the source at least theta (theta >= 1/64): every entry of the matrix returned by Bradford is finite and within 2^-16/theta^2 of the exact adaptation matrix; every colour with components up to C is adapted within 2^-14/theta^2 * C; and the source white is carried to the destination white within 3*2^-15/theta^2.',
  'all pairs of whites in the stated range, all colours',
  "The error depends on the smallest cone response of the source white, which for the header's own illuminants is never small.",
  'Bradford',
  'Matrix3::apply',
  'Gamut')
p('sRGB images survive a trip through another colour space',
  "Take a pixel of three codes of a scale 0..N, decode it with OTF::toScene(SRGB), convert it to another space and back, and encode it with OTF::toScreen(SRGB), all in binary32 with powf (and cbrtf) accurate to 2^-22: the three codes come back (each component, times N, rounds to its code). This holds for XYZ by any predefined gamut, for GamutConvert to any other RGB space and back, and for HSV, with N up to 8191 (13 bits); through Rec.709 for CIELAB relative to the gamut's primaryWhite and for Yxy (black included) with N up to 1023 (10 bits), and for OKLAB with N up to 255 (8 bits). With the white that toCIELAB and fromCIELAB use when none is given (D50) it fails: the blue channel of white comes back at 0.873 or less, for every N up to 65535.",
  'all pixels of all scales up to the stated N, all accurate powf and cbrtf',
  "There are 2^39 pixels of 13 bits; an 8 bit image already has 16.7 million, and the errors of the worst ones depend on the platform's powf.",
  'OTF::toScreen',
  'OTF::toScene',
  'Gamut::toXYZ',
  'Gamut::fromXYZ',
  'GamutConvert',
  'Tristimulus::toHSV',
  'Tristimulus::fromHSV',
  'Tristimulus::toCIELAB',
  'Tristimulus::fromCIELAB',
  'Tristimulus::toYxy',
  'Tristimulus::fromYxy')
p('Monochromatic light in single precision',
  'For the three observers of the header (CIE 1931, Judd-Vos, CIE 2012), every wavelength up to 2^30 nm in magnitude (V is linear between the samples from 381 to 779 nm, and constant outside and on the first nanometre, C38), and every power w that is finite, not negative and not above 2^100, in binary32: lumensFromMonochromaticFlux is finite, not negative, and equal to 683 * w * V (V the published curve) up to a relative error of 2^-21; candellasFromMonochromaticRadiance likewise in each component; xyz is the curve over its sum up to 2.5e-5 in relative error. The flux does not decrease when the power grows. For the 1931 and 2012 observers it never exceeds 683 lm/W after rounding, and the 1931 observer attains that at 555 nm for every power. The Judd-Vos curve of the header is 1.0001 at 555 nm, so its observer gives more than 683.067 lm/W.',
  'all wavelengths and powers that binary32 has in the stated ranges, all three observers',
  'Wavelength and power are two floats: 2^60 pairs, with two roundings that depend on both.',
  'Observer::lumensFromMonochromaticFlux',
  'Observer::candellasFromMonochromaticRadiance',
  'Observer::xyz',
  'Spectrum::fetch')
p('BT.709 video survives a trip through another colour space',
  "Take a pixel of three codes of a scale 0..N, decode it with OTF::toScene(BT709), convert it to another space and back, and encode it with OTF::toScreen(BT709), all in binary32 with powf (and cbrtf) accurate to 2^-22: the three codes come back (each component, times N, rounds to its code), with N up to 1023 (10 bits), when nothing is done in between and for XYZ by any predefined gamut, GamutConvert to any other RGB space and back, HSV, CIELAB relative to the gamut's primaryWhite, and Yxy (black included); and with N up to 511 for OKLAB.",
  'all pixels of all scales up to the stated N, all accurate powf and cbrtf',
  "There are 2^30 pixels of 10 bits, and a decoded value may land on either side of the knee of the encoder, depending on the platform's powf.",
  'OTF::toScreen',
  'OTF::toScene',
  'OTF::BT709_to_Y',
  'OTF::Y_to_BT709',
  'Gamut::toXYZ',
  'Gamut::fromXYZ',
  'GamutConvert',
  'Tristimulus::toHSV',
  'Tristimulus::fromHSV',
  'Tristimulus::toCIELAB',
  'Tristimulus::fromCIELAB',
  'Tristimulus::toYxy',
  'Tristimulus::fromYxy')
p('Corrector recovers the matrix that explains the patches; makeGamut has its directions exchanged',
  "If the targets are the images of the patches under one matrix K, and the patches are uncorrelated with comparable energy in the three channels, Corrector::solve returns K exactly (real arithmetic). Corrector::makeGamut, whose matrix takes the patches to the XYZ colours of the chart, passes that matrix to the constructor Gamut(name, fromXYZ): the gamut's fromXYZ takes the patches to the XYZ colours of the chart, and toXYZ is the inverse. For a camera that sees the first three patches in its red, green and blue channel alone, with the default light and observer, the gamut's toXYZ does not take the camera's values to the XYZ colours of the patches.",
  'all lists of uncorrelated patches (2 to 24 for makeGamut), all matrices K, all lights and observers; all exposures c for the negative result',
  'The patches and the matrix are arbitrary reals; the exchange of directions shows only when toXYZ of a made gamut is compared with the chart.',
  'Corrector::solve',
  'Corrector::makeGamut',
  'Gamut::toXYZ',
  'Gamut::fromXYZ')
p('PQ video survives a trip through another colour space, if no channel is far darker than another',
  'Take a pixel of three non-zero codes of a scale 0..N, decode it with OTF::toScene(ST2084), take it to XYZ by any predefined gamut and back, or by GamutConvert to another RGB space and back, and encode it with OTF::toScreen(ST2084), all in binary32 with powf accurate to 2^-22: the codes come back when no decoded channel is more than R times another, with R = 20 for N up to 4095, R = 128 for N up to 1023 and R = 240 for N up to 255; every grey but black comes back with N up to 4095. It is not so without the condition: for the cyan (0, 91.25, 93), of up to 9300 cd/m2, the red channel, of code 0, comes back above code 11 of 1023 after the trip from Rec709 to XYZ.',
  'all pixels of non-zero codes of all scales up to the stated N, all accurate powf; one witness for the failure',
  'There are 2^30 pixels of 10 bits, the slope of the PQ curve is unbounded at black, and the loss needs a saturated colour of high luminance.',
  'OTF::toScreen',
  'OTF::toScene',
  'OTF::ST2084_to_Y',
  'OTF::Y_to_ST2084',
  'Gamut::toXYZ',
  'Gamut::fromXYZ',
  'GamutConvert')
p('Greys of the RGB spaces are neutral in the other spaces, except in OKLAB',
  'For each of the published RGB spaces and a grey (y, y, y) in binary32: Gamut::toXYZ gives y times the XYZ of the published white, within 6e-7 y (and the luminance y); GamutConvert to a space with the same white gives the same grey within 3.2e-6 y; toHSV gives hue 0, saturation 0 and value y, exactly; toYxy gives the published chromaticity of the white within 1e-6, for y from 2^-24 to 2^50; toCIELAB relative to primaryWhite gives the CIE lightness of min(y, 1) within 1.2e-3 and a*, b* within 0.01 and 0.004 of 0, for y from 2^-100 to 2^90; but XYZ_to_OKLAB, for the spaces with white D65 and y from 2^-50 to 2^50, gives a second component above 0.05 and a third below -0.015, times the cube root of y: OKLAB is meant to be neutral for D65.',
  'all greys of binary32 in the stated ranges, all eight RGB spaces, all accurate powf and cbrtf',
  'There are two thousand million greys, eight spaces and eight binary32 matrices, and the spaces where a test would notice the tint are those it has to name.',
  'Gamut::toXYZ',
  'Gamut::primaryWhite',
  'GamutConvert',
  'Tristimulus::toHSV',
  'Tristimulus::toYxy',
  'Tristimulus::toCIELAB',
  'XYZ_to_OKLAB')
p('The CIELAB colour of an sRGB-coded image is the one the standards fix',
  'In binary32, for an sRGB-coded pixel of up to 16 bits taken to linear light (toScene), to XYZ in one of the display spaces (Rec709, AdobeRGB, Rec2020, DCI_P3: Gamut::toXYZ) and to CIELAB relative to its primaryWhite, the result is the CIELAB colour given by exact arithmetic with the published curve, primaries, white and CIE formulas, up to 0.0036 in L*, 0.031 in a* and 0.0124 in b*; and the CIE76 difference of two such pixels is the exact one up to 0.068.',
  'all pixels of all depths up to 16 bits, all pairs of such pixels, the four display spaces, all accurate powf and sqrtf',
  'There are 2^48 pixels of 16 bits and 2^96 pairs, and no independent reference with known error bounds to compare with.',
  'OTF::toScene',
  'Gamut::toXYZ',
  'Gamut::primaryWhite',
  'Tristimulus::toCIELAB',
  'Delta::E76')
p('Converting an sRGB-coded image to another RGB space gives the published conversion',
  'In binary32, decoding an sRGB-coded pixel of up to 16 bits, applying GamutConvert(src, dst) and encoding gives, in each channel, the sRGB code of the (clamped) component in dst of the same colour, computed exactly from the published primaries, up to 2.2e-4; so for up to 10 bits the codes obtained are within 0.73 of the exact real-valued codes.',
  'all pixels of all depths up to 16 bits, all 64 pairs of the eight RGB spaces, all accurate powf',
  '2^48 pixels times 64 pairs of spaces, and the worst case is where the slope of the curve is greatest, near black.',
  'GamutConvert',
  'OTF::toScene',
  'OTF::toScreen',
  'Tristimulus::apply')
p('A colour chosen by hue, saturation and value keeps them',
  'In binary32, for a hue from 0 to 360, a saturation from 1e-6 to 1 and a value from 2^-100 to 2^120, fromHSV succeeds and toHSV of its result gives the value back exactly, the saturation within 7e-7 and the hue, up to whole turns, within 1.3e-4 degrees plus 1e-4 divided by the saturation; so whole degrees of hue with saturation and value in up to 4095 steps, neither zero, come back as the same steps.',
  'all hues, saturations and values of binary32 in the stated ranges',
  'There are about 2^80 such triples; errors appear only near the six sector boundaries and for small saturations.',
  'Tristimulus::fromHSV',
  'Tristimulus::toHSV')
p('CIELAB colours survive XYZ',
  'In binary32, for a CIELAB colour with L* from 0 to 100 whose X and Z are between black and white, and a white with components from 2^-100 to 2^100, toCIELAB(fromCIELAB(c)) gives c back within 7e-4 in L*, 7.4e-3 in a* and 3e-3 in b*; so L* coded in up to 65535 steps and a*, b* coded in up to 64 steps to the unit come back as the same codes.',
  'all CIELAB colours of binary32 between black and white, all whites in the stated range, all accurate powf',
  'There are about 2^96 colours and as many whites; the two branches of the curve and its inverse are chosen by rounded values, so they can disagree near the junction.',
  'Tristimulus::fromCIELAB',
  'Tristimulus::toCIELAB',
  'Tristimulus::CIELAB_curve',
  'Tristimulus::CIELAB_decurve')
p('A space made from primaries has, in single precision, those primaries and that white',
  'In binary32, for any primaries and white with finite chromaticities of components (x, y and 1-x-y) of magnitude at most 1, a triangle of primaries of area at least d/2 (d from 2^-8 to 1) and a white with y at least t (t from 2^-8), the Gamut constructor from primaries gives a space whose toXYZ sends (1, 1, 1) to the white of luminance 1 asked for, within 2^-15/(d t), and each column of whose matrix is a multiple s of the XYZ with the chromaticity asked for, within 2^-21 |s|.',
  'all binary32 chromaticities of primaries and white in the stated region: not only the published spaces',
  'The region has about 2^250 points; tests can try the published spaces, where the constants are known.',
  'Gamut::Gamut',
  'Gamut::primMat',
  'Gamut::mulDiag',
  'Matrix3::invert',
  'Tristimulus::fromYxy')
p('Crosstalk in single precision can be undone up to a leak of one quarter',
  'In binary32, for a leak r from 0 to 1/4 and a colour with components of magnitude up to C (2^-100 to 2^80), applying Matrix3::crosstalk(r) gives each channel (1-2r) of itself plus r of each other, within 4.7 C/2^24, and applying crosstalkInvert(r) after it gives the colour back within 99 C/2^24; so codes of up to 16 bits survive. At the binary32 number next to 1/3, which is not 1/3 so that crosstalk is invertible, every entry of crosstalkInvert is infinite or NaN.',
  'all leaks and colours of binary32 in the stated ranges',
  'There are about 2^126 cases; tests with a few leaks do not find the loss of accuracy towards 1/3, nor where it becomes total.',
  'Matrix3::crosstalk',
  'Matrix3::crosstalkInvert',
  'Tristimulus::apply')
p('A filter that passes more of the longer wavelengths makes light redder',
  "For the CIE 1931, Judd-Vos and CIE 2012 observers, a light with positive power at every wavelength and a filter with positive, strictly increasing transmittance: if the light's x is between 0.18 and 0.718, the filtered light (fromReflectanceAndLight) has a larger x; if the ratio of its Y to its Z is between 1/43 and 400, the filtered light has a larger ratio.",
  'all lights, all filters, three observers',
  'Lights and filters have 400 free values each; the claim depends on the shape of whole tables of colour matching functions (a single wrong entry can break it), not on values at a few points.',
  'Observer::fromReflectanceAndLight',
  'Observer::fromSpectrum',
  'Spectrum::dot',
  'CIE1931',
  'CIE31JV',
  'CIE2012')
p('The hotter a black body, the bluer its light',
  'For the CIE 1931, Judd-Vos and CIE 2012 observers, x of Spectrum::blackbody(T) strictly decreases as T rises, for every T from 1000 K with no upper limit, and lies between 0.18 and 0.718; the ratio of Z to Y strictly increases from 1500 K. So two black bodies of 1000 K or more with the same x have the same temperature.',
  'all pairs of temperatures from 1000 K (1500 K), three observers',
  'Monotonicity over a continuum without upper limit; a test compares neighbouring sample temperatures and sees neither what is between them nor what is above them.',
  'Spectrum::blackbody',
  'Spectrum::planck',
  'Observer::fromSpectrum')
p('fromCT and fromPlanckianLocus give the colour of a black body',
  'The chromaticity of Tristimulus::fromCT(T) differs from that which the CIE 1931 observer sees in Spectrum::blackbody(T) by at most 0.0022 in x and 0.007 in y for every T from 1000 K to 10000 K; that of fromPlanckianLocus(T) differs by at most 0.0018 in x and 0.0072 in y from 1667 K to 25000 K. So the two agree within 0.004 and 0.0142 from 1667 K to 10000 K.',
  'all temperatures in the stated ranges, all luminances other than 0',
  "The three computations share no code: two fitted polynomials, and a sum over 400 wavelengths of Planck's law and a table. The bound holds at every real temperature, including both sides of each of the joints of the fits.",
  'Tristimulus::fromCT',
  'Tristimulus::fromPlanckianLocus',
  'Spectrum::blackbody',
  'Observer::fromSpectrum',
  'CIE1931')
p('No set of fewer than 28 lights can mix every spectral colour',
  'For the CIE 1931, Judd-Vos and CIE 2012 observers: however fewer than 28 lights of non-negative power are chosen, at least one of 28 named wavelengths between 415 and 570 nm has a colour (Observer::xyz) that no mixture of the lights with non-negative amounts has. So every RGB space (Gamut with inverse matrices) whose three primaries are colours of lights gives a negative component to one of those wavelengths.',
  'all choices of lights, all amounts, all RGB spaces with realisable primaries, three observers',
  'The lights have 400 free values each and the amounts are free too; a test can only try particular primaries. The claim rests on 28 points of each table being extreme, against all other entries.',
  'Observer::xyz',
  'Observer::fromSpectrum',
  'Gamut::fromXYZ',
  'Gamut::toXYZ',
  'CIE1931',
  'CIE31JV',
  'CIE2012')
p('Metamers exist for up to 44 lights at once',
  'For any 44 lights or fewer and any surface with reflectances strictly between 0 and 1 there is another such surface whose fromReflectanceAndLight is the same under every one of the lights for all three observers, and yet a light under which the CIE 1931 observer sees a different Y.',
  'all choices of up to 44 lights, all surfaces',
  'An existence claim for every choice of 44 spectra of 400 values; it needs the dimension of a kernel, not samples, and that no entry of the Y table is 0.',
  'Observer::fromReflectanceAndLight',
  'CIE1931',
  'CIE31JV',
  'CIE2012')
p('E00 of colours that differ in lightness only, and the triangle inequality',
  "For equal a and b, Delta::E00 is the difference of lightness over Kl times the standard's weight, exactly, for all lightnesses, a, b and Kl > 0. Consequently E00 is not a metric: for every d > 0 the way from lightness 50-d to 50+d through 50 is strictly shorter than the direct difference (black to white: 100 directly, less than 73.1 through middle grey). For colours with L in [0,100] and a, b in [-128,128] a detour saves at most a factor of 69.",
  'all real lightnesses, a, b, weights; all triples of colours in the box for the last part',
  'An equation and an inequality over continua; tests compare with published pairs, none of which differ in lightness only through a third colour.',
  'Delta::E00')
p('Raising a component never lowers luminance, as executed',
  'In binary32, Matrix3::apply is monotone in each component of the vector in the direction of the sign of the coefficient, exactly, whenever the results are finite. So in each of the eight RGB spaces raising red or green never lowers Y of toXYZ, nor does raising blue, except in S-Gamut, S-Gamut3.Cine and ACES 2065-1, where blue has negative luminance; in the other five Y of a colour lies between those of the greys of its smallest and largest component.',
  'all pairs of ordered binary32 vectors, all matrices; all colours of magnitude up to 2^100 for the RGB spaces',
  'Rounding could break an inequality that holds in exact arithmetic by one unit in the last place at isolated inputs among 2^96 pairs; sampling does not find such inputs.',
  'Matrix3::apply',
  'Gamut::toXYZ',
  'Tristimulus::apply')
p('Conversion to a wider space never makes a component negative, as executed',
  "For 18 pairs of the header's RGB spaces, GamutConvert in binary32 takes every colour of non-negative components up to 2^100 to finite components none of which is negative, and preserves the order of colours component by component. For BT.709 to Adobe RGB, which is also a widening in exact arithmetic, this is false as executed: pure BT.709 blue gets a negative red.",
  'all binary32 colours of non-negative components up to 2^100, 18 pairs of spaces',
  'The sign of a sum of three rounded products depends on every bit of nine computed coefficients, some of which are nearly 0 (0 up to rounding for BT.709 to Adobe RGB).',
  'GamutConvert',
  'Tristimulus::apply',
  'Tristimulus::hasNegative')
p('The colour of a black body in the precision of the code',
  'For every binary32 temperature from 400 K to 100 million K, what the three observers see in Spectrum::blackbody, evaluated in double and float as the code does, is positive and within 0.0051 % of the exact value in each of X, Y, Z, and within 0.000103 in x and y. Between 1000 K and 10000 K the chromaticity of Tristimulus::fromCT as executed agrees with it within 0.0024 in x and 0.0072 in y.',
  'all binary32 temperatures in the ranges, luminances from 2^-90 to 2^58, all accurate pow and exp',
  'Adding 400 rounded products per component; the error bound holds for all temperatures and every accurate library, and the agreement compares two computations that share no code.',
  'Spectrum::blackbody',
  'Spectrum::planck',
  'Observer::fromSpectrum',
  'Tristimulus::fromCT')
p('toHSV_atan in single precision',
  'For every colour of finite components up to 2^116, toHSV_atan returns a finite hue between 0 and 360, and the same saturation and value as toHSV bit for bit. Unless the components are equal, the hue is the angle of the colour in the chromatic plane modulo 360, up to 2e-4 degrees plus 3e-4 degrees times the largest magnitude over the spread of the components.',
  'all such binary32 colours, all atan2f accurate to 1e-6 (in any branch), all sqrtf accurate to 2^-22',
  'An angle near the branch cut or near a grey is ill conditioned; the bound says how much everywhere, not at sample colours.',
  'Tristimulus::toHSV_atan',
  'Tristimulus::mod360',
  'Tristimulus::toHSV')
p('The hypotenuse of the SVD in single precision',
  'PYTHAG of finite binary32 sides up to 2^118 is within 5e-7 relative of the hypotenuse, though the squares of the sides may overflow; it does not depend on the order or signs of the sides, bit for bit, whatever sqrtf does; it is never smaller than a side if sqrtf is at least 1 from 1 on. A NaN second side gives +0: NaN does not propagate.',
  'all pairs of finite binary32 numbers up to 2^118; NaN with every first side',
  '2^64 pairs; the failure of the naive formula is at the ends of the exponent range, and the bitwise symmetry has to survive the case distinction.',
  'SOLVER::PYTHAG')
p('E00 of colours that differ in lightness only, as executed',
  "For binary32 colours of equal a and b of magnitude up to 4096, lightnesses in [0,100] and weights in [1/1024,1024], Delta::E00 as executed is finite and within 5e-6 relative (plus 2^-72) of the standard's formula. So the triangle inequality fails as executed: for every d in [1,50], through 50 is computed to be strictly shorter than from 50-d to 50+d directly.",
  'all such binary32 colours and weights, all library functions that are accurate enough and send zero to zero',
  'The chroma and hue parts must vanish exactly, through a chain of square roots, an arc tangent and a sine, whatever a and b are; and the errors of the remaining chain are bounded for all inputs.',
  'Delta::E00')
p('Structured documents survive the stream',
  'Whatever a MemoryStream holds (up to 2147483647 bytes in all, cursor at the end), a document appended to it - scalars of every type in any byte orders, non-empty raw blocks, length-prefixed texts, and sections nested to any depth whose 32- or 64-bit pointer is reserved first and patched afterwards - is read back field by field by a reader that knows only the layout, whichever sections it jumps over by their pointers: every value, block and text is the one written and every pointer is the position after its section. The earlier content is unchanged, the document takes exactly its size, and the reader stops at its end.',
  'all stream contents, all documents, all choices of sections to skip, with and without asserts',
  'Documents are trees of any shape and size with values of 14 types; a test writes one shape. Back-patching moves the cursor back and forth through earlier bytes, so an error may corrupt any earlier field.',
  'MemoryStream::write',
  'MemoryStream::read',
  'MemoryStream::putSubstr',
  'MemoryStream::get_string',
  'MemoryStream::putPointer32',
  'MemoryStream::adjustPointer32',
  'MemoryStream::putPointer64',
  'MemoryStream::adjustPointer64',
  'MemoryStream::seekTo',
  'MemoryStream::setReadEndian',
  'MemoryStream::setWriteEndian')
p('Reading untrusted bytes',
  'Whatever bytes a stream holds, a reader of any layout of scalars, texts and jumps over sections changes no byte and has no undefined behaviour: without asserts it always finishes; with asserts, from a cursor inside, it finishes with the cursor inside or aborts on an assert. The jump aborts exactly for pointers outside the content, where a 64-bit pointer counts modulo 2^32. Raw blocks are not safe: read() at the end of the content leaves the buffer even for 0 bytes, so feof must be asked first; and without asserts the pointer FF FF FF FF makes a following block read leave the buffer.',
  'all byte contents up to 2147483647 bytes, all layouts, all cursors',
  'Hostile content is arbitrary; a fuzzer tries some. Absence of undefined behaviour for every content and layout is an induction over the layout.',
  'MemoryStream::read',
  'MemoryStream::get_string',
  'MemoryStream::getPointer32',
  'MemoryStream::getPointer64',
  'MemoryStream::seekTo',
  'MemoryStream::feof',
  'MemoryStream::read_at',
  'MemoryStream::fseek')
p('HLG images survive a trip through another colour space, except dark channels beside bright ones',
  'In binary32, an HLG pixel decoded, taken to XYZ by any predefined gamut (or to any other RGB space by GamutConvert) and back, and encoded again has the codes it had: with up to 7 bits always; with 8 bits if no channel decodes to more than 3.8; with 10 bits if none to more than 0.23 or if the channels differ by a factor of at most 200; with 12 bits if by at most 50, and for every grey including black. It is false of all 10-bit pixels: beside bright green and blue a red of code 0 returns as code 1.',
  'all codes of all scales 0..N with N up to 4095 under the stated conditions, all predefined gamuts and pairs of RGB spaces, all accurate libraries',
  '2^36 pixels per gamut pair and every admissible libm; near black the square root amplifies rounding without bound.',
  'OTF::toScreen',
  'OTF::toScene',
  'OTF::Y_to_HLG',
  'OTF::HLG_to_Y',
  'Gamut::toXYZ',
  'Gamut::fromXYZ',
  'GamutConvert')
p('S-Log and S-Log2 footage survives a trip through another colour space, except codes below black',
  'In the precision of the code, S-Log and S-Log2 pixels of up to 11 bits, no code below black (3.003 % and 8.82 % of the scale), decoded, taken to XYZ by any predefined gamut (or to another RGB space) and back, and encoded again have the codes they had, however different the channels. Codes below black are lost: the S-Log encoder emits nothing below 0.02999, and S-Log2 decoding followed by encoding yields at least 0.08815.',
  'all codes of all scales 0..N with N up to 2047 from black up, all predefined gamuts and pairs of RGB spaces, all accurate libraries',
  '2^33 pixels per gamut pair and every admissible libm, with log10 evaluated in double.',
  'OTF::Y_to_SLog',
  'OTF::SLog_to_Y',
  'OTF::Y_to_SLog2',
  'OTF::SLog2_to_Y',
  'Gamut::toXYZ',
  'Gamut::fromXYZ',
  'GamutConvert')
p('sRGB images can be carried as HLG with three times as many codes, not with fewer than twice',
  'In binary32, an sRGB pixel of N+1 levels per channel (N up to 1023), decoded, encoded as HLG, rounded in any way to nearest codes of a scale 0..M with 3N <= M <= 65535 (8 bits in 10, 10 bits in 12), decoded and encoded as sRGB, has the codes it had; nearest codes exist. If M <= 2N-2, however the signals are rounded, two levels of sRGB get the same HLG code, so no receiver can restore the image.',
  'all pixels, all N up to 1023 and M up to 65535, all roundings to nearest, all accurate libraries',
  'All pairs of scales, all tie-breaking rules and every admissible libm; the margin at 8 in 10 bits is a fifth of a code.',
  'OTF::toScreen',
  'OTF::toScene',
  'OTF::Y_to_HLG',
  'OTF::HLG_to_Y',
  'OTF::Y_to_sRGB',
  'OTF::sRGB_to_Y')
p('Chains of conversions between RGB spaces accumulate error at most linearly',
  'In binary32, a colour with components up to C (2^-60 to 2^60) taken through any chain of n <= 3000 GamutConvert conversions between the published RGB spaces ends within 7e-5*n*C of the components the published primaries prescribe for the last space; if the chain returns to the space it began in, no component has changed by more than 1.7e-5*n*C. An sRGB-coded image of N+1 levels survives every closed chain with n*N <= 2200 (eight conversions at 8 bits).',
  'all chains of up to 3000 conversions among the RGB spaces, all colours, all codes, all accurate libraries',
  'There are 8^n chains of n conversions; errors of one conversion may be amplified by the following ones, so a per-conversion test says nothing about the chain.',
  'GamutConvert',
  'Tristimulus::apply',
  'OTF::toScreen',
  'OTF::toScene')
p('The solid of surface colours',
  'For a light that is nowhere negative, the colours of surfaces with reflectances in 0..1 form a convex set symmetric about half the colour of the light. A surface that is 0 or 1 by the sign of a weighting of the colour-matching functions has the greatest weighted tristimulus value of all surfaces, and any surface reaching it agrees with it wherever the weighting is not zero, so colours of such surfaces have no metamers if the light is positive. Only the perfect reflector is as light as white and only the absorber as dark as black (CIE 1931 and Judd-Vos). The textbook rule that optimal colours have at most two transitions is false of the tables: for each observer and every everywhere-positive light there is an optimal colour no surface with at most two transitions has.',
  'all lights, all reflectances, all weightings',
  'Surfaces are points of a 400-dimensional cube; optimality and the absence of metamers compare one surface with all of them.',
  'Observer::fromReflectanceAndLight',
  'Observer::fromSpectrum',
  'CIE1931',
  'CIE31JV',
  'CIE2012')
p('Back-substitution in single precision',
  'svbksb on finite binary32 arrays of any shape up to 4096 by 4096, with |v| <= 2, singular values zero or at least 2^-40 in magnitude and moderate right-hand sides, is defined and each component is within 1.02*(m+n+3)*2^-24 times the sum of the magnitudes of its terms (plus 2^-80) of the value the same text computes exactly. With entries of u and v at most 1, |b| <= B and nonzero singular values at least W the error is at most 1.02*(m+n+3)*2^-24*m*n*B/W + 2^-80.',
  'all shapes up to 4096 by 4096, all finite inputs within the bounds',
  'Rounding errors accumulate through two nested sums of up to 4096 terms and a division by arbitrarily small singular values; the zero test is an exact comparison.',
  'SOLVER::svbksb')
p('Decoding keeps the codes of an image in order, except BT.709 at twelve bits',
  'As executed (binary32, or mixed with double for S-Log3), decoded light is strictly ordered as the signals are, once they differ by 1e-5 (sRGB, S-Log, S-Log2 from black, S-Log3, power laws with exponent 1..4 above 2^-16), 3e-6 (HLG), 2.498e-4 (BT.709) or 1.95e-4 (PQ from 1/4096). So a larger code gives more light at 16 bits for sRGB, HLG, S-Log, S-Log3 and power laws, up to N = 4000 for BT.709 and at 12 bits for PQ. It is false of BT.709 at 12 bits: code 332 decodes to less light than code 331.',
  'all pairs of signals and of codes, all accurate libraries',
  'Order is a property of pairs of signals and of every admissible libm; the reversal of BT.709 occurs at one pair of codes of one bit depth.',
  'OTF::toScene',
  'OTF::sRGB_to_Y',
  'OTF::BT709_to_Y',
  'OTF::HLG_to_Y',
  'OTF::ST2084_to_Y',
  'OTF::SLog_to_Y',
  'OTF::SLog2_to_Y',
  'OTF::SLog3_to_Y',
  'OTF::degamma')
p('Conversions between RGB spaces with chromatic adaptation keep greys and images',
  'In binary32, a colour with components up to C (2^-60 to 2^80) taken from one published RGB space to another through XYZ with the Bradford adaptation of the white of the one to the white of the other ends within 2.3e-5*C of the components of the colour whose cone responses are the given ones times white over white. Every grey of magnitude y stays itself within 2.3e-5*y for every pair of spaces. A closed chain of n <= 500 such conversions changes no component by more than 9.4e-5*n*C. An sRGB-coded image of N+1 levels (N <= 2200) in any space but ACES 2065 survives every closed chain with n*N <= 580: there and back at 8 bits. Without the adaptation it is false that greys stay grey: GamutConvert from Rec709 to DCI-P3 gives every grey at least 9 % more red, 15 % more blue and 4 % less green.',
  'all pairs of RGB spaces, all chains up to 500 conversions, all colours, all codes, all accurate libraries',
  'The composition of three matrices, one of them computed from quotients of cone responses, is judged on a continuum of colours and on every chain of spaces; tests look at a few colours of one pair.',
  'Bradford',
  'Gamut::primaryWhite',
  'Gamut::toXYZ',
  'Gamut::fromXYZ',
  'GamutConvert',
  'Tristimulus::apply',
  'OTF::toScreen',
  'OTF::toScene')
p('Delta::ICtCp in single precision',
  'For colours none of whose cone responses is small compared with their components (at least 1/16 of a bound C on them, 2^-60 <= C <= 2^100), Delta::ICtCp in binary32 is finite and within 7.7e-4 (0.56 of the customary unit 1/720) of the difference the standard prescribes, whatever library accurate to 2^-22 is used. Hence differences that differ by more than 1.54e-3 are ordered correctly, the triangle inequality holds up to 2.4e-3, and a colour has exactly no difference from itself. Any two colours whose cone responses all exceed 100.001 have exactly no computed difference, however far apart they are.',
  'all pairs and triples of such colours, all accurate libraries',
  'The error of a distance of images under a steep nonlinear curve has to be bounded for every pair of colours and every admissible libm.',
  'Delta::ICtCp',
  'XYZ_to_ICtCp',
  'OTF::Y_to_ST2084')
p('Encoding keeps amounts of light in order',
  'As executed (binary32, or mixed with double for S-Log), of two amounts of light the larger gets the strictly larger signal once they differ by 4e-6 (sRGB), 3e-6 (BT.709, the knee included), 6e-6*(1+y) (HLG, up to 12), 4.5e-6*(y+0.0376) (S-Log, up to 10) or 1.1e-5*(y+0.0532) (S-Log2, up to 100), y being the larger, or when y is 0.07 % larger (PQ, from 1e-12 to 100). So an image of linear light with up to 16 bits keeps the order of its codes when it is encoded as sRGB, BT.709, HLG or S-Log. (Without a least distance it is false of sRGB already in exact arithmetic, C26.)',
  'all pairs of amounts of light and of codes, all accurate libraries',
  'Order is a property of pairs and of every admissible libm; the segments of the curves do not meet exactly.',
  'OTF::toScreen',
  'OTF::Y_to_sRGB',
  'OTF::Y_to_BT709',
  'OTF::Y_to_HLG',
  'OTF::Y_to_SLog',
  'OTF::Y_to_SLog2',
  'OTF::Y_to_ST2084')
p('8-bit sRGB images can be carried as 12-bit PQ, not as 10-bit PQ',
  'In binary32, an sRGB pixel of N+1 levels per channel (N up to 255), decoded, encoded as PQ (ST 2084, light 1 being 100 cd/m2), rounded in any way to nearest codes of a scale 0..M with 4095 <= M <= 65535, decoded and encoded as sRGB, has the codes it had; for black this uses powf(0,y) = 0 (ISO C, annex F). Nearest codes exist. If M <= 1023, however the signals of the 256 levels are rounded to nearest codes, two levels of sRGB get the same PQ code, so no receiver can restore the image.',
  'all pixels, all N up to 255 and M up to 65535, all roundings to nearest, all accurate libraries',
  'All tie-breaking rules and every admissible libm; that 10 bits lose levels rests on a margin of a sixth of a code over 31 levels.',
  'OTF::toScreen',
  'OTF::toScene',
  'OTF::Y_to_ST2084',
  'OTF::ST2084_to_Y',
  'OTF::Y_to_sRGB',
  'OTF::sRGB_to_Y')
p('8-bit BT.709 video can be carried as 12-bit PQ, not as 10-bit PQ',
  'In binary32, a BT.709 pixel of N+1 levels per channel (N up to 255), decoded, encoded as PQ (ST 2084, light 1 being 100 cd/m2), rounded in any way to nearest codes of a scale 0..M with 4095 <= M <= 65535, decoded and encoded as BT.709, has the codes it had, even where the two segments of the curve do not meet; for black this uses powf(0,y) = 0 (ISO C, annex F). Nearest codes exist. If M <= 1023, however the signals of the 256 levels are rounded to nearest codes, two levels of BT.709 get the same PQ code.',
  'all pixels, all N up to 255 and M up to 65535, all roundings to nearest, all accurate libraries',
  'All tie-breaking rules and every admissible libm; the margin is one percent of half a level, and the knee of BT.709 is a discontinuity hit by single floats.',
  'OTF::toScreen',
  'OTF::toScene',
  'OTF::Y_to_ST2084',
  'OTF::ST2084_to_Y',
  'OTF::Y_to_BT709',
  'OTF::BT709_to_Y')
if __name__ == "__main__":
    out = os.path.join(os.path.dirname(__file__), "..", "properties.jsonl")
    with open(out, "w") as f:
        for q in P:
            f.write(json.dumps(q) + "\n")
    print(len(P))
