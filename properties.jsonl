{"id": "C01", "title": "Matrix inverse is a two-sided inverse", "statement": "For every Matrix3 m whose det() is non-zero, m.invert().mul(m) and m.mul(m.invert()) are the identity matrix, invert() is involutive, and applying m then m.invert() returns the original vector (in exact arithmetic).", "quantifier": "all 3x3 matrices with non-zero determinant, all vectors", "why_tests_cant": "The domain is a continuum of colours/matrices; a test samples a handful of points and cannot exclude a wrong sign or index that cancels on them.", "anchors": ["include/colorsystem.hpp: Matrix3::invert", "include/colorsystem.hpp: Matrix3::det", "include/colorsystem.hpp: Matrix3::mul", "include/colorsystem.hpp: Matrix3::apply"]}
{"id": "C02", "title": "Matrix3 operations are ordinary linear algebra", "statement": "mul, apply, add, scalar mul/div, det, transpose, diag, row and col of Matrix3 agree with the textbook row-major 3x3 operations: apply(a.mul(b), v) = a.apply(b.apply(v)), det is multiplicative, transpose reverses products, the default constructor is the identity.", "quantifier": "all 3x3 matrices, vectors and scalars", "why_tests_cant": "The domain is a continuum of colours/matrices; a test samples a handful of points and cannot exclude a wrong sign or index that cancels on them.", "anchors": ["include/colorsystem.hpp: Matrix3::mul", "include/colorsystem.hpp: Matrix3::apply", "include/colorsystem.hpp: Matrix3::det", "include/colorsystem.hpp: Matrix3::transpose", "include/colorsystem.hpp: Matrix3::row", "include/colorsystem.hpp: Matrix3::col", "include/colorsystem.hpp: Matrix3::diag"]}
{"id": "C03", "title": "crosstalkInvert inverts crosstalk", "statement": "For every r other than 1/3, crosstalk(r).mul(crosstalkInvert(r)) is the identity and crosstalkInvert(r) equals crosstalk(r).invert(); crosstalk preserves neutral (grey) vectors.", "quantifier": "all real r, r != 1/3", "why_tests_cant": "The domain is a continuum of colours/matrices; a test samples a handful of points and cannot exclude a wrong sign or index that cancels on them.", "anchors": ["include/colorsystem.hpp: Matrix3::crosstalk", "include/colorsystem.hpp: Matrix3::crosstalkInvert"]}
{"id": "C04", "title": "Gamut conversion to and from XYZ round-trips", "statement": "For every Gamut built from a non-degenerate matrix or from non-degenerate primaries, fromXYZ(toXYZ(c)) = c and toXYZ(fromXYZ(c)) = c for every colour c, including out-of-gamut (negative) ones.", "quantifier": "all non-degenerate gamuts, all colours", "why_tests_cant": "The domain is a continuum of colours/matrices; a test samples a handful of points and cannot exclude a wrong sign or index that cancels on them.", "anchors": ["include/colorsystem.hpp: Gamut::Gamut", "include/colorsystem.hpp: Gamut::toXYZ", "include/colorsystem.hpp: Gamut::fromXYZ"]}
{"id": "C05", "title": "A gamut built from primaries has the requested white and primaries", "statement": "A Gamut built from chromaticities (xR,yR,xG,yG,xB,yB,xW,yW) maps RGB (1,1,1) to the XYZ of (xW,yW) at luminance 1, maps pure red/green/blue to the requested chromaticities, and primaryRed/Green/Blue/White report exactly what was requested.", "quantifier": "all primary/white chromaticities with |yW| >= 1e-8, independent primaries and non-zero channel weights", "why_tests_cant": "The domain is a continuum of colours/matrices; a test samples a handful of points and cannot exclude a wrong sign or index that cancels on them.", "anchors": ["include/colorsystem.hpp: Gamut::fromPrimaries", "include/colorsystem.hpp: Gamut::primMat", "include/colorsystem.hpp: Gamut::mulDiag", "include/colorsystem.hpp: Gamut::primaryMatrix", "include/colorsystem.hpp: Gamut::primaryWhite", "include/colorsystem.hpp: Gamut::primaryRed"]}
{"id": "C06", "title": "GamutConvert preserves the colour and composes", "statement": "GamutConvert(src,dst) applied to src RGB gives the dst RGB with the same XYZ; GamutConvert(g,g) is the identity; converting a->b->c equals converting a->c; a->b->a is the identity.", "quantifier": "all triples of non-degenerate gamuts, all colours", "why_tests_cant": "The domain is a continuum of colours/matrices; a test samples a handful of points and cannot exclude a wrong sign or index that cancels on them.", "anchors": ["include/colorsystem.hpp: GamutConvert"]}
{"id": "C07", "title": "Bradford adaptation maps source white to destination white", "statement": "Bradford(s,d) maps white s exactly to white d; Bradford(w,w) is the identity; Bradford(b,c) after Bradford(a,b) equals Bradford(a,c).", "quantifier": "all pairs/triples of whites whose Bradford cone responses are non-zero", "why_tests_cant": "The domain is a continuum of colours/matrices; a test samples a handful of points and cannot exclude a wrong sign or index that cancels on them.", "anchors": ["include/colorsystem.hpp: Bradford", "include/colorsystem.hpp: LMS"]}
{"id": "C08", "title": "Every predefined gamut is usable and white-preserving", "statement": "AdobeRGB, Rec709, Rec2020, DCI_P3, S_Gamut, S_Gamut3_Cine, ACEScg, ACES2065, LMS and XYZ all round-trip every colour, and each RGB gamut maps equal RGB (k,k,k) to a colour with luminance k and the white's chromaticity.", "quantifier": "the ten gamuts, all colours, all levels k", "why_tests_cant": "The domain is a continuum of colours/matrices; a test samples a handful of points and cannot exclude a wrong sign or index that cancels on them.", "anchors": ["include/colorsystem.hpp: AdobeRGB", "include/colorsystem.hpp: Rec709", "include/colorsystem.hpp: Rec2020", "include/colorsystem.hpp: DCI_P3", "include/colorsystem.hpp: S_Gamut", "include/colorsystem.hpp: S_Gamut3_Cine", "include/colorsystem.hpp: ACEScg", "include/colorsystem.hpp: ACES2065", "include/colorsystem.hpp: LMS", "include/colorsystem.hpp: XYZ"]}
{"id": "C09", "title": "Yxy conversion round-trips", "statement": "fromYxy(toYxy(XYZ)) = XYZ whenever |X+Y+Z| >= 1e-8 and |y| >= 1e-8; toYxy(fromYxy(Yxy)) = Yxy whenever |y| >= 1e-8 and |Y/y| >= 1e-8; outside, the documented fallback values (white chromaticity / zero X and Z) are returned. Luminance is always passed through unchanged.", "quantifier": "all XYZ and Yxy triples", "why_tests_cant": "The domain is a continuum of colours/matrices; a test samples a handful of points and cannot exclude a wrong sign or index that cancels on them. The guard thresholds are boundaries tests do not hit.", "anchors": ["include/colorsystem.hpp: Tristimulus::toYxy", "include/colorsystem.hpp: Tristimulus::fromYxy", "include/colorsystem.hpp: Tristimulus::X_from_Yxy", "include/colorsystem.hpp: Tristimulus::x_from_XYZ"]}
{"id": "C10", "title": "Yuv conversion round-trips", "statement": "YuvToYxy(YxyToYuv(c)) = c for every c whose denominator -2x+12y+3 is non-zero, YxyToYuv(YuvToYxy(c)) = c whenever 2u-8v+4 is non-zero, and fromYuv(toYuv(XYZ)) = XYZ wherever the Yxy round-trip holds and X+15Y+3Z is non-zero.", "quantifier": "all colours", "why_tests_cant": "The domain is a continuum of colours/matrices; a test samples a handful of points and cannot exclude a wrong sign or index that cancels on them.", "anchors": ["include/colorsystem.hpp: Tristimulus::YxyToYuv", "include/colorsystem.hpp: Tristimulus::YuvToYxy", "include/colorsystem.hpp: Tristimulus::toYuv", "include/colorsystem.hpp: Tristimulus::fromYuv"]}
{"id": "C11", "title": "CIELAB round-trips up to the white clamp", "statement": "fromCIELAB(toCIELAB(c, w), w) = c for every c not exceeding the white w (negative values included); components brighter than the white are clamped to it; toCIELAB(fromCIELAB(lab, w), w) = lab whenever no decoded component exceeds the white. The white maps to L*=100, a*=b*=0.", "quantifier": "all XYZ, all whites with positive components", "why_tests_cant": "The domain is a continuum of colours/matrices; a test samples a handful of points and cannot exclude a wrong sign or index that cancels on them.", "anchors": ["include/colorsystem.hpp: Tristimulus::toCIELAB", "include/colorsystem.hpp: Tristimulus::fromCIELAB", "include/colorsystem.hpp: Tristimulus::CIELAB_curve", "include/colorsystem.hpp: Tristimulus::CIELAB_decurve"]}
{"id": "C12", "title": "RGB -> HSV -> RGB round-trips", "statement": "fromHSV(toHSV(c)) = c for every RGB colour with a non-zero maximum (HDR values above 1 and negative components included) and for black; when the maximum is zero but another component is negative the colour is lost (result is black).", "quantifier": "all RGB triples", "why_tests_cant": "The domain is a continuum of colours/matrices; a test samples a handful of points and cannot exclude a wrong sign or index that cancels on them. The six hue sectors meet at ties that random tests never hit.", "anchors": ["include/colorsystem.hpp: Tristimulus::toHSV", "include/colorsystem.hpp: Tristimulus::fromHSV", "include/colorsystem.hpp: Tristimulus::mod360"]}
{"id": "C13", "title": "HSV -> RGB -> HSV round-trips", "statement": "toHSV(fromHSV(h,s,v)) = (h,s,v) for 0 <= h < 360, 0 < s <= 1, v > 0; fromHSV is 360-periodic in hue; toHSV always reports a hue in [0,360] and, for non-negative RGB, a saturation in [0,1].", "quantifier": "all HSV triples in range, all hues", "why_tests_cant": "The domain is a continuum of colours/matrices; a test samples a handful of points and cannot exclude a wrong sign or index that cancels on them.", "anchors": ["include/colorsystem.hpp: Tristimulus::toHSV", "include/colorsystem.hpp: Tristimulus::fromHSV", "include/colorsystem.hpp: Tristimulus::mod360"]}
{"id": "C14", "title": "Hue wrapping terminates with a hue in [0,360] exactly for float hues of magnitude up to 2^33", "statement": "In binary32 arithmetic the hue wrap used by toHSV/fromHSV returns (in finitely many steps) for a finite hue r exactly when |r| <= 2^33, and then the result lies in [0,360]; for larger finite values and infinities it recurses forever; NaN is returned as NaN.", "quantifier": "every binary32 value", "why_tests_cant": "2^32 inputs, and non-termination cannot be observed by a test that finishes.", "anchors": ["include/colorsystem.hpp: Tristimulus::mod360"]}
{"id": "C15", "title": "min/max/clip/positive behave on every float including NaN and infinities", "statement": "For every binary32 colour t and non-NaN bounds l <= h: every component of t.clip(l,h) is a non-NaN float in [l,h] (NaN becomes h), clip is idempotent and leaves in-range components untouched; positive() never yields a NaN or negative component, so hasNegative(positive(t)) is false; min3/max3 of NaN-free colours are the least/greatest component.", "quantifier": "every triple of binary32 values, all bounds", "why_tests_cant": "The special values (NaN, -0, inf) and their ordering in a two-way comparison are not covered by sampled tests.", "anchors": ["include/colorsystem.hpp: Tristimulus::clip", "include/colorsystem.hpp: Tristimulus::positive", "include/colorsystem.hpp: Tristimulus::min", "include/colorsystem.hpp: Tristimulus::max", "include/colorsystem.hpp: Tristimulus::hasNegative", "include/colorsystem.hpp: Tristimulus::min3", "include/colorsystem.hpp: Tristimulus::max3"]}
{"id": "C16", "title": "OKLAB round-trips", "statement": "OKLAB_to_XYZ(XYZ_to_OKLAB(c)) = c and XYZ_to_OKLAB(OKLAB_to_XYZ(l)) = l for every colour, negative ones included (exact arithmetic).", "quantifier": "all colours", "why_tests_cant": "The domain is a continuum of colours/matrices; a test samples a handful of points and cannot exclude a wrong sign or index that cancels on them.", "anchors": ["include/colorsystem.hpp: XYZ_to_OKLAB", "include/colorsystem.hpp: OKLAB_to_XYZ"]}
{"id": "C17", "title": "ICtCp neutrals and round trip", "statement": "Colours with equal cone responses have Ct = Cp = 0 and I equal to their PQ code; the signal recovered inside ICtCp_to_XYZ from XYZ_to_ICtCp output differs from the encoded PQ signal by at most 1e-5 on every in-range colour.", "quantifier": "all colours", "why_tests_cant": "The domain is a continuum of colours/matrices; a test samples a handful of points and cannot exclude a wrong sign or index that cancels on them.", "anchors": ["include/colorsystem.hpp: XYZ_to_ICtCp", "include/colorsystem.hpp: ICtCp_to_XYZ"]}
{"id": "C18", "title": "sRGB encode/decode round-trips", "statement": "toScene(SRGB, toScreen(SRGB, c)) = c for every component in [0,1] outside the knee window [0.0031308, ((0.04045+0.055)/1.055)^2.4), inside which the error is below 1e-8; components below 0 / above 1 come back as 0 / 1.", "quantifier": "all reals", "why_tests_cant": "The curves are piecewise with rounded constants; whether encode/decode pick matching branches near the knee is a question about every real value, and the test suite probes three points.", "anchors": ["include/colorsystem.hpp: OTF::Y_to_sRGB", "include/colorsystem.hpp: OTF::sRGB_to_Y", "include/colorsystem.hpp: OTF::toScreen", "include/colorsystem.hpp: OTF::toScene"]}
{"id": "C19", "title": "BT.709 encode/decode round-trips", "statement": "toScene(BT709, toScreen(BT709, c)) = c for every component in [0,1]; outside it is the clamp to [0,1].", "quantifier": "all reals", "why_tests_cant": "The curves are piecewise with rounded constants; whether encode/decode pick matching branches near the knee is a question about every real value, and the test suite probes three points.", "anchors": ["include/colorsystem.hpp: OTF::Y_to_BT709", "include/colorsystem.hpp: OTF::BT709_to_Y"]}
{"id": "C20", "title": "ST2084 (PQ) encode/decode round-trips", "statement": "toScene(ST2084, toScreen(ST2084, c)) = c for every component in [0,100] (1 = 100 cd/m^2), and is the clamp to [0,100] elsewhere; toScreen(ST2084, toScene(ST2084, s)) = s for every signal above the black limit c1^m2 (about 7e-7) up to 1, and signals from 0 up to that limit all decode to black.", "quantifier": "all reals", "why_tests_cant": "The curves are piecewise with rounded constants; whether encode/decode pick matching branches near the knee is a question about every real value, and the test suite probes three points.", "anchors": ["include/colorsystem.hpp: OTF::Y_to_ST2084", "include/colorsystem.hpp: OTF::ST2084_to_Y"]}
{"id": "C21", "title": "S-Log encode/decode round-trips", "statement": "toScene(SLOG, toScreen(SLOG, c)) = c for c in [0,10] and the clamp to [0,10] elsewhere.", "quantifier": "all reals", "why_tests_cant": "The curves are piecewise with rounded constants; whether encode/decode pick matching branches near the knee is a question about every real value, and the test suite probes three points.", "anchors": ["include/colorsystem.hpp: OTF::Y_to_SLog", "include/colorsystem.hpp: OTF::SLog_to_Y"]}
{"id": "C22", "title": "S-Log2 encode/decode round-trips", "statement": "toScene(SLOG2, toScreen(SLOG2, c)) = c for every c >= 1e-6, never negative, off by at most 1e-6 on [0,1e-6], and 0 for every c < 0.", "quantifier": "all reals", "why_tests_cant": "The curves are piecewise with rounded constants; whether encode/decode pick matching branches near the knee is a question about every real value, and the test suite probes three points.", "anchors": ["include/colorsystem.hpp: OTF::Y_to_SLog2", "include/colorsystem.hpp: OTF::SLog2_to_Y", "include/colorsystem.hpp: OTF::CV_to_IRE_SLog2", "include/colorsystem.hpp: OTF::IRE_to_CV_SLog2"]}
{"id": "C23", "title": "S-Log3 encode/decode round-trips", "statement": "toScene(SLOG3, toScreen(SLOG3, c)) = c for every scene value c.", "quantifier": "all reals", "why_tests_cant": "The curves are piecewise with rounded constants; whether encode/decode pick matching branches near the knee is a question about every real value, and the test suite probes three points.", "anchors": ["include/colorsystem.hpp: OTF::Y_to_SLog3", "include/colorsystem.hpp: OTF::SLog3_to_Y"]}
{"id": "C24", "title": "HLG encode/decode round-trips", "statement": "toScene(HLG, toScreen(HLG, c)) = c for every c >= 0 and 0 for c < 0; toScreen(HLG, toScene(HLG, s)) = s for every signal s in [0, 1/2) and every s at least the code of 1 (the gap between is narrower than 1e-9).", "quantifier": "all reals", "why_tests_cant": "The curves are piecewise with rounded constants; whether encode/decode pick matching branches near the knee is a question about every real value, and the test suite probes three points.", "anchors": ["include/colorsystem.hpp: OTF::Y_to_HLG", "include/colorsystem.hpp: OTF::HLG_to_Y"]}
{"id": "C25", "title": "Pure gamma round-trips", "statement": "toScene(GAMMA, toScreen(GAMMA, c, g), g) = c for every c > 0 and every g other than 0, and for c = 0 when g > 0.", "quantifier": "all c > 0, g != 0; c = 0, g > 0", "why_tests_cant": "The curves are piecewise with rounded constants; whether encode/decode pick matching branches near the knee is a question about every real value, and the test suite probes three points.", "anchors": ["include/colorsystem.hpp: OTF::gamma", "include/colorsystem.hpp: OTF::degamma"]}
{"id": "C26", "title": "Encoders stay in range and are order-preserving", "statement": "toScreen for SRGB, BT709 and ST2084 always yields signals in [0,1], toScene for SRGB and BT709 always yields values in [0,1], and for ST2084 values in [0,100] for signals in [0,1]; BT709, ST2084, S-Log and HLG encoders are monotone: a brighter scene value never gets a smaller code.", "quantifier": "all pairs of reals", "why_tests_cant": "The curves are piecewise with rounded constants; whether encode/decode pick matching branches near the knee is a question about every real value, and the test suite probes three points.", "anchors": ["include/colorsystem.hpp: OTF::Y_to_sRGB", "include/colorsystem.hpp: OTF::Y_to_BT709", "include/colorsystem.hpp: OTF::Y_to_ST2084", "include/colorsystem.hpp: OTF::Y_to_HLG", "include/colorsystem.hpp: OTF::Y_to_SLog"]}
{"id": "C27", "title": "toScreen/toScene act channel-wise with the curve named by the type", "statement": "toScreen(type, c, g) and toScene(type, c, g) apply the named scalar curve independently to each of the three channels; LINEAR (and any unknown type) returns the colour bit-for-bit.", "quantifier": "all types, colours and gammas, including non-finite floats", "why_tests_cant": "Needs all enum values crossed with all float triples.", "anchors": ["include/colorsystem.hpp: OTF::toScreen", "include/colorsystem.hpp: OTF::toScene"]}
{"id": "C28", "title": "Typed values written to a stream are read back", "statement": "Starting from an empty stream, any sequence of putUint8/16/32/64, putInt8/16/32/64, putFloat, putDouble followed by seekTo(0) and the same sequence of gets with the same endianness returns exactly the values written, in order.", "quantifier": "all sequences of typed values, both endiannesses", "why_tests_cant": "It ranges over every history of stream operations and every byte content; tests execute a few fixed sequences.", "anchors": ["include/colorsystem.hpp: MemoryStream::putUint16", "include/colorsystem.hpp: MemoryStream::getUint16", "include/colorsystem.hpp: MemoryStream::putInt64", "include/colorsystem.hpp: MemoryStream::getInt64", "include/colorsystem.hpp: MemoryStream::putFloat", "include/colorsystem.hpp: MemoryStream::getFloat"]}
{"id": "C29", "title": "Byte order of the stream", "statement": "Appending a k-byte integer produces its k bytes least significant first in LITTLE mode and most significant first in BIG mode, appended after the existing content, which is unchanged; reading interprets bytes the same way, so reading with the other endianness yields the byte-swapped value.", "quantifier": "all values, widths, endiannesses and prior contents", "why_tests_cant": "It ranges over every history of stream operations and every byte content; tests execute a few fixed sequences.", "anchors": ["include/colorsystem.hpp: MemoryStream::putUint16", "include/colorsystem.hpp: MemoryStream::putUint32", "include/colorsystem.hpp: MemoryStream::putUint64", "include/colorsystem.hpp: MemoryStream::getUint32", "include/colorsystem.hpp: MemoryStream::getUint64", "include/colorsystem.hpp: MemoryStream::setReadEndian", "include/colorsystem.hpp: MemoryStream::setWriteEndian"]}
{"id": "C30", "title": "Reads never change the content and never leave the buffer", "statement": "Every typed get leaves the stored bytes unchanged, moves the cursor forward by exactly the bytes actually available (at most the width), touches only bytes inside the buffer, and yields zero bytes past the end; at the end feof() is true and stays true.", "quantifier": "all stream states with a cursor inside the buffer, all sequences of reads", "why_tests_cant": "It ranges over every history of stream operations and every byte content; tests execute a few fixed sequences.", "anchors": ["include/colorsystem.hpp: MemoryStream::getUint8", "include/colorsystem.hpp: MemoryStream::getUint32", "include/colorsystem.hpp: MemoryStream::getUint64", "include/colorsystem.hpp: MemoryStream::feof"]}
{"id": "C31", "title": "Block reads and writes behave like a growable byte array", "statement": "write_at(data, n, p) makes the bytes p..p+n-1 equal to data, leaves all other existing bytes unchanged, grows the buffer to max(size, p+n) with zero fill; read_at then returns them; read_at past the end returns fewer bytes; write/read advance the cursor by the number of bytes.", "quantifier": "all buffers, positions and data blocks", "why_tests_cant": "It ranges over every history of stream operations and every byte content; tests execute a few fixed sequences.", "anchors": ["include/colorsystem.hpp: MemoryStream::write_at", "include/colorsystem.hpp: MemoryStream::read_at", "include/colorsystem.hpp: MemoryStream::write", "include/colorsystem.hpp: MemoryStream::read"]}
{"id": "C32", "title": "Overwriting in the middle of the stream", "statement": "Writing a multi-byte value with putUint16/32/64 at a cursor inside the existing content replaces those bytes and advances the cursor, so reading the value back at the same position returns it.", "quantifier": "all stream states and cursor positions", "why_tests_cant": "It ranges over every history of stream operations and every byte content; tests execute a few fixed sequences.", "anchors": ["include/colorsystem.hpp: MemoryStream::putUint8", "include/colorsystem.hpp: MemoryStream::putUint16"]}
{"id": "C33", "title": "put_at stores a byte", "statement": "After put_at(abs, val), get_at(abs) returns val and other bytes below abs are unchanged.", "quantifier": "all stream states, positions and values", "why_tests_cant": "It ranges over every history of stream operations and every byte content; tests execute a few fixed sequences.", "anchors": ["include/colorsystem.hpp: MemoryStream::put_at", "include/colorsystem.hpp: MemoryStream::get_at"]}
{"id": "C34", "title": "Strings round-trip", "statement": "A string written with putString can be read back: after putUint32(len) + putString(s), get_string() returns s.", "quantifier": "all strings", "why_tests_cant": "It ranges over every history of stream operations and every byte content; tests execute a few fixed sequences.", "anchors": ["include/colorsystem.hpp: MemoryStream::putString", "include/colorsystem.hpp: MemoryStream::putSubstr", "include/colorsystem.hpp: MemoryStream::get_string", "include/colorsystem.hpp: MemoryStream::getSubstr"]}
{"id": "C35", "title": "align moves to the next multiple", "statement": "For a > 0, align(a) moves the cursor forward by less than a bytes to the smallest multiple of a not below it, never changes content, and is idempotent; with asserts enabled it aborts exactly when that position is beyond the end.", "quantifier": "all cursors and alignments a > 0", "why_tests_cant": "It ranges over every history of stream operations and every byte content; tests execute a few fixed sequences.", "anchors": ["include/colorsystem.hpp: MemoryStream::align", "include/colorsystem.hpp: MemoryStream::fseek"]}
{"id": "C36", "title": "Back-patched pointers read back the patched position", "statement": "p = putPointer32()/putPointer64() on an appending stream, then any further appends, then adjustPointer32/64(p) stores the current size at p in write endianness, changes no other byte, and a later seekTo(p); getPointer32/64() returns that size (size below 2^32 for the 32-bit form).", "quantifier": "all streams and append histories", "why_tests_cant": "It ranges over every history of stream operations and every byte content; tests execute a few fixed sequences.", "anchors": ["include/colorsystem.hpp: MemoryStream::putPointer32", "include/colorsystem.hpp: MemoryStream::adjustPointer32", "include/colorsystem.hpp: MemoryStream::putPointer64", "include/colorsystem.hpp: MemoryStream::adjustPointer64", "include/colorsystem.hpp: MemoryStream::getPointer32"]}
{"id": "C37", "title": "The cursor stays inside the buffer", "statement": "In an assert-enabled build, after any sequence of stream operations that did not abort, the cursor is between 0 and the buffer size, so no get/put touches memory outside the buffer; fseek(offs, END) lands at size-offs-1.", "quantifier": "all operation histories", "why_tests_cant": "It ranges over every history of stream operations and every byte content; tests execute a few fixed sequences.", "anchors": ["include/colorsystem.hpp: MemoryStream::fseek", "include/colorsystem.hpp: MemoryStream::seekTo", "include/colorsystem.hpp: MemoryStream::putUint8"]}
{"id": "C38", "title": "Spectrum lookup is in-bounds, exact at samples, linear in between and clamped outside", "statement": "fetch never reads outside the sample array; at a sample wavelength it returns that sample (exactly, in binary32 as well, for the 400-entry 1 nm tables); between samples it returns the linear interpolation, hence a value between the two neighbours; below/above the range it returns the first/last sample. Constructing a Spectrum from its own 400 samples is the identity.", "quantifier": "all sample arrays with at least two samples, all wavelengths", "why_tests_cant": "400-dimensional inputs; tests evaluate two or three spectra.", "anchors": ["include/colorsystem.hpp: Spectrum::fetch", "include/colorsystem.hpp: Spectrum::lerp", "include/colorsystem.hpp: Spectrum::Spectrum"]}
{"id": "C39", "title": "Spectrum algebra", "statement": "+ and * are element-wise, commutative (bit-for-bit in binary32), scaling distributes; sum and dot are the sums over all 400 samples: sum(a+b)=sum(a)+sum(b), dot(a,b)=sum(a*b), dot3(a,b,c)=sum(a*b*c).", "quantifier": "all spectra", "why_tests_cant": "400-dimensional inputs; tests evaluate two or three spectra.", "anchors": ["include/colorsystem.hpp: Spectrum::mul", "include/colorsystem.hpp: Spectrum::add", "include/colorsystem.hpp: Spectrum::sum", "include/colorsystem.hpp: Spectrum::dot", "include/colorsystem.hpp: Spectrum::dot3"]}
{"id": "C40", "title": "Observers are linear and normalised to equal energy", "statement": "fromSpectrum is linear in the spectrum and maps the flat spectrum E(e) to (e,e,e) for any observer whose three curves have non-zero sum; brighter spectra give no smaller tristimulus values for CIE1931, CIE31JV and CIE2012.", "quantifier": "all spectra, all observers", "why_tests_cant": "400-dimensional inputs; tests evaluate two or three spectra.", "anchors": ["include/colorsystem.hpp: Observer::fromSpectrum", "include/colorsystem.hpp: Observer::Observer", "include/colorsystem.hpp: CIE1931", "include/colorsystem.hpp: CIE31JV", "include/colorsystem.hpp: CIE2012", "include/colorsystem.hpp: Spectrum::E"]}
{"id": "C41", "title": "Reflectance times light equals the product spectrum, bit for bit", "statement": "fromReflectanceAndLight(r, l) and fromSpectrum(r * l) return identical floats for every pair of spectra, including non-finite samples.", "quantifier": "all pairs of binary32 spectra, all observers", "why_tests_cant": "400-dimensional inputs; tests evaluate two or three spectra.", "anchors": ["include/colorsystem.hpp: Observer::fromReflectanceAndLight", "include/colorsystem.hpp: Observer::fromSpectrum", "include/colorsystem.hpp: Spectrum::dot3", "include/colorsystem.hpp: Spectrum::mul"]}
{"id": "C42", "title": "Colour checker references are physically plausible", "statement": "Macbeth::reference(light, obs) always has 24 entries in chart order, entry i being the colour of patch i under the light; for any non-negative light every component is non-negative and at most that of the light itself (no patch is brighter than a perfect white).", "quantifier": "all non-negative lights, all observers with non-negative curves", "why_tests_cant": "400-dimensional inputs; tests evaluate two or three spectra.", "anchors": ["include/colorsystem.hpp: Macbeth::reference", "include/colorsystem.hpp: Macbeth::Patch"]}
{"id": "C43", "title": "Monochromatic units", "statement": "lumensFromMonochromaticFlux and candellasFromMonochromaticRadiance are proportional to power, the Y of the latter equals the former for equal arguments, and lumens never exceed 683.0 lm/W times the curve maximum.", "quantifier": "all wavelengths and powers", "why_tests_cant": "400-dimensional inputs; tests evaluate two or three spectra.", "anchors": ["include/colorsystem.hpp: Observer::lumensFromMonochromaticFlux", "include/colorsystem.hpp: Observer::candellasFromMonochromaticRadiance", "include/colorsystem.hpp: Observer::xyz"]}
{"id": "C44", "title": "Blackbody radiation is positive and increases with temperature", "statement": "planck(T, l) > 0 for T, l > 0 and is strictly increasing in T at each wavelength, so blackbody spectra of hotter bodies dominate sample by sample.", "quantifier": "all temperatures and wavelengths", "why_tests_cant": "400-dimensional inputs; tests evaluate two or three spectra.", "anchors": ["include/colorsystem.hpp: Spectrum::planck", "include/colorsystem.hpp: Spectrum::blackbody"]}
{"id": "C45", "title": "Delta UV and Delta E76 are metrics", "statement": "Delta::E76 is non-negative, symmetric (bit-for-bit in binary32), zero exactly for equal colours and satisfies the triangle inequality; Delta::UV likewise on the (u,v) components and ignores luminance.", "quantifier": "all pairs and triples of colours", "why_tests_cant": "A metric law quantifies over all pairs or triples of colours.", "anchors": ["include/colorsystem.hpp: Delta::UV", "include/colorsystem.hpp: Delta::E76"]}
{"id": "C46", "title": "Delta E00 is a well-defined symmetric difference", "statement": "Delta::E00 never takes the square root of a negative number, is symmetric, and is zero exactly when the two LAB colours are equal (all Kl,Kc,Kh > 0) - for pairs on opposite sides of the negative a* axis up to the 35-digit decimal used for pi, i.e. hue angles agreeing to 4e-18 rad.", "quantifier": "all pairs of LAB colours", "why_tests_cant": "A metric law quantifies over all pairs or triples of colours.", "anchors": ["include/colorsystem.hpp: Delta::E00"]}
{"id": "C47", "title": "Delta ICtCp is a pseudo-metric", "statement": "Delta::ICtCp is non-negative, symmetric, zero for equal colours and satisfies the triangle inequality.", "quantifier": "all triples of XYZ colours", "why_tests_cant": "A metric law quantifies over all pairs or triples of colours.", "anchors": ["include/colorsystem.hpp: Delta::ICtCp"]}
{"id": "C48", "title": "The SVD routine never leaves its arrays and always terminates", "statement": "SOLVER::svdcmp on any m x n matrix of floats (NaN and infinities included) with m >= n, a length-n w and n x n v performs only in-bounds accesses and returns 1; with m < n it returns -1 and changes nothing. It never returns 0.", "quantifier": "all matrix sizes and all float contents", "why_tests_cant": "The loop nest runs on arbitrary matrices of any size; out-of-bounds indices appear only on specific value/shape combinations.", "anchors": ["include/colorsystem.hpp: SOLVER::svdcmp"]}
{"id": "C49", "title": "solve reports failure", "statement": "SOLVER::solve returns a status that lets the caller tell whether the system was solved (in particular under-determined shapes with fewer rows than columns are reported).", "quantifier": "all systems", "why_tests_cant": "The loop nest runs on arbitrary matrices of any size; out-of-bounds indices appear only on specific value/shape combinations.", "anchors": ["include/colorsystem.hpp: SOLVER::solve", "include/colorsystem.hpp: SOLVER::svdcmp"]}
{"id": "C50", "title": "Back-substitution yields the least-squares solution", "statement": "If u has orthonormal columns, v is orthogonal and A = u diag(w) v^T, then svbksb returns x minimising |Ax-b|, and among minimisers the one of least norm (zero singular values are skipped).", "quantifier": "all shapes, all factorisations and right-hand sides", "why_tests_cant": "The loop nest runs on arbitrary matrices of any size; out-of-bounds indices appear only on specific value/shape combinations.", "anchors": ["include/colorsystem.hpp: SOLVER::svbksb"]}
{"id": "C51", "title": "The SVD routine factorises its input", "statement": "After svdcmp the original matrix equals u * B * v^T with u's columns orthonormal on the non-degenerate part and v orthogonal, B being the (upper bidiagonal) matrix of w and the residual off-diagonal; when the off-diagonal is zero this is the singular value decomposition with w >= 0.", "quantifier": "all real matrices with m >= n", "why_tests_cant": "The loop nest runs on arbitrary matrices of any size; out-of-bounds indices appear only on specific value/shape combinations.", "anchors": ["include/colorsystem.hpp: SOLVER::svdcmp", "include/colorsystem.hpp: SOLVER::PYTHAG", "include/colorsystem.hpp: SOLVER::DSIGN"]}
{"id": "C52", "title": "PYTHAG computes the hypotenuse without division by zero", "statement": "PYTHAG(a,b) = sqrt(a^2+b^2) for all a, b, is symmetric and zero only when both are zero; DSIGN(a,b) has magnitude |a| and the sign of b (negative for b = 0).", "quantifier": "all reals", "why_tests_cant": "The loop nest runs on arbitrary matrices of any size; out-of-bounds indices appear only on specific value/shape combinations.", "anchors": ["include/colorsystem.hpp: SOLVER::PYTHAG", "include/colorsystem.hpp: SOLVER::DSIGN"]}
{"id": "C53", "title": "Corrector::solve sets up the right least-squares problem", "statement": "The system handed to the solver by Corrector::solve(patch, target) is exactly M*patch[i] = target[i] for all patches (plus a vacuous zero row block), so a least-squares solution of it minimises the total squared error over all 3x3 matrices M.", "quantifier": "all patch/target lists", "why_tests_cant": "The loop nest runs on arbitrary matrices of any size; out-of-bounds indices appear only on specific value/shape combinations.", "anchors": ["include/colorsystem.hpp: Corrector::solve"]}
{"id": "C54", "title": "Corrector::solve with too few patches", "statement": "With fewer than two patches the returned matrix is the zero matrix (no error is reported) for every input, and makeGamut then inverts a singular matrix.", "quantifier": "all patch lists of length 0 or 1", "why_tests_cant": "The loop nest runs on arbitrary matrices of any size; out-of-bounds indices appear only on specific value/shape combinations.", "anchors": ["include/colorsystem.hpp: Corrector::solve", "include/colorsystem.hpp: Corrector::makeGamut", "include/colorsystem.hpp: SOLVER::solve"]}
{"id": "C55", "title": "Corrector::solve stays in bounds", "statement": "Corrector::solve(patch, target) reads target only at indices below its size; solve(patch, light, observer) and makeGamut are safe for any number of patches.", "quantifier": "all patch/target list lengths", "why_tests_cant": "The loop nest runs on arbitrary matrices of any size; out-of-bounds indices appear only on specific value/shape combinations.", "anchors": ["include/colorsystem.hpp: Corrector::solve", "include/colorsystem.hpp: Macbeth::reference"]}
{"id": "C56", "title": "util::sqrtf terminates and approximates the square root", "statement": "util::sqrtf(x) returns NaN for negative, infinite and NaN input, and for every finite x >= 0 the Newton iteration terminates in binary32.", "quantifier": "every binary32 value", "why_tests_cant": "2^32 inputs; a hang is not observable by a finite test.", "anchors": ["include/colorsystem.hpp: util::sqrtf", "include/colorsystem.hpp: util::Detail::sqrtNewtonRaphsonF"]}
{"id": "C57", "title": "Colour-temperature whites keep the requested luminance", "statement": "fromCT(T,Y), fromPlanckianLocus(T,Y) and fromCCT(T,d,Y) return a colour whose luminance is Y and whose other components scale linearly with Y.", "quantifier": "all temperatures and luminances", "why_tests_cant": "The domain is a continuum of colours/matrices; a test samples a handful of points and cannot exclude a wrong sign or index that cancels on them.", "anchors": ["include/colorsystem.hpp: Tristimulus::fromCT", "include/colorsystem.hpp: Tristimulus::fromPlanckianLocus", "include/colorsystem.hpp: Tristimulus::fromCCT"]}
{"id": "C58", "title": "The Planckian locus approximation is continuous across its segments", "statement": "fromPlanckianLocus has no visible jump (more than 0.001 in chromaticity) at its segment boundaries 2222 K and 4000 K.", "quantifier": "all temperatures", "why_tests_cant": "The domain is a continuum of colours/matrices; a test samples a handful of points and cannot exclude a wrong sign or index that cancels on them.", "anchors": ["include/colorsystem.hpp: Tristimulus::fromPlanckianLocus"]}
{"id": "C59", "title": "ICC loading", "statement": "loadGamutFromICCProfileMemory yields a gamut derived from the profile's content.", "quantifier": "all byte buffers", "why_tests_cant": "It ranges over every history of stream operations and every byte content; tests execute a few fixed sequences.", "anchors": ["include/colorsystem.hpp: loadGamutFromICCProfileMemory"]}
{"id": "C60", "title": "Binary32 matrix application is accurate", "statement": "Evaluating Matrix3::apply and Vector3::dot in binary32 gives a result whose error relative to the exact value is bounded by a small multiple of the unit roundoff times the sum of the absolute products, whenever no overflow occurs.", "quantifier": "all binary32 matrices and vectors", "why_tests_cant": "Rounding error bounds must hold for every float combination.", "anchors": ["include/colorsystem.hpp: Matrix3::apply", "include/colorsystem.hpp: Vector3::dot"]}
{"id": "C61", "title": "util::sqrtf is faithfully rounded", "statement": "For every finite binary32 x >= 0 the result r of util::sqrtf(x) is one of the two binary32 neighbours of the real square root: if r*r <= x no larger float has a square <= x, if r*r >= x no smaller non-negative float has a square >= x. Squares of floats get their exact root, and +0/-0 are returned unchanged.", "quantifier": "every finite non-negative binary32 value", "why_tests_cant": "2^31 inputs; the Newton iteration stops at whatever fixed point rounding produces.", "anchors": ["include/colorsystem.hpp: util::sqrtf", "include/colorsystem.hpp: util::Detail::sqrtNewtonRaphsonF"]}
{"id": "C62", "title": "solve returns the least-squares solution of a nearby system", "statement": "SOLVER::solve returns status 0 and the shortest least-squares solution of a system A'x = b, where A' differs from A by no more than the singular values below TOL times the largest one (and the convergence tolerance of the decomposition); for a well-conditioned A it is the least-squares solution of Ax = b itself, so Corrector::solve returns the 3x3 matrix of least total squared error.", "quantifier": "all shapes with at least as many rows as columns, all right-hand sides and tolerances", "why_tests_cant": "The loop nest runs on arbitrary matrices of any size; out-of-bounds indices appear only on specific value/shape combinations.", "anchors": ["include/colorsystem.hpp: SOLVER::solve", "include/colorsystem.hpp: SOLVER::svdcmp", "include/colorsystem.hpp: SOLVER::svbksb", "include/colorsystem.hpp: Corrector::solve"]}
{"id": "C63", "title": "toHSV in binary32 is finite, in range and accurate", "statement": "For every colour with finite binary32 components of magnitude at most 2^120, toHSV returns; the hue is a finite number in [0,360] within 1e-4 degrees (modulo a turn) of the exact hexagonal hue of those components, the value is exactly the largest component, and for non-negative components the saturation is a finite number in [0,1] within 2^-22 of (max-min)/max. Greys give hue 0 and saturation 0, black included: no 0/0.", "quantifier": "every finite binary32 colour up to 2^120", "why_tests_cant": "2^96 colours; NaN from 0/0 and cancellation occur only on particular bit patterns.", "anchors": ["include/colorsystem.hpp: Tristimulus::toHSV", "include/colorsystem.hpp: Tristimulus::mod360"]}
{"id": "C64", "title": "fromHSV in binary32 never leaves the range [0, v]", "statement": "For every finite hue of magnitude at most 2^33, every saturation in [0,1] and every finite value v >= 0, fromHSV returns without undefined behaviour, every component is a finite number in [0,v], one component is v bit for bit, and toHSV of the result has value v. A NaN hue is undefined behaviour (cast of NaN to int).", "quantifier": "every binary32 hue, saturation and value in range", "why_tests_cant": "2^96 triples; the sector index and the casts depend on rounding at the sector edges.", "anchors": ["include/colorsystem.hpp: Tristimulus::fromHSV", "include/colorsystem.hpp: Tristimulus::toHSV"]}
{"id": "C65", "title": "Predefined gamuts realise the published colour spaces", "statement": "AdobeRGB, Rec709, Rec2020, DCI_P3, S_Gamut, S_Gamut3_Cine, ACEScg and ACES2065 map pure red, green and blue to the chromaticities published for Adobe RGB (1998), BT.709, BT.2020, RP 431-2, S-Gamut, S-Gamut3.Cine, AP1 and AP0, and equal full drive to the published white at luminance 1; this determines the XYZ of every RGB value.", "quantifier": "all RGB values in the eight spaces", "why_tests_cant": "The domain is a continuum of colours/matrices; a test samples a handful of points and cannot exclude a wrong sign or index that cancels on them.", "anchors": ["include/colorsystem.hpp: AdobeRGB", "include/colorsystem.hpp: Rec709", "include/colorsystem.hpp: Rec2020", "include/colorsystem.hpp: DCI_P3", "include/colorsystem.hpp: S_Gamut", "include/colorsystem.hpp: S_Gamut3_Cine", "include/colorsystem.hpp: ACEScg", "include/colorsystem.hpp: ACES2065"]}
{"id": "C66", "title": "Illuminant constants have the published chromaticities", "statement": "Every Illuminant_* constant has luminance 1 and a chromaticity within 0.0005 of the one published for that illuminant (2 degree observer).", "quantifier": "all twelve constants", "why_tests_cant": "A mistyped digit in a constant no test reads is invisible to the test suite.", "anchors": ["include/colorsystem.hpp: Illuminant_A", "include/colorsystem.hpp: Illuminant_B", "include/colorsystem.hpp: Illuminant_C", "include/colorsystem.hpp: Illuminant_D50", "include/colorsystem.hpp: Illuminant_D65", "include/colorsystem.hpp: Illuminant_F11"]}
{"id": "C67", "title": "Colour conversions perform no undefined operation", "statement": "No division by zero, root or power outside its domain takes part in: toYxy, fromYxy, toHSV, toHSV_atan, fromHSV, fromCIELAB, fromCT and both OKLAB conversions for every colour; toYuv unless X+15Y+3Z = 0 (never for non-negative colours); YxyToYuv, YuvToYxy, fromYuv exactly when their denominator is non-zero; toCIELAB exactly when no white component is zero; Matrix3::invert exactly for a non-zero determinant, crosstalkInvert exactly for r other than 1/3; gamut construction from good primaries and all predefined gamuts; primaryMatrix and Bradford exactly when their divisors are non-zero; fromPlanckianLocus exactly for T other than 0.", "quantifier": "all real colours, matrices and temperatures", "why_tests_cant": "NaN and infinity appear on measure-zero sets of inputs that sampling does not hit.", "anchors": ["include/colorsystem.hpp: Tristimulus::toYxy", "include/colorsystem.hpp: Tristimulus::toYuv", "include/colorsystem.hpp: Tristimulus::toCIELAB", "include/colorsystem.hpp: Tristimulus::toHSV", "include/colorsystem.hpp: Tristimulus::fromHSV", "include/colorsystem.hpp: Matrix3::invert", "include/colorsystem.hpp: Gamut", "include/colorsystem.hpp: Bradford", "include/colorsystem.hpp: XYZ_to_OKLAB"]}
{"id": "C68", "title": "Domains of the transfer functions", "statement": "toScreen is defined for every scene colour and every type except GAMMA, toScene for every screen colour and every type except GAMMA and ST2084. gamma is defined exactly when g is non-zero and the value positive, or the value zero and g positive; degamma exactly for a positive value or zero with g >= 0; the PQ decoder exactly for signals in [0, (c2/c3)^m2), in particular on [0,1].", "quantifier": "all real colours and exponents", "why_tests_cant": "A domain is a statement about every point, including the single points where a denominator vanishes.", "anchors": ["include/colorsystem.hpp: OTF::toScreen", "include/colorsystem.hpp: OTF::toScene", "include/colorsystem.hpp: OTF::gamma", "include/colorsystem.hpp: OTF::degamma", "include/colorsystem.hpp: OTF::ST2084_to_Y"]}
{"id": "C69", "title": "Colour differences are defined on every pair of colours", "statement": "Delta::UV, Delta::E76, Delta::ICtCp and XYZ_to_ICtCp evaluate no undefined operation on any pair of colours; Delta::E00 exactly when none of Kl, Kc, Kh is zero.", "quantifier": "all pairs of colours and all weighting factors", "why_tests_cant": "E00 takes roots of ratios and differences that could leave their domain for particular pairs.", "anchors": ["include/colorsystem.hpp: Delta::UV", "include/colorsystem.hpp: Delta::E76", "include/colorsystem.hpp: Delta::ICtCp", "include/colorsystem.hpp: Delta::E00", "include/colorsystem.hpp: XYZ_to_ICtCp"]}
{"id": "C70", "title": "The ICtCp round trip is defined for non-negative colours", "statement": "For every XYZ colour without negative components, ICtCp_to_XYZ(XYZ_to_ICtCp(c)) evaluates no undefined operation.", "quantifier": "all non-negative XYZ colours", "why_tests_cant": "The failure needs a clipped cone response, which test colours near the neutral axis do not produce.", "anchors": ["include/colorsystem.hpp: XYZ_to_ICtCp", "include/colorsystem.hpp: ICtCp_to_XYZ", "include/colorsystem.hpp: OTF::ST2084_to_Y"]}
{"id": "C71", "title": "fromCCT lands at the requested distance from the locus", "statement": "For T in [1000,10000] K, |dUV| at most 0.05 and non-zero luminance, the CIE 1960 chromaticity of fromCCT(T, dUV) lies at distance |dUV| from that of fromCT(T), at right angles to the chord to the point one kelvin cooler, on the side of greater v for positive dUV and of smaller v for negative dUV (exact square root; in general scaled by the ratio of the chord to the root computed for it). With dUV = 0 it is fromCT(T) exactly.", "quantifier": "all temperatures and offsets in range", "why_tests_cant": "The domain is a continuum of colours/matrices; a test samples a handful of points and cannot exclude a wrong sign or index that cancels on them.", "anchors": ["include/colorsystem.hpp: Tristimulus::fromCCT", "include/colorsystem.hpp: Tristimulus::CCT_x_approx", "include/colorsystem.hpp: Tristimulus::CCT_y_approx"]}
{"id": "C72", "title": "Along fromCT hotter is bluer", "statement": "Between 999 K and 10000 K the chromaticity of fromCT stays inside 0.27<=x<=0.66, 0.28<=y<=0.43, and its x and its CIE 1960 u strictly decrease with the temperature, so distinct temperatures have distinct chromaticities.", "quantifier": "all temperatures from 999 K to 10000 K", "why_tests_cant": "The domain is a continuum of colours/matrices; a test samples a handful of points and cannot exclude a wrong sign or index that cancels on them.", "anchors": ["include/colorsystem.hpp: Tristimulus::fromCT", "include/colorsystem.hpp: Tristimulus::blackbody_x_approx", "include/colorsystem.hpp: Tristimulus::blackbody_y_approx"]}
{"id": "C73", "title": "Delta E00 is the published CIEDE2000 difference", "statement": "For all pairs of Lab colours and all weighting factors, Delta::E00 equals the published CIEDE2000 formula (evaluated with the decimal of pi in the code), except when the two hues are more than 180 degrees apart and sum to at least 360: then the code takes the mean hue a full turn too high, and the result still agrees within 0.004 per cent.", "quantifier": "all pairs of Lab colours, all weighting factors", "why_tests_cant": "Published test pairs exercise a handful of hue combinations; the piecewise mean hue depends on the pair.", "anchors": ["include/colorsystem.hpp: Delta::E00"]}
{"id": "C74", "title": "The grey row of the colour checker is ordered under every light", "statement": "For every non-negative light and every observer with non-negative curves, entries 18 to 23 of Macbeth::reference get darker from left to right in all three components, entry 18 is the lightest of the 24 and entry 23 the darkest.", "quantifier": "all non-negative lights and observers", "why_tests_cant": "A swapped row or patch shows only for lights that weight the differing wavelengths.", "anchors": ["include/colorsystem.hpp: Macbeth::reference", "include/colorsystem.hpp: Macbeth::Patch"]}
{"id": "C75", "title": "TM-30 samples are reflectances", "statement": "TM_30_15::sample has 99 entries, each between 0 and 1 at all 400 wavelengths, so under every non-negative light and observer no sample is lighter than the light or negative.", "quantifier": "all samples, wavelengths, non-negative lights and observers", "why_tests_cant": "39600 entries; a mistyped one shows only under lights strong at its wavelength.", "anchors": ["include/colorsystem.hpp: TM_30_15::sample", "include/colorsystem.hpp: Observer::fromReflectanceAndLight"]}
{"id": "C76", "title": "The daylight table has the chromaticity of D65", "statement": "CIE1931 applied to CIE_D65, scaled by any non-zero factor, has chromaticity (0.3127, 0.3290) to within 0.0001 in each coordinate.", "quantifier": "every scale factor", "why_tests_cant": "One mistyped entry of the daylight table or of a colour matching function moves the white point.", "anchors": ["include/colorsystem.hpp: CIE_D65", "include/colorsystem.hpp: CIE1931", "include/colorsystem.hpp: Observer::fromSpectrum"]}
{"id": "C77", "title": "Observers are accurate and monotone in binary32", "statement": "For every light of 400 finite non-negative binary32 samples up to 2^100, each component computed by CIE1931, CIE31JV and CIE2012 is finite, non-negative and within 0.005 per cent (plus 2^-140) of the exact mean of the samples weighted by the decimal curve. If one light is nowhere stronger than another, no component of its result is greater, rounding included.", "quantifier": "every binary32 light up to 2^100", "why_tests_cant": "Rounding of 400 accumulated terms depends on all samples; monotonicity could fail in the last bit.", "anchors": ["include/colorsystem.hpp: Observer::fromSpectrum", "include/colorsystem.hpp: Spectrum::dot", "include/colorsystem.hpp: Spectrum::sum", "include/colorsystem.hpp: CIE1931", "include/colorsystem.hpp: CIE31JV", "include/colorsystem.hpp: CIE2012"]}
{"id": "C78", "title": "Colour checker references in binary32 respect the light", "statement": "For every binary32 light up to 2^100 and the three standard observers, no Macbeth or TM-30 patch has a component greater than that of the light itself, the grey row is in decreasing order, and its ends are the lightest and the darkest of the 24 patches: comparisons of the computed floats, without tolerance.", "quantifier": "every binary32 light up to 2^100", "why_tests_cant": "Comparisons without tolerance can fail in the last bit for particular lights.", "anchors": ["include/colorsystem.hpp: Macbeth::reference", "include/colorsystem.hpp: TM_30_15::sample", "include/colorsystem.hpp: Observer::fromReflectanceAndLight"]}
{"id": "C79", "title": "Gamut round trips are accurate in binary32", "statement": "For the ten predefined gamuts and every colour with finite binary32 components of magnitude at most C <= 2^100, fromXYZ(toXYZ(c)) and toXYZ(fromXYZ(c)) are finite and differ from c by at most 4e-6*C + 2^-140 in each component; the same for GamutConvert there and back between any two of the eight RGB spaces. Hence every 16-bit code value survives a round trip through XYZ.", "quantifier": "every binary32 colour up to 2^100, all predefined gamuts and pairs", "why_tests_cant": "2^96 colours per gamut; the worst rounding is met by particular bit patterns.", "anchors": ["include/colorsystem.hpp: Gamut::toXYZ", "include/colorsystem.hpp: Gamut::fromXYZ", "include/colorsystem.hpp: GamutConvert", "include/colorsystem.hpp: Matrix3::apply", "include/colorsystem.hpp: Matrix3::invert"]}
{"id": "C80", "title": "No negative component exactly inside the triangle of primaries", "statement": "For each of the eight predefined RGB gamuts and every XYZ colour with X+Y+Z > 0, fromXYZ has no negative component if and only if the chromaticity lies in the triangle (convex hull) of the published primaries; conversely every non-black mixture of non-negative components has such a chromaticity.", "quantifier": "all colours with X+Y+Z > 0, eight gamuts", "why_tests_cant": "The domain is a continuum of colours/matrices; a test samples a handful of points and cannot exclude a wrong sign or index that cancels on them.", "anchors": ["include/colorsystem.hpp: Gamut::fromXYZ", "include/colorsystem.hpp: Gamut::toXYZ", "include/colorsystem.hpp: AdobeRGB", "include/colorsystem.hpp: Rec709", "include/colorsystem.hpp: Rec2020", "include/colorsystem.hpp: DCI_P3", "include/colorsystem.hpp: S_Gamut", "include/colorsystem.hpp: S_Gamut3_Cine", "include/colorsystem.hpp: ACEScg", "include/colorsystem.hpp: ACES2065"]}
{"id": "C81", "title": "Converting to a wider gamut never produces negative components", "statement": "For 19 ordered pairs of predefined gamuts (for example Rec709 to AdobeRGB, DCI_P3, Rec2020, ACEScg and ACES2065; Rec2020 to ACEScg, S_Gamut and ACES2065) the triangle of the first lies in that of the second, and GamutConvert maps every colour without negative components to one without negative components. ACEScg to ACES2065 is not such a pair.", "quantifier": "all colours with non-negative components, 19 pairs of gamuts", "why_tests_cant": "The domain is a continuum of colours/matrices; a test samples a handful of points and cannot exclude a wrong sign or index that cancels on them.", "anchors": ["include/colorsystem.hpp: GamutConvert", "include/colorsystem.hpp: Gamut::toXYZ", "include/colorsystem.hpp: Gamut::fromXYZ"]}
{"id": "C82", "title": "ACES2065 contains every real colour", "statement": "For every spectrum without negative samples, and every non-negative reflectance under every non-negative light, the colour seen by CIE1931, CIE31JV or CIE2012 has no negative component in ACES2065. Light at 500 nm has a negative first component in each of the seven other predefined RGB gamuts.", "quantifier": "all non-negative spectra (400 samples), three observers", "why_tests_cant": "A spectrum has 400 independent samples; the narrowest margin is 1e-11 at one wavelength of one observer.", "anchors": ["include/colorsystem.hpp: ACES2065", "include/colorsystem.hpp: Gamut::fromXYZ", "include/colorsystem.hpp: Observer::fromSpectrum", "include/colorsystem.hpp: Observer::fromReflectanceAndLight", "include/colorsystem.hpp: CIE1931", "include/colorsystem.hpp: CIE31JV", "include/colorsystem.hpp: CIE2012"]}
{"id": "C83", "title": "sRGB curve in single precision", "statement": "In binary32, with any powf of relative error at most 2^-22: Y_to_sRGB of every finite float is within 6e-7 of the published sRGB curve of the clamped value, sRGB_to_Y has relative error at most 2e-6 (plus the smallest float), both round trips return within 4e-6 on [0,1], and every code k/N with N <= 65535 survives decoding and encoding.", "quantifier": "all finite floats; all powf with relative error <= 2^-22; all codes of up to 16 bits", "why_tests_cant": "powf is an external function: the theorem holds for every implementation within the stated error, not for the one a test happens to link.", "anchors": ["include/colorsystem.hpp: OTF::Y_to_sRGB", "include/colorsystem.hpp: OTF::sRGB_to_Y"]}
{"id": "C84", "title": "BT.709 curve in single precision", "statement": "In binary32, with any powf of relative error at most 2^-22: Y_to_BT709 of every finite float except the float nearest to 0.018 is within 6e-7 of the published curve of the clamped value; at that float it is too large by more than 2.4e-4. BT709_to_Y has relative error at most 1.2e-6. Decoding after encoding returns within 4e-6 on [0,1]; encoding after decoding within 4e-6 outside (0.08099, 0.08125) and 4e-4 everywhere, so every code k/N with N <= 1023 survives; code 332 of 4095 returns as 331.", "quantifier": "all finite floats; all powf with relative error <= 2^-22; all codes of up to 10 bits", "why_tests_cant": "powf is an external function: the theorem holds for every implementation within the stated error, not for the one a test happens to link.", "anchors": ["include/colorsystem.hpp: OTF::Y_to_BT709", "include/colorsystem.hpp: OTF::BT709_to_Y"]}
{"id": "C85", "title": "Gamma curve in single precision", "statement": "In binary32, with any powf of relative error at most 2^-22, for every exponent g in [1,4] and every x in [2^-16,1]: gamma followed by degamma and degamma followed by gamma return x with relative error at most 5e-6; every non-zero code k/N with N <= 65535 survives both.", "quantifier": "all floats x in [2^-16,1] and g in [1,4]; all powf with relative error <= 2^-22", "why_tests_cant": "powf is an external function: the theorem holds for every implementation within the stated error, not for the one a test happens to link.", "anchors": ["include/colorsystem.hpp: OTF::gamma", "include/colorsystem.hpp: OTF::degamma"]}
{"id": "C86", "title": "ST 2084 (PQ) curve in single precision", "statement": "In binary32, with any powf of relative error at most 2^-22: Y_to_ST2084 of every finite float from 2^-90 upwards has relative error at most 3.3e-5 against the published curve (1 from 100 upwards); ST2084_to_Y has relative error at most 3e-4 on signals in [1/4096,1]; encoding after decoding returns those signals with relative error at most 6.1e-5, so every non-zero code k/N with N <= 4095 survives. Zero encodes to 0, and with powf(0,y)=0 for y>0 code 0 decodes to 0.", "quantifier": "all finite floats in the stated ranges; all powf with relative error <= 2^-22; all non-zero codes of up to 12 bits", "why_tests_cant": "powf is an external function: the theorem holds for every implementation within the stated error. The 79th power magnifies rounding errors, so whether 12-bit codes survive is decided by constants no test measures.", "anchors": ["include/colorsystem.hpp: OTF::Y_to_ST2084", "include/colorsystem.hpp: OTF::ST2084_to_Y"]}
{"id": "C87", "title": "Polar hue of toHSV_atan", "statement": "toHSV_atan always returns. Its hue lies in [0,360] and equals, to 1e-15 degree, the polar angle of the chroma vector (2r-g-b, sqrt(3)(g-b)); its saturation and value are those of toHSV. For every non-grey colour the two hues differ by at most 1.2 degrees modulo a turn.", "quantifier": "all real colours", "why_tests_cant": "The hexagonal and polar hues agree at the six corners that tests use; a wrong constant or a swapped argument elsewhere is a small smooth error over a continuum.", "anchors": ["include/colorsystem.hpp: Tristimulus::toHSV_atan", "include/colorsystem.hpp: Tristimulus::toHSV"]}
{"id": "C88", "title": "How hue, saturation and value transform", "statement": "Scaling a colour by k>0 keeps hue and saturation and multiplies the value by k. Adding the same amount to all channels keeps the hue and the product saturation*value. Cycling the channels (b,r,g) adds 120 degrees modulo a turn and keeps saturation and value. The complement w-c has the opposite hue.", "quantifier": "all real colours, all positive factors, all offsets", "why_tests_cant": "Relations between results for unboundedly many pairs of inputs, across the six branches of the hue computation.", "anchors": ["include/colorsystem.hpp: Tristimulus::toHSV"]}
{"id": "C89", "title": "RGB to HSV and back in single precision", "statement": "In binary32, for every colour whose components are finite and in [0,2^120], toHSV followed by fromHSV returns without undefined behaviour and each component is within 3.1e-6 of the largest component (plus 2^-150). Every colour with channels k/N, N<=65535, keeps its codes.", "quantifier": "all finite non-negative float colours up to 2^120; all code triples of up to 16 bits", "why_tests_cant": "2^96 colours; the sector computed from a rounded hue can be the neighbouring one, and only an argument about the continuity of the reconstruction shows that this is harmless.", "anchors": ["include/colorsystem.hpp: Tristimulus::toHSV", "include/colorsystem.hpp: Tristimulus::fromHSV"]}
{"id": "C90", "title": "HLG curve in single precision", "statement": "In binary32, with sqrtf of relative error at most 2^-23, logf and expf of error at most 2^-22: Y_to_HLG of every finite float in [0,2^60] has relative error at most 5e-7 (plus 2^-149) against the published curve; HLG_to_Y of every signal in [0,1] has relative error at most 1e-6 (plus 2^-148); decoding then encoding returns every signal of [0,1] up to 2e-6, so every code k/N with N <= 65535 survives.", "quantifier": "all finite floats in the stated ranges; all library functions within the stated errors; all codes of up to 16 bits", "why_tests_cant": "sqrtf, logf and expf are external: the theorem holds for every implementation within the stated error. Around the knee a rounded decoder result may be encoded by the other segment of the curve, which a sample of signals does not meet.", "anchors": ["include/colorsystem.hpp: OTF::Y_to_HLG", "include/colorsystem.hpp: OTF::HLG_to_Y"]}
{"id": "C91", "title": "Colour differences in single precision", "statement": "In binary32 and for every implementation of the library functions: UV, E76 and ICtCp give the same bits when their arguments are exchanged, NaNs and infinities included; so does E00 for every weighting when sinf is odd. The distance of a finite colour to itself is exactly +0 for UV and E76; for E00 and ICtCp, for all inputs, it is +0 or NaN and never a nonzero number. For components up to 2^50 and sqrtf of relative error at most 2^-23, E76 is within 4.2e-7 relative (plus 2^-72) of the Euclidean distance, and the triangle inequality holds up to a factor 1+1e-6 (plus 2^-70).", "quantifier": "all colours with float components, NaN and infinities included for symmetry; all weights; all library functions as stated", "why_tests_cant": "Exact symmetry depends on every intermediate operation of E00 being symmetric or antisymmetric under rounding, including the two branches of the hue difference, the mean hue and signed zeros; sampled pairs do not reach NaN, infinities and ties.", "anchors": ["include/colorsystem.hpp: Delta::UV", "include/colorsystem.hpp: Delta::E76", "include/colorsystem.hpp: Delta::E00", "include/colorsystem.hpp: Delta::ICtCp"]}
{"id": "C92", "title": "CIELAB in single precision", "statement": "In binary32, with powf of relative error at most 2^-22: for every finite non-negative colour and positive white (ratios and white up to 2^100), toCIELAB is within 5.3e-5 (L), 4e-4 (a) and 1.6e-4 (b) of the CIE definition applied to the colour clamped to the white; fromCIELAB of the result is the clamped colour up to 5e-6 of the white (plus 2^-149); the white itself is (100, 0, 0) exactly when powf(1,y) is 1.", "quantifier": "all finite non-negative float colours and positive float whites in the stated range; all powf within the stated error", "why_tests_cant": "The float thresholds 216/24389 and 6/29 and the division by the white put values on the wrong side of the knee; the theorem covers every such value. powf is external.", "anchors": ["include/colorsystem.hpp: Tristimulus::CIELAB_curve", "include/colorsystem.hpp: Tristimulus::CIELAB_decurve", "include/colorsystem.hpp: Tristimulus::toCIELAB", "include/colorsystem.hpp: Tristimulus::fromCIELAB"]}
{"id": "C93", "title": "Yxy and Yuv in single precision", "statement": "In binary32: for every finite non-negative colour with X+Y+Z between 3e-8 and 2^60, toYxy copies the luminance and gives chromaticities inside [0,1] with relative error at most 1.9e-7 (plus 2^-150); if moreover y >= 2^-20, fromYxy returns Y exactly, X up to 5.3e-7 and Z up to 1e-6 of X+Y+Z (plus 2^-120). For 0<=x<=0.75 and 0<=y<=0.85 the CIE 1960 u and v are within 3.1e-6 and 1e-6, and converting back returns x and y up to 2.5e-5 and 1.8e-5 and the luminance exactly.", "quantifier": "all finite float colours in the stated ranges", "why_tests_cant": "The bounds hold for every pair of floats, including those where 1-x-y cancels and where the sum is rounded twice; that a computed chromaticity never exceeds 1 is a statement about rounding, not about the formula.", "anchors": ["include/colorsystem.hpp: Tristimulus::toYxy", "include/colorsystem.hpp: Tristimulus::fromYxy", "include/colorsystem.hpp: Tristimulus::YxyToYuv", "include/colorsystem.hpp: Tristimulus::YuvToYxy"]}
{"id": "C94", "title": "White points by colour temperature, in the code's precision", "statement": "With the polynomials evaluated in binary64 and converted to binary32 once, as written, and the rest in binary32: for every float T in [999, 10000], x and y are within 4e-8 and 2.6e-8 of the exact polynomials; x never increases when T increases, for any two floats however close; fromCT(T, L) returns Y = L exactly and X, Z within 1.4e-6 L and 1.8e-6 L (plus 2^-120), 0 < L <= 2^58. For T <= 1020 the Z returned is negative (not a colour), for T >= 1030 X and Z are positive, both in exact arithmetic and as computed.", "quantifier": "all finite float temperatures in [999, 10000] and luminances in the stated range", "why_tests_cant": "About 28 million float temperatures times all luminances; the order statement quantifies over pairs. The negative Z appears only below 1024 K.", "anchors": ["include/colorsystem.hpp: Tristimulus::fromCT", "include/colorsystem.hpp: Tristimulus::blackbody_x_approx", "include/colorsystem.hpp: Tristimulus::blackbody_y_approx"]}
{"id": "C95", "title": "Black-body spectra, in the code's precision", "statement": "With Planck's law evaluated in binary64, converted to binary32, divided by 1e9f and stored as float, as written: for every float T in [400, 1e8] and every library whose double pow and exp have relative error at most 2^-50, each of the 400 samples is finite, positive and within relative error 1.2e-7 of Planck's law with the header's constants, and is strictly larger for every temperature larger by 2.5e-7 of its value.", "quantifier": "all float temperatures in [400, 1e8], all samples, all libraries meeting the accuracy bound", "why_tests_cant": "exp(x)-1 cancels for hot bodies and exp(x) is near 1e41 for cold ones; the bound is uniform over the whole range and over all conforming libraries.", "anchors": ["include/colorsystem.hpp: Spectrum::planck", "include/colorsystem.hpp: Spectrum::blackbody"]}
{"id": "C96", "title": "S-Log, S-Log2 and the S-Log3 decoder, in the code's precision", "statement": "With every operation in the precision the header uses (double where a double literal appears, float elsewhere) and any library whose log10f and powf meet an error of 2^-22: Y_to_SLog is within 4e-7 of Sony's S-Log for every finite input (clamped to [0,10]) and SLog_to_Y within 1.8e-6 (y + 0.0376) of its inverse on [0, 1.5]; encoding and decoding recovers the clamped input to 4.1e-6 (x + 0.0376). Y_to_SLog2 is within 8.5e-7 of S-Log2 on [-1, 100], SLog2_to_Y within 5.4e-6 (y + 0.054) of the inverse clamped at zero on [0, 1.3], and the round trip recovers [0, 100] to 1.3e-5 (x + 0.054). SLog3_to_Y is within 4e-6 (|y| + 0.01) of the inverse of S-Log3 for all code values in [0,1], including those where the float threshold selects the other segment. No result is NaN or infinite.", "quantifier": "all finite floats in the stated ranges, all libraries meeting the accuracy bound", "why_tests_cant": "Over a billion float inputs; near the knees the float threshold differs from the published one, so that single values take the wrong segment; the error bounds hold for every conforming library.", "anchors": ["include/colorsystem.hpp: OTF::Y_to_SLog", "include/colorsystem.hpp: OTF::SLog_to_Y", "include/colorsystem.hpp: OTF::Y_to_SLog2", "include/colorsystem.hpp: OTF::SLog2_to_Y", "include/colorsystem.hpp: OTF::SLog3_to_Y"]}
{"id": "C97", "title": "OKLAB in single precision", "statement": "With every operation in binary32 and any cbrtf with relative error at most 2^-22: for every colour with finite components of magnitude at most C (2^-60 <= C <= 2^60), OKLAB_to_XYZ(XYZ_to_OKLAB(c)) is finite and differs from c by at most 4.2e-5 C in every component, whatever the signs of the cone responses; 13-bit XYZ code values therefore survive the trip exactly. If the components are at most s^3 and the exact cone responses at least rho s^3 (0 < rho <= 1) then XYZ_to_OKLAB(c) is within 5.5e-6 s / rho of the exact value of the OKLAB formula with the matrices of the header in every coordinate.", "quantifier": "all binary32 colours in the stated range, all conforming cube-root functions", "why_tests_cant": "Over 2^90 colours and unknown libraries; near zero cone responses the cube root amplifies rounding without bound, so a tested sample says nothing about the worst case.", "anchors": ["include/colorsystem.hpp: XYZ_to_OKLAB", "include/colorsystem.hpp: OKLAB_to_XYZ"]}
{"id": "C98", "title": "Exposure by whole stops is exact in single precision", "statement": "In binary32, multiplying a colour by 2^k (|k| <= 20; components zero or of magnitude between 2^-30 and 2^30) commutes bit for bit - signed zeros included - with applying any matrix with entries in that range, hence with conversion between every predefined gamut and XYZ and between any two RGB spaces; leaves x, y, u, v of toYxy and toYuv bit-identical (unless the code takes one of the two for black) while scaling the luminance; leaves hue and saturation of toHSV bit-identical while scaling the value; leaves toCIELAB bit-identical when the white is scaled along, whatever the library; and a light k stops brighter (-8 <= k <= 20) gives a colour k stops brighter, bit for bit, under each of the three observers.", "quantifier": "all binary32 colours, matrices and lights in the stated ranges, all k in range", "why_tests_cant": "Bit-exact equality over 2^96 colours and all stops; one intermediate result falling into the subnormal range, or one tie broken differently, would break it and no sample would show it.", "anchors": ["include/colorsystem.hpp: Tristimulus::apply", "include/colorsystem.hpp: Gamut::toXYZ", "include/colorsystem.hpp: Gamut::fromXYZ", "include/colorsystem.hpp: Tristimulus::toYxy", "include/colorsystem.hpp: Tristimulus::toHSV", "include/colorsystem.hpp: Tristimulus::toCIELAB", "include/colorsystem.hpp: Observer::fromSpectrum"]}
{"id": "C99", "title": "RGB spaces in single precision realise their published definitions", "statement": "For each of the eight predefined RGB spaces and every binary32 colour with components of magnitude at most C (C up to 2^100), the binary32 XYZ value is within 6e-7*C of the one fixed by the published primaries and white point; the binary32 components of an XYZ colour are within 1.9e-6*C of the published ones; the binary32 conversion matrix between any two of the spaces gives the components of the same colour within 3.2e-6*C; and binary32 Bradford adaptation between any two of the twelve illuminant constants is within 6e-6*C of exact Bradford adaptation. Nothing overflows.", "quantifier": "all colours of bounded magnitude, all eight spaces, all 64 pairs of spaces, all 144 pairs of illuminants", "why_tests_cant": "The matrices are the result of binary32 inversions at static initialisation; a test compares a few colours with loose tolerances against the same formulas, it cannot bound the error of every colour against the standard.", "anchors": ["include/colorsystem.hpp: Gamut::fromPrimaries", "include/colorsystem.hpp: Gamut::toXYZ", "include/colorsystem.hpp: Gamut::fromXYZ", "include/colorsystem.hpp: GamutConvert", "include/colorsystem.hpp: Bradford", "include/colorsystem.hpp: Matrix3::invert"]}
{"id": "C100", "title": "ICtCp in single precision", "statement": "For every binary32 XYZ colour with components of magnitude at most C (2^-60 <= C <= 2^100) whose three exact cone responses are at least C/16, and any powf accurate to 2^-22, the binary32 I, Ct and Cp are finite and within 4e-5, 2.7e-4 and 3.5e-4 of the values BT.2100 prescribes for the exact cone responses (luminance clipped at the PQ peak). If moreover the cone responses lie between 0.01 and 99, encoding and decoding in binary32 gives back X within 4.4e-3*C, Y within 1.4e-3*C and Z within 1.3e-3*C.", "quantifier": "all colours of the stated region, all powf within the accuracy bound", "why_tests_cant": "The PQ curve raises to the 79th power and back, which magnifies every rounding; a test of a few colours with a tolerance cannot bound the worst colour.", "anchors": ["include/colorsystem.hpp: XYZ_to_ICtCp", "include/colorsystem.hpp: ICtCp_to_XYZ", "include/colorsystem.hpp: Y_to_ST2084", "include/colorsystem.hpp: ST2084_to_Y"]}
{"id": "C101", "title": "CIEDE2000 is comparable with CIE76", "statement": "In exact arithmetic, for all pairs of colours and weights Kl, Kc, Kh >= k > 0, k*E00 <= 2.13*E76 + 1e-14 (no assumption on the colours). For colours with L in [0,100] and |a|, |b| <= 128 and weights in (0, k], E76 <= 32*(k*E00) + 1e-15. In particular a pair that is far apart in one measure cannot be close in the other.", "quantifier": "all pairs of colours (upper bound), all pairs of the usual CIELAB box (lower bound), all positive weights", "why_tests_cant": "E00 has hue averages, a rotation term that can be negative and a square root of their combination; tests compare a table of pairs and cannot exclude a direction where the formula collapses or blows up.", "anchors": ["include/colorsystem.hpp: E00", "include/colorsystem.hpp: E76"]}
{"id": "C102", "title": "OKLAB is the published OKLAB", "statement": "For every XYZ colour, XYZ_to_OKLAB gives the OKLAB coordinates of the publication the code cites (the specification, which reproduces the four published reference pairs to three decimals). This is false of the code: the first matrix has the wrong sign at row 2, column 1, and agreement holds exactly for the colours with X = 0. The D65 white comes out with L <= 0.984 and a >= 0.051 instead of L = 1, a = b = 0, and (1,0,0) with negative lightness.", "quantifier": "all real XYZ colours", "why_tests_cant": "Round-trip tests pass because both directions share the wrong sign; a comparison with a few reference pairs at tolerance 0.1 passes for most of them.", "anchors": ["include/colorsystem.hpp: XYZ_to_OKLAB", "include/colorsystem.hpp: OKLAB_to_XYZ"]}
{"id": "C103", "title": "Colour temperature with an offset, in the code's precision", "statement": "For every binary32 temperature T in [1000,10000], offset |d| <= 0.04 and luminance Y in [2^-80, 2^50], fromCCT evaluated as the code evaluates it (double inside the locus polynomials, single precision elsewhere, the Newton square root of the header) returns; X and Z are finite, the luminance is exactly Y, and the (u,v) chromaticity returned is within 0.08|d| + 2.5e-6 of the exact construction (0.037|d| + 2.5e-6 up to 6600 K). Its distance from the Planckian point is |d| up to the same error.", "quantifier": "all binary32 temperatures, offsets and luminances in the stated ranges", "why_tests_cant": "The frame is the difference of two locus points one kelvin apart, 4e-6 long at the hot end, computed in single precision with errors of the order of 1e-7: cancellation makes the direction, not the value, the fragile part, and only a bound over all temperatures shows how fragile.", "anchors": ["include/colorsystem.hpp: fromCCT", "include/colorsystem.hpp: fromPlanckianLocus", "include/colorsystem.hpp: CCT_x_approx", "include/colorsystem.hpp: CCT_y_approx", "include/colorsystem.hpp: sqrtf", "include/colorsystem.hpp: fromYxy"]}
{"id": "C104", "title": "Additive mixtures of lights", "statement": "Over the reals, for lights whose X+Y+Z is at least 1e-8 (the threshold of the code): the (x,y) chromaticity of the sum of two lights divides the segment between theirs in the ratio of their X+Y+Z, the (u,v) chromaticity in the ratio of their X+15Y+3Z, and luminances add; every point strictly between two chromaticities is that of some mixture; a sum of any number of lights has its chromaticity in the convex hull of theirs; a change of exposure keeps both chromaticities and scales the luminance.", "quantifier": "all pairs of lights, all factors, all lists of lights of any length", "why_tests_cant": "Whether chromaticities of sums stay inside the hull is a statement about every list of lights, not about sampled pairs.", "anchors": ["include/colorsystem.hpp: Tristimulus::toYxy", "include/colorsystem.hpp: Tristimulus::toYuv"]}
{"id": "C105", "title": "How CIELAB responds to colour and white", "statement": "Over the reals: only the ratio of colour to white matters; every multiple of the white is neutral, and below the white only those are; a* > 0 exactly when X/Xw > Y/Yw and b* > 0 exactly when Z/Zw < Y/Yw; for non-negative colours 0 <= L* <= 100, |a*| <= 12500/29, |b*| <= 5000/29 with all bounds attained; every colour at least as bright as the white in each component gives (100,0,0); the white used when none is given is (0.9642,1,0.8249), which converts to (100,0,0) and back, and the library's own Illuminant_D50 converts to (100,0,0) but not back.", "quantifier": "all colours and whites with positive components", "why_tests_cant": "Neutrality and sign statements are equivalences over a continuum; the saturation of bright colours only shows outside the usual test range.", "anchors": ["include/colorsystem.hpp: Tristimulus::toCIELAB", "include/colorsystem.hpp: Tristimulus::fromCIELAB", "include/colorsystem.hpp: CIELAB_curve"]}
{"id": "C106", "title": "OKLAB and exposure", "statement": "Over the reals: scaling a colour by k scales its OKLAB coordinates by the cube root of k (for every k, also negative and zero), and the inverse conversion scales with the third power; so hue and the ratios of the coordinates do not depend on the exposure, and a brighter copy of a colour of positive lightness has greater lightness.", "quantifier": "all colours and factors", "why_tests_cant": "A homogeneity law relates infinitely many pairs of inputs; a slip in one of the three cube roots or matrix rows breaks it only off the axes.", "anchors": ["include/colorsystem.hpp: XYZ_to_OKLAB", "include/colorsystem.hpp: OKLAB_to_XYZ"]}
{"id": "C107", "title": "CIEDE2000 in single precision is always a number", "statement": "For colours with binary32 components of magnitude at most 4096 and weights between 1/1024 and 1024, the argument of the last square root of Delta::E00, evaluated in binary32 with rounding at every step, is finite and never negative, so E00 is finite and not negative; and E00(a,a) is exactly +0. The library functions are arbitrary functions with the usual ranges, a seventh power to 2^-20, a sine to 2^-20 near zero and a square root to 2^-22.", "quantifier": "all pairs of binary32 colours in the box, all weights in the range, all library functions with the stated accuracy", "why_tests_cant": "The last square root takes a quadratic form with a negative cross term whose coefficient can reach 1.74: exactly it is positive semidefinite only by the size of the rotation term, and a rounding could make it negative, giving NaN for some pair of colours no sample hits.", "anchors": ["include/colorsystem.hpp: E00"]}
{"id": "C108", "title": "Table lookup in single precision", "statement": "For every finite binary32 wavelength t with 381 <= t < 779 the index chosen by Spectrum::fetch is the integer part of t minus 380, and both weights of the interpolation are computed without any error (they are exactly the fractional part of t and one minus it); the value returned is the linear interpolation of the two samples up to a relative error of 2^-23 + 2^-48 of the weighted magnitudes plus 2^-148, is finite, and is not negative when the samples are not. Every t below 381 (to -2^30) returns the first sample and every t from 779 (to 2^30) the last; NaN and infinities are converted to int, which is undefined.", "quantifier": "all binary32 wavelengths, all tables of finite samples of magnitude at most 2^100", "why_tests_cant": "The index is truncated after two rounded operations: whether any of the three million wavelengths just below an integer is rounded across it cannot be told from a sample, and on a different table size it would be.", "anchors": ["include/colorsystem.hpp: Spectrum::fetch", "include/colorsystem.hpp: Spectrum::lerp"]}
{"id": "C109", "title": "Matrix inversion in single precision", "statement": "For every matrix of binary32 entries of magnitude at most B (2^-16 <= B <= 2^16) whose exact determinant is at least d*B^3 (d >= 2^-12), Matrix3::invert returns nine finite numbers, each within 2^-17/(d^2 B) of the entry of the inverse matrix, and both products with the matrix are within 3*2^-17/d^2 of the identity. When the computed determinant is zero or NaN, no entry of the result is finite. But an exactly singular matrix need not be noticed: for the rows (0.5,0.3,0.2), (1,0.6,0.4), (0.9,1,1), the second twice the first, nine finite numbers come out.", "quantifier": "all 3x3 binary32 matrices with the stated bounds", "why_tests_cant": "The error of an inverse grows with the inverse square of the determinant; tests on a few well conditioned matrices do not bound it.", "anchors": ["include/colorsystem.hpp: Matrix3::invert", "include/colorsystem.hpp: Matrix3::det"]}
{"id": "C110", "title": "Chromatic adaptation between any whites in single precision", "statement": "For all source and destination whites with binary32 components of magnitude at most 3/2 and Bradford cone responses of magnitude at most 2, those of the source at least theta (theta >= 1/64): every entry of the matrix returned by Bradford is finite and within 2^-16/theta^2 of the exact adaptation matrix; every colour with components up to C is adapted within 2^-14/theta^2 * C; and the source white is carried to the destination white within 3*2^-15/theta^2.", "quantifier": "all pairs of whites in the stated range, all colours", "why_tests_cant": "The error depends on the smallest cone response of the source white, which for the header's own illuminants is never small.", "anchors": ["include/colorsystem.hpp: Bradford", "include/colorsystem.hpp: Matrix3::apply", "include/colorsystem.hpp: Gamut"]}
{"id": "C111", "title": "sRGB images survive a trip through another colour space", "statement": "Take a pixel of three codes of a scale 0..N, decode it with OTF::toScene(SRGB), convert it to another space and back, and encode it with OTF::toScreen(SRGB), all in binary32 with powf (and cbrtf) accurate to 2^-22: the three codes come back (each component, times N, rounds to its code). This holds for XYZ by any predefined gamut, for GamutConvert to any other RGB space and back, and for HSV, with N up to 8191 (13 bits); through Rec.709 for CIELAB relative to the gamut's primaryWhite and for Yxy (black included) with N up to 1023 (10 bits), and for OKLAB with N up to 255 (8 bits). With the white that toCIELAB and fromCIELAB use when none is given (D50) it fails: the blue channel of white comes back at 0.873 or less, for every N up to 65535.", "quantifier": "all pixels of all scales up to the stated N, all accurate powf and cbrtf", "why_tests_cant": "There are 2^39 pixels of 13 bits; an 8 bit image already has 16.7 million, and the errors of the worst ones depend on the platform's powf.", "anchors": ["include/colorsystem.hpp: OTF::toScreen", "include/colorsystem.hpp: OTF::toScene", "include/colorsystem.hpp: Gamut::toXYZ", "include/colorsystem.hpp: Gamut::fromXYZ", "include/colorsystem.hpp: GamutConvert", "include/colorsystem.hpp: Tristimulus::toHSV", "include/colorsystem.hpp: Tristimulus::fromHSV", "include/colorsystem.hpp: Tristimulus::toCIELAB", "include/colorsystem.hpp: Tristimulus::fromCIELAB", "include/colorsystem.hpp: Tristimulus::toYxy", "include/colorsystem.hpp: Tristimulus::fromYxy"]}
{"id": "C112", "title": "Monochromatic light in single precision", "statement": "For the three observers of the header (CIE 1931, Judd-Vos, CIE 2012), every wavelength up to 2^30 nm in magnitude (V is linear between the samples from 381 to 779 nm, and constant outside and on the first nanometre, C38), and every power w that is finite, not negative and not above 2^100, in binary32: lumensFromMonochromaticFlux is finite, not negative, and equal to 683 * w * V (V the published curve) up to a relative error of 2^-21; candellasFromMonochromaticRadiance likewise in each component; xyz is the curve over its sum up to 2.5e-5 in relative error. The flux does not decrease when the power grows. For the 1931 and 2012 observers it never exceeds 683 lm/W after rounding, and the 1931 observer attains that at 555 nm for every power. The Judd-Vos curve of the header is 1.0001 at 555 nm, so its observer gives more than 683.067 lm/W.", "quantifier": "all wavelengths and powers that binary32 has in the stated ranges, all three observers", "why_tests_cant": "Wavelength and power are two floats: 2^60 pairs, with two roundings that depend on both.", "anchors": ["include/colorsystem.hpp: Observer::lumensFromMonochromaticFlux", "include/colorsystem.hpp: Observer::candellasFromMonochromaticRadiance", "include/colorsystem.hpp: Observer::xyz", "include/colorsystem.hpp: Spectrum::fetch"]}
{"id": "C113", "title": "BT.709 video survives a trip through another colour space", "statement": "Take a pixel of three codes of a scale 0..N, decode it with OTF::toScene(BT709), convert it to another space and back, and encode it with OTF::toScreen(BT709), all in binary32 with powf (and cbrtf) accurate to 2^-22: the three codes come back (each component, times N, rounds to its code), with N up to 1023 (10 bits), when nothing is done in between and for XYZ by any predefined gamut, GamutConvert to any other RGB space and back, HSV, CIELAB relative to the gamut's primaryWhite, and Yxy (black included); and with N up to 511 for OKLAB.", "quantifier": "all pixels of all scales up to the stated N, all accurate powf and cbrtf", "why_tests_cant": "There are 2^30 pixels of 10 bits, and a decoded value may land on either side of the knee of the encoder, depending on the platform's powf.", "anchors": ["include/colorsystem.hpp: OTF::toScreen", "include/colorsystem.hpp: OTF::toScene", "include/colorsystem.hpp: OTF::BT709_to_Y", "include/colorsystem.hpp: OTF::Y_to_BT709", "include/colorsystem.hpp: Gamut::toXYZ", "include/colorsystem.hpp: Gamut::fromXYZ", "include/colorsystem.hpp: GamutConvert", "include/colorsystem.hpp: Tristimulus::toHSV", "include/colorsystem.hpp: Tristimulus::fromHSV", "include/colorsystem.hpp: Tristimulus::toCIELAB", "include/colorsystem.hpp: Tristimulus::fromCIELAB", "include/colorsystem.hpp: Tristimulus::toYxy", "include/colorsystem.hpp: Tristimulus::fromYxy"]}
{"id": "C114", "title": "Corrector recovers the matrix that explains the patches; makeGamut has its directions exchanged", "statement": "If the targets are the images of the patches under one matrix K, and the patches are uncorrelated with comparable energy in the three channels, Corrector::solve returns K exactly (real arithmetic). Corrector::makeGamut, whose matrix takes the patches to the XYZ colours of the chart, passes that matrix to the constructor Gamut(name, fromXYZ): the gamut's fromXYZ takes the patches to the XYZ colours of the chart, and toXYZ is the inverse. For a camera that sees the first three patches in its red, green and blue channel alone, with the default light and observer, the gamut's toXYZ does not take the camera's values to the XYZ colours of the patches.", "quantifier": "all lists of uncorrelated patches (2 to 24 for makeGamut), all matrices K, all lights and observers; all exposures c for the negative result", "why_tests_cant": "The patches and the matrix are arbitrary reals; the exchange of directions shows only when toXYZ of a made gamut is compared with the chart.", "anchors": ["include/colorsystem.hpp: Corrector::solve", "include/colorsystem.hpp: Corrector::makeGamut", "include/colorsystem.hpp: Gamut::toXYZ", "include/colorsystem.hpp: Gamut::fromXYZ"]}
{"id": "C115", "title": "PQ video survives a trip through another colour space, if no channel is far darker than another", "statement": "Take a pixel of three non-zero codes of a scale 0..N, decode it with OTF::toScene(ST2084), take it to XYZ by any predefined gamut and back, or by GamutConvert to another RGB space and back, and encode it with OTF::toScreen(ST2084), all in binary32 with powf accurate to 2^-22: the codes come back when no decoded channel is more than R times another, with R = 20 for N up to 4095, R = 128 for N up to 1023 and R = 240 for N up to 255; every grey but black comes back with N up to 4095. It is not so without the condition: for the cyan (0, 91.25, 93), of up to 9300 cd/m2, the red channel, of code 0, comes back above code 11 of 1023 after the trip from Rec709 to XYZ.", "quantifier": "all pixels of non-zero codes of all scales up to the stated N, all accurate powf; one witness for the failure", "why_tests_cant": "There are 2^30 pixels of 10 bits, the slope of the PQ curve is unbounded at black, and the loss needs a saturated colour of high luminance.", "anchors": ["include/colorsystem.hpp: OTF::toScreen", "include/colorsystem.hpp: OTF::toScene", "include/colorsystem.hpp: OTF::ST2084_to_Y", "include/colorsystem.hpp: OTF::Y_to_ST2084", "include/colorsystem.hpp: Gamut::toXYZ", "include/colorsystem.hpp: Gamut::fromXYZ", "include/colorsystem.hpp: GamutConvert"]}
{"id": "C116", "title": "Greys of the RGB spaces are neutral in the other spaces, except in OKLAB", "statement": "For each of the published RGB spaces and a grey (y, y, y) in binary32: Gamut::toXYZ gives y times the XYZ of the published white, within 6e-7 y (and the luminance y); GamutConvert to a space with the same white gives the same grey within 3.2e-6 y; toHSV gives hue 0, saturation 0 and value y, exactly; toYxy gives the published chromaticity of the white within 1e-6, for y from 2^-24 to 2^50; toCIELAB relative to primaryWhite gives the CIE lightness of min(y, 1) within 1.2e-3 and a*, b* within 0.01 and 0.004 of 0, for y from 2^-100 to 2^90; but XYZ_to_OKLAB, for the spaces with white D65 and y from 2^-50 to 2^50, gives a second component above 0.05 and a third below -0.015, times the cube root of y: OKLAB is meant to be neutral for D65.", "quantifier": "all greys of binary32 in the stated ranges, all eight RGB spaces, all accurate powf and cbrtf", "why_tests_cant": "There are two thousand million greys, eight spaces and eight binary32 matrices, and the spaces where a test would notice the tint are those it has to name.", "anchors": ["include/colorsystem.hpp: Gamut::toXYZ", "include/colorsystem.hpp: Gamut::primaryWhite", "include/colorsystem.hpp: GamutConvert", "include/colorsystem.hpp: Tristimulus::toHSV", "include/colorsystem.hpp: Tristimulus::toYxy", "include/colorsystem.hpp: Tristimulus::toCIELAB", "include/colorsystem.hpp: XYZ_to_OKLAB"]}
{"id": "C117", "title": "The CIELAB colour of an sRGB-coded image is the one the standards fix", "statement": "In binary32, for an sRGB-coded pixel of up to 16 bits taken to linear light (toScene), to XYZ in one of the display spaces (Rec709, AdobeRGB, Rec2020, DCI_P3: Gamut::toXYZ) and to CIELAB relative to its primaryWhite, the result is the CIELAB colour given by exact arithmetic with the published curve, primaries, white and CIE formulas, up to 0.0036 in L*, 0.031 in a* and 0.0124 in b*; and the CIE76 difference of two such pixels is the exact one up to 0.068.", "quantifier": "all pixels of all depths up to 16 bits, all pairs of such pixels, the four display spaces, all accurate powf and sqrtf", "why_tests_cant": "There are 2^48 pixels of 16 bits and 2^96 pairs, and no independent reference with known error bounds to compare with.", "anchors": ["include/colorsystem.hpp: OTF::toScene", "include/colorsystem.hpp: Gamut::toXYZ", "include/colorsystem.hpp: Gamut::primaryWhite", "include/colorsystem.hpp: Tristimulus::toCIELAB", "include/colorsystem.hpp: Delta::E76"]}
{"id": "C118", "title": "Converting an sRGB-coded image to another RGB space gives the published conversion", "statement": "In binary32, decoding an sRGB-coded pixel of up to 16 bits, applying GamutConvert(src, dst) and encoding gives, in each channel, the sRGB code of the (clamped) component in dst of the same colour, computed exactly from the published primaries, up to 2.2e-4; so for up to 10 bits the codes obtained are within 0.73 of the exact real-valued codes.", "quantifier": "all pixels of all depths up to 16 bits, all 64 pairs of the eight RGB spaces, all accurate powf", "why_tests_cant": "2^48 pixels times 64 pairs of spaces, and the worst case is where the slope of the curve is greatest, near black.", "anchors": ["include/colorsystem.hpp: GamutConvert", "include/colorsystem.hpp: OTF::toScene", "include/colorsystem.hpp: OTF::toScreen", "include/colorsystem.hpp: Tristimulus::apply"]}
{"id": "C119", "title": "A colour chosen by hue, saturation and value keeps them", "statement": "In binary32, for a hue from 0 to 360, a saturation from 1e-6 to 1 and a value from 2^-100 to 2^120, fromHSV succeeds and toHSV of its result gives the value back exactly, the saturation within 7e-7 and the hue, up to whole turns, within 1.3e-4 degrees plus 1e-4 divided by the saturation; so whole degrees of hue with saturation and value in up to 4095 steps, neither zero, come back as the same steps.", "quantifier": "all hues, saturations and values of binary32 in the stated ranges", "why_tests_cant": "There are about 2^80 such triples; errors appear only near the six sector boundaries and for small saturations.", "anchors": ["include/colorsystem.hpp: Tristimulus::fromHSV", "include/colorsystem.hpp: Tristimulus::toHSV"]}
{"id": "C120", "title": "CIELAB colours survive XYZ", "statement": "In binary32, for a CIELAB colour with L* from 0 to 100 whose X and Z are between black and white, and a white with components from 2^-100 to 2^100, toCIELAB(fromCIELAB(c)) gives c back within 7e-4 in L*, 7.4e-3 in a* and 3e-3 in b*; so L* coded in up to 65535 steps and a*, b* coded in up to 64 steps to the unit come back as the same codes.", "quantifier": "all CIELAB colours of binary32 between black and white, all whites in the stated range, all accurate powf", "why_tests_cant": "There are about 2^96 colours and as many whites; the two branches of the curve and its inverse are chosen by rounded values, so they can disagree near the junction.", "anchors": ["include/colorsystem.hpp: Tristimulus::fromCIELAB", "include/colorsystem.hpp: Tristimulus::toCIELAB", "include/colorsystem.hpp: Tristimulus::CIELAB_curve", "include/colorsystem.hpp: Tristimulus::CIELAB_decurve"]}
{"id": "C121", "title": "A space made from primaries has, in single precision, those primaries and that white", "statement": "In binary32, for any primaries and white with finite chromaticities of components (x, y and 1-x-y) of magnitude at most 1, a triangle of primaries of area at least d/2 (d from 2^-8 to 1) and a white with y at least t (t from 2^-8), the Gamut constructor from primaries gives a space whose toXYZ sends (1, 1, 1) to the white of luminance 1 asked for, within 2^-15/(d t), and each column of whose matrix is a multiple s of the XYZ with the chromaticity asked for, within 2^-21 |s|.", "quantifier": "all binary32 chromaticities of primaries and white in the stated region: not only the published spaces", "why_tests_cant": "The region has about 2^250 points; tests can try the published spaces, where the constants are known.", "anchors": ["include/colorsystem.hpp: Gamut::Gamut", "include/colorsystem.hpp: Gamut::primMat", "include/colorsystem.hpp: Gamut::mulDiag", "include/colorsystem.hpp: Matrix3::invert", "include/colorsystem.hpp: Tristimulus::fromYxy"]}
{"id": "C122", "title": "Crosstalk in single precision can be undone up to a leak of one quarter", "statement": "In binary32, for a leak r from 0 to 1/4 and a colour with components of magnitude up to C (2^-100 to 2^80), applying Matrix3::crosstalk(r) gives each channel (1-2r) of itself plus r of each other, within 4.7 C/2^24, and applying crosstalkInvert(r) after it gives the colour back within 99 C/2^24; so codes of up to 16 bits survive. At the binary32 number next to 1/3, which is not 1/3 so that crosstalk is invertible, every entry of crosstalkInvert is infinite or NaN.", "quantifier": "all leaks and colours of binary32 in the stated ranges", "why_tests_cant": "There are about 2^126 cases; tests with a few leaks do not find the loss of accuracy towards 1/3, nor where it becomes total.", "anchors": ["include/colorsystem.hpp: Matrix3::crosstalk", "include/colorsystem.hpp: Matrix3::crosstalkInvert", "include/colorsystem.hpp: Tristimulus::apply"]}
{"id": "C123", "title": "A filter that passes more of the longer wavelengths makes light redder", "statement": "For the CIE 1931, Judd-Vos and CIE 2012 observers, a light with positive power at every wavelength and a filter with positive, strictly increasing transmittance: if the light's x is between 0.18 and 0.718, the filtered light (fromReflectanceAndLight) has a larger x; if the ratio of its Y to its Z is between 1/43 and 400, the filtered light has a larger ratio.", "quantifier": "all lights, all filters, three observers", "why_tests_cant": "Lights and filters have 400 free values each; the claim depends on the shape of whole tables of colour matching functions (a single wrong entry can break it), not on values at a few points.", "anchors": ["include/colorsystem.hpp: Observer::fromReflectanceAndLight", "include/colorsystem.hpp: Observer::fromSpectrum", "include/colorsystem.hpp: Spectrum::dot", "include/colorsystem.hpp: CIE1931", "include/colorsystem.hpp: CIE31JV", "include/colorsystem.hpp: CIE2012"]}
{"id": "C124", "title": "The hotter a black body, the bluer its light", "statement": "For the CIE 1931, Judd-Vos and CIE 2012 observers, x of Spectrum::blackbody(T) strictly decreases as T rises, for every T from 1000 K with no upper limit, and lies between 0.18 and 0.718; the ratio of Z to Y strictly increases from 1500 K. So two black bodies of 1000 K or more with the same x have the same temperature.", "quantifier": "all pairs of temperatures from 1000 K (1500 K), three observers", "why_tests_cant": "Monotonicity over a continuum without upper limit; a test compares neighbouring sample temperatures and sees neither what is between them nor what is above them.", "anchors": ["include/colorsystem.hpp: Spectrum::blackbody", "include/colorsystem.hpp: Spectrum::planck", "include/colorsystem.hpp: Observer::fromSpectrum"]}
{"id": "C125", "title": "fromCT and fromPlanckianLocus give the colour of a black body", "statement": "The chromaticity of Tristimulus::fromCT(T) differs from that which the CIE 1931 observer sees in Spectrum::blackbody(T) by at most 0.0022 in x and 0.007 in y for every T from 1000 K to 10000 K; that of fromPlanckianLocus(T) differs by at most 0.0018 in x and 0.0072 in y from 1667 K to 25000 K. So the two agree within 0.004 and 0.0142 from 1667 K to 10000 K.", "quantifier": "all temperatures in the stated ranges, all luminances other than 0", "why_tests_cant": "The three computations share no code: two fitted polynomials, and a sum over 400 wavelengths of Planck's law and a table. The bound holds at every real temperature, including both sides of each of the joints of the fits.", "anchors": ["include/colorsystem.hpp: Tristimulus::fromCT", "include/colorsystem.hpp: Tristimulus::fromPlanckianLocus", "include/colorsystem.hpp: Spectrum::blackbody", "include/colorsystem.hpp: Observer::fromSpectrum", "include/colorsystem.hpp: CIE1931"]}
{"id": "C126", "title": "No set of fewer than 28 lights can mix every spectral colour", "statement": "For the CIE 1931, Judd-Vos and CIE 2012 observers: however fewer than 28 lights of non-negative power are chosen, at least one of 28 named wavelengths between 415 and 570 nm has a colour (Observer::xyz) that no mixture of the lights with non-negative amounts has. So every RGB space (Gamut with inverse matrices) whose three primaries are colours of lights gives a negative component to one of those wavelengths.", "quantifier": "all choices of lights, all amounts, all RGB spaces with realisable primaries, three observers", "why_tests_cant": "The lights have 400 free values each and the amounts are free too; a test can only try particular primaries. The claim rests on 28 points of each table being extreme, against all other entries.", "anchors": ["include/colorsystem.hpp: Observer::xyz", "include/colorsystem.hpp: Observer::fromSpectrum", "include/colorsystem.hpp: Gamut::fromXYZ", "include/colorsystem.hpp: Gamut::toXYZ", "include/colorsystem.hpp: CIE1931", "include/colorsystem.hpp: CIE31JV", "include/colorsystem.hpp: CIE2012"]}
{"id": "C127", "title": "Metamers exist for up to 44 lights at once", "statement": "For any 44 lights or fewer and any surface with reflectances strictly between 0 and 1 there is another such surface whose fromReflectanceAndLight is the same under every one of the lights for all three observers, and yet a light under which the CIE 1931 observer sees a different Y.", "quantifier": "all choices of up to 44 lights, all surfaces", "why_tests_cant": "An existence claim for every choice of 44 spectra of 400 values; it needs the dimension of a kernel, not samples, and that no entry of the Y table is 0.", "anchors": ["include/colorsystem.hpp: Observer::fromReflectanceAndLight", "include/colorsystem.hpp: CIE1931", "include/colorsystem.hpp: CIE31JV", "include/colorsystem.hpp: CIE2012"]}
{"id": "C128", "title": "E00 of colours that differ in lightness only, and the triangle inequality", "statement": "For equal a and b, Delta::E00 is the difference of lightness over Kl times the standard's weight, exactly, for all lightnesses, a, b and Kl > 0. Consequently E00 is not a metric: for every d > 0 the way from lightness 50-d to 50+d through 50 is strictly shorter than the direct difference (black to white: 100 directly, less than 73.1 through middle grey). For colours with L in [0,100] and a, b in [-128,128] a detour saves at most a factor of 69.", "quantifier": "all real lightnesses, a, b, weights; all triples of colours in the box for the last part", "why_tests_cant": "An equation and an inequality over continua; tests compare with published pairs, none of which differ in lightness only through a third colour.", "anchors": ["include/colorsystem.hpp: Delta::E00"]}
{"id": "C129", "title": "Raising a component never lowers luminance, as executed", "statement": "In binary32, Matrix3::apply is monotone in each component of the vector in the direction of the sign of the coefficient, exactly, whenever the results are finite. So in each of the eight RGB spaces raising red or green never lowers Y of toXYZ, nor does raising blue, except in S-Gamut, S-Gamut3.Cine and ACES 2065-1, where blue has negative luminance; in the other five Y of a colour lies between those of the greys of its smallest and largest component.", "quantifier": "all pairs of ordered binary32 vectors, all matrices; all colours of magnitude up to 2^100 for the RGB spaces", "why_tests_cant": "Rounding could break an inequality that holds in exact arithmetic by one unit in the last place at isolated inputs among 2^96 pairs; sampling does not find such inputs.", "anchors": ["include/colorsystem.hpp: Matrix3::apply", "include/colorsystem.hpp: Gamut::toXYZ", "include/colorsystem.hpp: Tristimulus::apply"]}
{"id": "C130", "title": "Conversion to a wider space never makes a component negative, as executed", "statement": "For 18 pairs of the header's RGB spaces, GamutConvert in binary32 takes every colour of non-negative components up to 2^100 to finite components none of which is negative, and preserves the order of colours component by component. For BT.709 to Adobe RGB, which is also a widening in exact arithmetic, this is false as executed: pure BT.709 blue gets a negative red.", "quantifier": "all binary32 colours of non-negative components up to 2^100, 18 pairs of spaces", "why_tests_cant": "The sign of a sum of three rounded products depends on every bit of nine computed coefficients, some of which are nearly 0 (0 up to rounding for BT.709 to Adobe RGB).", "anchors": ["include/colorsystem.hpp: GamutConvert", "include/colorsystem.hpp: Tristimulus::apply", "include/colorsystem.hpp: Tristimulus::hasNegative"]}
{"id": "C131", "title": "The colour of a black body in the precision of the code", "statement": "For every binary32 temperature from 400 K to 100 million K, what the three observers see in Spectrum::blackbody, evaluated in double and float as the code does, is positive and within 0.0051 % of the exact value in each of X, Y, Z, and within 0.000103 in x and y. Between 1000 K and 10000 K the chromaticity of Tristimulus::fromCT as executed agrees with it within 0.0024 in x and 0.0072 in y.", "quantifier": "all binary32 temperatures in the ranges, luminances from 2^-90 to 2^58, all accurate pow and exp", "why_tests_cant": "Adding 400 rounded products per component; the error bound holds for all temperatures and every accurate library, and the agreement compares two computations that share no code.", "anchors": ["include/colorsystem.hpp: Spectrum::blackbody", "include/colorsystem.hpp: Spectrum::planck", "include/colorsystem.hpp: Observer::fromSpectrum", "include/colorsystem.hpp: Tristimulus::fromCT"]}
{"id": "C132", "title": "toHSV_atan in single precision", "statement": "For every colour of finite components up to 2^116, toHSV_atan returns a finite hue between 0 and 360, and the same saturation and value as toHSV bit for bit. Unless the components are equal, the hue is the angle of the colour in the chromatic plane modulo 360, up to 2e-4 degrees plus 3e-4 degrees times the largest magnitude over the spread of the components.", "quantifier": "all such binary32 colours, all atan2f accurate to 1e-6 (in any branch), all sqrtf accurate to 2^-22", "why_tests_cant": "An angle near the branch cut or near a grey is ill conditioned; the bound says how much everywhere, not at sample colours.", "anchors": ["include/colorsystem.hpp: Tristimulus::toHSV_atan", "include/colorsystem.hpp: Tristimulus::mod360", "include/colorsystem.hpp: Tristimulus::toHSV"]}
{"id": "C133", "title": "The hypotenuse of the SVD in single precision", "statement": "PYTHAG of finite binary32 sides up to 2^118 is within 5e-7 relative of the hypotenuse, though the squares of the sides may overflow; it does not depend on the order or signs of the sides, bit for bit, whatever sqrtf does; it is never smaller than a side if sqrtf is at least 1 from 1 on. A NaN second side gives +0: NaN does not propagate.", "quantifier": "all pairs of finite binary32 numbers up to 2^118; NaN with every first side", "why_tests_cant": "2^64 pairs; the failure of the naive formula is at the ends of the exponent range, and the bitwise symmetry has to survive the case distinction.", "anchors": ["include/colorsystem.hpp: SOLVER::PYTHAG"]}
{"id": "C134", "title": "E00 of colours that differ in lightness only, as executed", "statement": "For binary32 colours of equal a and b of magnitude up to 4096, lightnesses in [0,100] and weights in [1/1024,1024], Delta::E00 as executed is finite and within 5e-6 relative (plus 2^-72) of the standard's formula. So the triangle inequality fails as executed: for every d in [1,50], through 50 is computed to be strictly shorter than from 50-d to 50+d directly.", "quantifier": "all such binary32 colours and weights, all library functions that are accurate enough and send zero to zero", "why_tests_cant": "The chroma and hue parts must vanish exactly, through a chain of square roots, an arc tangent and a sine, whatever a and b are; and the errors of the remaining chain are bounded for all inputs.", "anchors": ["include/colorsystem.hpp: Delta::E00"]}
{"id": "C135", "title": "Structured documents survive the stream", "statement": "Whatever a MemoryStream holds (up to 2147483647 bytes in all, cursor at the end), a document appended to it - scalars of every type in any byte orders, non-empty raw blocks, length-prefixed texts, and sections nested to any depth whose 32- or 64-bit pointer is reserved first and patched afterwards - is read back field by field by a reader that knows only the layout, whichever sections it jumps over by their pointers: every value, block and text is the one written and every pointer is the position after its section. The earlier content is unchanged, the document takes exactly its size, and the reader stops at its end.", "quantifier": "all stream contents, all documents, all choices of sections to skip, with and without asserts", "why_tests_cant": "Documents are trees of any shape and size with values of 14 types; a test writes one shape. Back-patching moves the cursor back and forth through earlier bytes, so an error may corrupt any earlier field.", "anchors": ["include/colorsystem.hpp: MemoryStream::write", "include/colorsystem.hpp: MemoryStream::read", "include/colorsystem.hpp: MemoryStream::putSubstr", "include/colorsystem.hpp: MemoryStream::get_string", "include/colorsystem.hpp: MemoryStream::putPointer32", "include/colorsystem.hpp: MemoryStream::adjustPointer32", "include/colorsystem.hpp: MemoryStream::putPointer64", "include/colorsystem.hpp: MemoryStream::adjustPointer64", "include/colorsystem.hpp: MemoryStream::seekTo", "include/colorsystem.hpp: MemoryStream::setReadEndian", "include/colorsystem.hpp: MemoryStream::setWriteEndian"]}
{"id": "C136", "title": "Reading untrusted bytes", "statement": "Whatever bytes a stream holds, a reader of any layout of scalars, texts and jumps over sections changes no byte and has no undefined behaviour: without asserts it always finishes; with asserts, from a cursor inside, it finishes with the cursor inside or aborts on an assert. The jump aborts exactly for pointers outside the content, where a 64-bit pointer counts modulo 2^32. Raw blocks are not safe: read() at the end of the content leaves the buffer even for 0 bytes, so feof must be asked first; and without asserts the pointer FF FF FF FF makes a following block read leave the buffer.", "quantifier": "all byte contents up to 2147483647 bytes, all layouts, all cursors", "why_tests_cant": "Hostile content is arbitrary; a fuzzer tries some. Absence of undefined behaviour for every content and layout is an induction over the layout.", "anchors": ["include/colorsystem.hpp: MemoryStream::read", "include/colorsystem.hpp: MemoryStream::get_string", "include/colorsystem.hpp: MemoryStream::getPointer32", "include/colorsystem.hpp: MemoryStream::getPointer64", "include/colorsystem.hpp: MemoryStream::seekTo", "include/colorsystem.hpp: MemoryStream::feof", "include/colorsystem.hpp: MemoryStream::read_at", "include/colorsystem.hpp: MemoryStream::fseek"]}
{"id": "C137", "title": "HLG images survive a trip through another colour space, except dark channels beside bright ones", "statement": "In binary32, an HLG pixel decoded, taken to XYZ by any predefined gamut (or to any other RGB space by GamutConvert) and back, and encoded again has the codes it had: with up to 7 bits always; with 8 bits if no channel decodes to more than 3.8; with 10 bits if none to more than 0.23 or if the channels differ by a factor of at most 200; with 12 bits if by at most 50, and for every grey including black. It is false of all 10-bit pixels: beside bright green and blue a red of code 0 returns as code 1.", "quantifier": "all codes of all scales 0..N with N up to 4095 under the stated conditions, all predefined gamuts and pairs of RGB spaces, all accurate libraries", "why_tests_cant": "2^36 pixels per gamut pair and every admissible libm; near black the square root amplifies rounding without bound.", "anchors": ["include/colorsystem.hpp: OTF::toScreen", "include/colorsystem.hpp: OTF::toScene", "include/colorsystem.hpp: OTF::Y_to_HLG", "include/colorsystem.hpp: OTF::HLG_to_Y", "include/colorsystem.hpp: Gamut::toXYZ", "include/colorsystem.hpp: Gamut::fromXYZ", "include/colorsystem.hpp: GamutConvert"]}
{"id": "C138", "title": "S-Log and S-Log2 footage survives a trip through another colour space, except codes below black", "statement": "In the precision of the code, S-Log and S-Log2 pixels of up to 11 bits, no code below black (3.003 % and 8.82 % of the scale), decoded, taken to XYZ by any predefined gamut (or to another RGB space) and back, and encoded again have the codes they had, however different the channels. Codes below black are lost: the S-Log encoder emits nothing below 0.02999, and S-Log2 decoding followed by encoding yields at least 0.08815.", "quantifier": "all codes of all scales 0..N with N up to 2047 from black up, all predefined gamuts and pairs of RGB spaces, all accurate libraries", "why_tests_cant": "2^33 pixels per gamut pair and every admissible libm, with log10 evaluated in double.", "anchors": ["include/colorsystem.hpp: OTF::Y_to_SLog", "include/colorsystem.hpp: OTF::SLog_to_Y", "include/colorsystem.hpp: OTF::Y_to_SLog2", "include/colorsystem.hpp: OTF::SLog2_to_Y", "include/colorsystem.hpp: Gamut::toXYZ", "include/colorsystem.hpp: Gamut::fromXYZ", "include/colorsystem.hpp: GamutConvert"]}
{"id": "C139", "title": "sRGB images can be carried as HLG with three times as many codes, not with fewer than twice", "statement": "In binary32, an sRGB pixel of N+1 levels per channel (N up to 1023), decoded, encoded as HLG, rounded in any way to nearest codes of a scale 0..M with 3N <= M <= 65535 (8 bits in 10, 10 bits in 12), decoded and encoded as sRGB, has the codes it had; nearest codes exist. If M <= 2N-2, however the signals are rounded, two levels of sRGB get the same HLG code, so no receiver can restore the image.", "quantifier": "all pixels, all N up to 1023 and M up to 65535, all roundings to nearest, all accurate libraries", "why_tests_cant": "All pairs of scales, all tie-breaking rules and every admissible libm; the margin at 8 in 10 bits is a fifth of a code.", "anchors": ["include/colorsystem.hpp: OTF::toScreen", "include/colorsystem.hpp: OTF::toScene", "include/colorsystem.hpp: OTF::Y_to_HLG", "include/colorsystem.hpp: OTF::HLG_to_Y", "include/colorsystem.hpp: OTF::Y_to_sRGB", "include/colorsystem.hpp: OTF::sRGB_to_Y"]}
{"id": "C140", "title": "Chains of conversions between RGB spaces accumulate error at most linearly", "statement": "In binary32, a colour with components up to C (2^-60 to 2^60) taken through any chain of n <= 3000 GamutConvert conversions between the published RGB spaces ends within 7e-5*n*C of the components the published primaries prescribe for the last space; if the chain returns to the space it began in, no component has changed by more than 1.7e-5*n*C. An sRGB-coded image of N+1 levels survives every closed chain with n*N <= 2200 (eight conversions at 8 bits).", "quantifier": "all chains of up to 3000 conversions among the RGB spaces, all colours, all codes, all accurate libraries", "why_tests_cant": "There are 8^n chains of n conversions; errors of one conversion may be amplified by the following ones, so a per-conversion test says nothing about the chain.", "anchors": ["include/colorsystem.hpp: GamutConvert", "include/colorsystem.hpp: Tristimulus::apply", "include/colorsystem.hpp: OTF::toScreen", "include/colorsystem.hpp: OTF::toScene"]}
{"id": "C141", "title": "The solid of surface colours", "statement": "For a light that is nowhere negative, the colours of surfaces with reflectances in 0..1 form a convex set symmetric about half the colour of the light. A surface that is 0 or 1 by the sign of a weighting of the colour-matching functions has the greatest weighted tristimulus value of all surfaces, and any surface reaching it agrees with it wherever the weighting is not zero, so colours of such surfaces have no metamers if the light is positive. Only the perfect reflector is as light as white and only the absorber as dark as black (CIE 1931 and Judd-Vos). The textbook rule that optimal colours have at most two transitions is false of the tables: for each observer and every everywhere-positive light there is an optimal colour no surface with at most two transitions has.", "quantifier": "all lights, all reflectances, all weightings", "why_tests_cant": "Surfaces are points of a 400-dimensional cube; optimality and the absence of metamers compare one surface with all of them.", "anchors": ["include/colorsystem.hpp: Observer::fromReflectanceAndLight", "include/colorsystem.hpp: Observer::fromSpectrum", "include/colorsystem.hpp: CIE1931", "include/colorsystem.hpp: CIE31JV", "include/colorsystem.hpp: CIE2012"]}
{"id": "C142", "title": "Back-substitution in single precision", "statement": "svbksb on finite binary32 arrays of any shape up to 4096 by 4096, with |v| <= 2, singular values zero or at least 2^-40 in magnitude and moderate right-hand sides, is defined and each component is within 1.02*(m+n+3)*2^-24 times the sum of the magnitudes of its terms (plus 2^-80) of the value the same text computes exactly. With entries of u and v at most 1, |b| <= B and nonzero singular values at least W the error is at most 1.02*(m+n+3)*2^-24*m*n*B/W + 2^-80.", "quantifier": "all shapes up to 4096 by 4096, all finite inputs within the bounds", "why_tests_cant": "Rounding errors accumulate through two nested sums of up to 4096 terms and a division by arbitrarily small singular values; the zero test is an exact comparison.", "anchors": ["include/colorsystem.hpp: SOLVER::svbksb"]}
{"id": "C143", "title": "Decoding keeps the codes of an image in order, except BT.709 at twelve bits", "statement": "As executed (binary32, or mixed with double for S-Log3), decoded light is strictly ordered as the signals are, once they differ by 1e-5 (sRGB, S-Log, S-Log2 from black, S-Log3, power laws with exponent 1..4 above 2^-16), 3e-6 (HLG), 2.498e-4 (BT.709) or 1.95e-4 (PQ from 1/4096). So a larger code gives more light at 16 bits for sRGB, HLG, S-Log, S-Log3 and power laws, up to N = 4000 for BT.709 and at 12 bits for PQ. It is false of BT.709 at 12 bits: code 332 decodes to less light than code 331.", "quantifier": "all pairs of signals and of codes, all accurate libraries", "why_tests_cant": "Order is a property of pairs of signals and of every admissible libm; the reversal of BT.709 occurs at one pair of codes of one bit depth.", "anchors": ["include/colorsystem.hpp: OTF::toScene", "include/colorsystem.hpp: OTF::sRGB_to_Y", "include/colorsystem.hpp: OTF::BT709_to_Y", "include/colorsystem.hpp: OTF::HLG_to_Y", "include/colorsystem.hpp: OTF::ST2084_to_Y", "include/colorsystem.hpp: OTF::SLog_to_Y", "include/colorsystem.hpp: OTF::SLog2_to_Y", "include/colorsystem.hpp: OTF::SLog3_to_Y", "include/colorsystem.hpp: OTF::degamma"]}
{"id": "C144", "title": "Conversions between RGB spaces with chromatic adaptation keep greys and images", "statement": "In binary32, a colour with components up to C (2^-60 to 2^80) taken from one published RGB space to another through XYZ with the Bradford adaptation of the white of the one to the white of the other ends within 2.3e-5*C of the components of the colour whose cone responses are the given ones times white over white. Every grey of magnitude y stays itself within 2.3e-5*y for every pair of spaces. A closed chain of n <= 500 such conversions changes no component by more than 9.4e-5*n*C. An sRGB-coded image of N+1 levels (N <= 2200) in any space but ACES 2065 survives every closed chain with n*N <= 580: there and back at 8 bits. Without the adaptation it is false that greys stay grey: GamutConvert from Rec709 to DCI-P3 gives every grey at least 9 % more red, 15 % more blue and 4 % less green.", "quantifier": "all pairs of RGB spaces, all chains up to 500 conversions, all colours, all codes, all accurate libraries", "why_tests_cant": "The composition of three matrices, one of them computed from quotients of cone responses, is judged on a continuum of colours and on every chain of spaces; tests look at a few colours of one pair.", "anchors": ["include/colorsystem.hpp: Bradford", "include/colorsystem.hpp: Gamut::primaryWhite", "include/colorsystem.hpp: Gamut::toXYZ", "include/colorsystem.hpp: Gamut::fromXYZ", "include/colorsystem.hpp: GamutConvert", "include/colorsystem.hpp: Tristimulus::apply", "include/colorsystem.hpp: OTF::toScreen", "include/colorsystem.hpp: OTF::toScene"]}
{"id": "C145", "title": "Delta::ICtCp in single precision", "statement": "For colours none of whose cone responses is small compared with their components (at least 1/16 of a bound C on them, 2^-60 <= C <= 2^100), Delta::ICtCp in binary32 is finite and within 7.7e-4 (0.56 of the customary unit 1/720) of the difference the standard prescribes, whatever library accurate to 2^-22 is used. Hence differences that differ by more than 1.54e-3 are ordered correctly, the triangle inequality holds up to 2.4e-3, and a colour has exactly no difference from itself. Any two colours whose cone responses all exceed 100.001 have exactly no computed difference, however far apart they are.", "quantifier": "all pairs and triples of such colours, all accurate libraries", "why_tests_cant": "The error of a distance of images under a steep nonlinear curve has to be bounded for every pair of colours and every admissible libm.", "anchors": ["include/colorsystem.hpp: Delta::ICtCp", "include/colorsystem.hpp: XYZ_to_ICtCp", "include/colorsystem.hpp: OTF::Y_to_ST2084"]}
{"id": "C146", "title": "Encoding keeps amounts of light in order", "statement": "As executed (binary32, or mixed with double for S-Log), of two amounts of light the larger gets the strictly larger signal once they differ by 4e-6 (sRGB), 3e-6 (BT.709, the knee included), 6e-6*(1+y) (HLG, up to 12), 4.5e-6*(y+0.0376) (S-Log, up to 10) or 1.1e-5*(y+0.0532) (S-Log2, up to 100), y being the larger, or when y is 0.07 % larger (PQ, from 1e-12 to 100). So an image of linear light with up to 16 bits keeps the order of its codes when it is encoded as sRGB, BT.709, HLG or S-Log. (Without a least distance it is false of sRGB already in exact arithmetic, C26.)", "quantifier": "all pairs of amounts of light and of codes, all accurate libraries", "why_tests_cant": "Order is a property of pairs and of every admissible libm; the segments of the curves do not meet exactly.", "anchors": ["include/colorsystem.hpp: OTF::toScreen", "include/colorsystem.hpp: OTF::Y_to_sRGB", "include/colorsystem.hpp: OTF::Y_to_BT709", "include/colorsystem.hpp: OTF::Y_to_HLG", "include/colorsystem.hpp: OTF::Y_to_SLog", "include/colorsystem.hpp: OTF::Y_to_SLog2", "include/colorsystem.hpp: OTF::Y_to_ST2084"]}
{"id": "C147", "title": "8-bit sRGB images can be carried as 12-bit PQ, not as 10-bit PQ", "statement": "In binary32, an sRGB pixel of N+1 levels per channel (N up to 255), decoded, encoded as PQ (ST 2084, light 1 being 100 cd/m2), rounded in any way to nearest codes of a scale 0..M with 4095 <= M <= 65535, decoded and encoded as sRGB, has the codes it had; for black this uses powf(0,y) = 0 (ISO C, annex F). Nearest codes exist. If M <= 1023, however the signals of the 256 levels are rounded to nearest codes, two levels of sRGB get the same PQ code, so no receiver can restore the image.", "quantifier": "all pixels, all N up to 255 and M up to 65535, all roundings to nearest, all accurate libraries", "why_tests_cant": "All tie-breaking rules and every admissible libm; that 10 bits lose levels rests on a margin of a sixth of a code over 31 levels.", "anchors": ["include/colorsystem.hpp: OTF::toScreen", "include/colorsystem.hpp: OTF::toScene", "include/colorsystem.hpp: OTF::Y_to_ST2084", "include/colorsystem.hpp: OTF::ST2084_to_Y", "include/colorsystem.hpp: OTF::Y_to_sRGB", "include/colorsystem.hpp: OTF::sRGB_to_Y"]}
{"id": "C148", "title": "8-bit BT.709 video can be carried as 12-bit PQ, not as 10-bit PQ", "statement": "In binary32, a BT.709 pixel of N+1 levels per channel (N up to 255), decoded, encoded as PQ (ST 2084, light 1 being 100 cd/m2), rounded in any way to nearest codes of a scale 0..M with 4095 <= M <= 65535, decoded and encoded as BT.709, has the codes it had, even where the two segments of the curve do not meet; for black this uses powf(0,y) = 0 (ISO C, annex F). Nearest codes exist. If M <= 1023, however the signals of the 256 levels are rounded to nearest codes, two levels of BT.709 get the same PQ code.", "quantifier": "all pixels, all N up to 255 and M up to 65535, all roundings to nearest, all accurate libraries", "why_tests_cant": "All tie-breaking rules and every admissible libm; the margin is one percent of half a level, and the knee of BT.709 is a discontinuity hit by single floats.", "anchors": ["include/colorsystem.hpp: OTF::toScreen", "include/colorsystem.hpp: OTF::toScene", "include/colorsystem.hpp: OTF::Y_to_ST2084", "include/colorsystem.hpp: OTF::ST2084_to_Y", "include/colorsystem.hpp: OTF::Y_to_BT709", "include/colorsystem.hpp: OTF::BT709_to_Y"]}
