{"id": "C01", "title": "Bit reader returns the byte vector as one MSB-first bit stream", "statement": "For any byte vector and any sequence of Chomp::chomp requests that have all been answered so far, each answer Some(v) is the next nr_bits bits of the concatenated bytes, most significant bit first, right-aligned in the u8, and those bits are then consumed.", "quantifier": "every byte vector, every sequence of requested bit counts", "why_tests_cant": "unbounded vectors and request histories; boundaries of bytes can be straddled at every offset", "anchors": ["src/util/chomp.rs: Chomp::new, Chomp::chomp, Chomp::nibble"]}
{"id": "C02", "title": "Bit reader refuses exactly the impossible requests", "statement": "As long as no earlier request was refused, chomp(n) returns None exactly when n is outside 1..=8 or fewer than n unread bits are left.", "quantifier": "every byte vector, every answered request history, every next n", "why_tests_cant": "the code compares with a counter that is not the number of unread bits; only an invariant over all histories shows the answer is still right", "anchors": ["src/util/chomp.rs: Chomp::new, Chomp::chomp, Chomp::nibble"]}
{"id": "C03", "title": "A refused bit request is harmless", "statement": "After a refused request (None) the unread bits are still there: a later request for at most the number of unread bits (and at most 8) is answered with those bits.", "quantifier": "every byte vector, every request history including refusals", "why_tests_cant": "depends on the history of refusals; the shipped example happens not to hit it", "anchors": ["src/util/chomp.rs: Chomp::new, Chomp::chomp, Chomp::nibble"]}
{"id": "C04", "title": "Bit reader never panics and never returns wrong bits, whatever the history", "statement": "For any byte vector and any sequence of requests, including refused ones and illegal counts, no request panics (no arithmetic underflow, no shift overflow, no unwrap on None) and every Some answer is exactly the next unread bits.", "quantifier": "every byte vector, every request history including refusals", "why_tests_cant": "infinite set of histories; the refusal path changes internal counters", "anchors": ["src/util/chomp.rs: Chomp::new, Chomp::chomp, Chomp::nibble"]}
{"id": "C05", "title": "16-bit reads are big-endian bit reads", "statement": "On a reader with no earlier refusal, chomp_or_u16(n, err) for 1 <= n <= 16 returns Ok of the next n bits as an MSB-first number when n bits are unread, consumes exactly n bits, and returns err (and only err) otherwise.", "quantifier": "every reader state, every n in 1..=16", "why_tests_cant": "every bit offset times every length times every content", "anchors": ["src/util/chomp.rs: Chomp::chomp_or_u16, Chomp::chomp_or"]}
{"id": "C06", "title": "16-bit reads of more than 16 bits return the error", "statement": "chomp_or_u16(n, err) with n > 16 returns err, as documented.", "quantifier": "every reader state, every n in 17..=255", "why_tests_cant": "all u8 counts and all states", "anchors": ["src/util/chomp.rs: Chomp::chomp_or_u16"]}
{"id": "C07", "title": "Numeric segments round-trip", "statement": "For every version 1..=40 and every digit string whose length fits the character count field, decoding the ISO 18004 numeric encoding of the string yields exactly the string.", "quantifier": "every version 1..40, every digit string", "why_tests_cant": "strings of every length (mod 3), leading zeros in groups", "anchors": ["src/decode/qr/data.rs: data", "src/decode/qr/data.rs: numeric"]}
{"id": "C08", "title": "Alphanumeric segments round-trip", "statement": "For every version 1..=40 and every string over the 45-character QR alphabet whose length fits the count field, decoding its ISO 18004 alphanumeric encoding yields exactly the string.", "quantifier": "every version 1..40, every alphanumeric string", "why_tests_cant": "all strings, both parities", "anchors": ["src/decode/qr/data.rs: data", "src/decode/qr/data.rs: alphanumeric, ALPHANUMERIC"]}
{"id": "C09", "title": "Byte segments: ISO 8859-1 text and detected UTF-8 text round-trip", "statement": "For every version and every byte string that fits the count field: if no byte is 0xC3 the result is the ISO 8859-1 reading of the bytes; if some byte is 0xC3 the result is the UTF-8 reading when the bytes are valid UTF-8, and an error otherwise.", "quantifier": "every version 1..40, every byte string", "why_tests_cant": "all byte strings", "anchors": ["src/decode/qr/data.rs: data", "src/decode/qr/data.rs: eight_bit"]}
{"id": "C10", "title": "UTF-8 text in byte mode is recovered", "statement": "A byte segment holding the UTF-8 encoding of a text decodes to that text.", "quantifier": "every version, every Unicode text", "why_tests_cant": "all Unicode strings; the 0xC3 heuristic decides", "anchors": ["src/decode/qr/data.rs: eight_bit"]}
{"id": "C11", "title": "Mixed segments, terminator and padding", "statement": "A bit stream made of any number of numeric, alphanumeric and byte segments, followed either by the 0000 terminator and arbitrary padding or by fewer than 4 bits, decodes to the concatenation of the segments' texts.", "quantifier": "every version, every list of segments, every padding", "why_tests_cant": "unbounded segment lists and every bit alignment", "anchors": ["src/decode/qr/data.rs: data"]}
{"id": "C12", "title": "Unsupported modes are reported, never silently skipped", "statement": "When, after any number of well-formed segments, a mode nibble other than 0000, 0001, 0010, 0100 follows, the result is an error naming the mode.", "quantifier": "every version, every prefix of segments, every other mode nibble, every suffix", "why_tests_cant": "all prefixes and suffixes", "anchors": ["src/decode/qr/data.rs: data"]}
{"id": "C13", "title": "Truncated segments are errors, never short answers", "statement": "If the bits run out inside a segment (in the count field or in the payload), the result is an error; no partial text is returned.", "quantifier": "every version, every segment list, every cut point inside the last segment", "why_tests_cant": "every cut point of every stream", "anchors": ["src/decode/qr/data.rs: data"]}
{"id": "C14", "title": "A segment yields exactly the declared number of characters", "statement": "When a numeric segment with declared character count n decodes, it contributes exactly n characters, all digits.", "quantifier": "every version, every bit content", "why_tests_cant": "10-bit groups can hold 1000..1023, which no encoder-produced test contains", "anchors": ["src/decode/qr/data.rs: numeric"]}
{"id": "C15", "title": "Payload decoding never panics", "statement": "data(bytes, version) returns Ok or Err for every byte vector and every version.", "quantifier": "every byte vector, every version", "why_tests_cant": "all byte vectors", "anchors": ["src/decode/qr/data.rs: data", "src/decode/qr/data.rs: alphanumeric"]}
{"id": "C16", "title": "GF(256) arithmetic is polynomial arithmetic modulo x^8+x^4+x^3+x^2+1", "statement": "GF8 addition is xor, multiplication is the carry-less product reduced by 0x11D; with them GF8 is a field with primitive element 2, EXP8[i] = 2^i and LOG8 is its inverse.", "quantifier": "all pairs/triples of field elements, all exponents", "why_tests_cant": "16.7 million triples; unit tests check three", "anchors": ["src/decode/qr/galois.rs: GF8, EXP8, LOG8"]}
{"id": "C17", "title": "GF(256) division inverts multiplication", "statement": "For b != 0, (a*b)/b = a and (a/b)*b = a.", "quantifier": "all pairs of elements with nonzero divisor", "why_tests_cant": "the tests only use nonzero numerators", "anchors": ["src/decode/qr/galois.rs: impl Div for GF8"]}
{"id": "C18", "title": "GF(16) arithmetic is polynomial arithmetic modulo x^4+x+1", "statement": "GF4 addition is xor, multiplication is the carry-less product reduced by 0x13, division by a nonzero element inverts multiplication of nonzero elements.", "quantifier": "all pairs/triples of field elements", "why_tests_cant": "finite but untested table", "anchors": ["src/decode/qr/galois.rs: GF4, EXP4, LOG4"]}
{"id": "C19", "title": "Clean format information is read correctly from either copy", "statement": "For each of the 4 EC levels and 8 masks, a symbol of any version whose first format copy carries the ISO BCH(15,5) code word xor 101010000010010 is read as that level and that mask; likewise from the second copy when the first is unreadable.", "quantifier": "every version, every level, every mask, every content of the other modules", "why_tests_cant": "all symbol contents and sizes", "anchors": ["src/decode/qr/format.rs: format, format1, format2, correct"]}
{"id": "C20", "title": "Up to two flipped format bits never cause a misread", "statement": "If at most two of the 15 bits of the first format copy are flipped, the format is either read correctly from it or it is rejected and the second copy is used; it is rejected exactly when the flips include the last bit of the copy.", "quantifier": "every version, level, mask, every flip set of size <= 2", "why_tests_cant": "all flip sets times all symbols", "anchors": ["src/decode/qr/format.rs: correct"]}
{"id": "C21", "title": "Up to three flipped format bits are corrected", "statement": "BCH(15,5) has distance 7: with at most three flipped bits in a format copy, the level and mask are still read correctly.", "quantifier": "every level, mask, every flip set of size <= 3", "why_tests_cant": "575 flip sets times 32 words", "anchors": ["src/decode/qr/format.rs: correct"]}
{"id": "C22", "title": "Second format copy is a pure fallback", "statement": "If the first copy is readable the second one has no influence; if the first is unreadable the result is exactly what the second copy yields; if both are unreadable the result is the error 'Format information corrupted'.", "quantifier": "every grid", "why_tests_cant": "all grids", "anchors": ["src/decode/qr/format.rs: format"]}
{"id": "C23", "title": "The eight data masks are the ISO masks", "statement": "Reading a module through mask k at column x, row y returns the module value xor the ISO 18004 mask condition for (row y, column x); masking twice is the identity.", "quantifier": "every mask, every coordinate, every grid", "why_tests_cant": "unbounded coordinates", "anchors": ["src/decode/qr/format.rs: mask, qrmask"]}
{"id": "C24", "title": "Exactly the non-function modules are read as data", "statement": "For every version 1..=40, a module is treated as data iff it is not part of a finder pattern with separator, timing pattern, alignment pattern, format information, version information or the dark module, as defined by ISO 18004.", "quantifier": "every version 1..40, every module of the symbol", "why_tests_cant": "408 thousand modules; one test checks one version's alignment columns", "anchors": ["src/decode/qr/blocks.rs: is_data, is_alignment_coord, alignment_location"]}
{"id": "C25", "title": "Modules are read in ISO placement order, each exactly once", "statement": "For every version, the sequence of data modules read is duplicate-free, covers every data module, and is the ISO two-column zigzag (upwards first from the lower right corner, skipping column 6).", "quantifier": "every version", "why_tests_cant": "structure over all sizes", "anchors": ["src/decode/qr/blocks.rs: blocks, y_range"]}
{"id": "C26", "title": "The block table is the ISO table", "statement": "For every version 1..=40 and level the blocks' total codewords sum to the symbol's capacity, data and EC codeword counts per block agree with ISO 18004, and the correction capacity never exceeds half of the EC codewords.", "quantifier": "all 160 version/level pairs", "why_tests_cant": "160 rows of hand-typed numbers", "anchors": ["src/decode/qr/mod.rs: block_info"]}
{"id": "C27", "title": "De-interleaving inverts ISO interleaving", "statement": "Feeding the ISO-interleaved codeword sequence of any family of blocks (data columns first, shorter blocks skipped, then EC columns) reproduces exactly those blocks.", "quantifier": "every family of blocks with equal EC length, every content", "why_tests_cant": "unbounded block counts and lengths", "anchors": ["src/decode/qr/blocks.rs: Blocks::push, Blocks::inc_count, Codewords::add_bit"]}
{"id": "C28", "title": "Reading the codewords of a well-formed grid always succeeds", "statement": "For every version 1..=40, level, mask and every grid of side*side pixels, the block reader returns Ok, does not panic, and each block has the length of the table row.", "quantifier": "every version, level, mask, grid content", "why_tests_cant": "all grids", "anchors": ["src/decode/qr/blocks.rs: blocks"]}
{"id": "C29", "title": "Symbols with an unknown version are rejected with an error", "statement": "A grid whose version is 0 or above 40 (the detector does not bound the version) decodes to Err, never Ok.", "quantifier": "every version outside 1..40, every grid", "why_tests_cant": "unbounded versions", "anchors": ["src/decode/qr/mod.rs: block_info", "src/decode/qr/decoder.rs: QRDecoder::decode"]}
{"id": "C30", "title": "Error-free blocks are returned untouched", "statement": "If a block is a Reed-Solomon code word (divisible by the generator polynomial of its EC length) correction returns it unchanged with error count 0.", "quantifier": "every table row, every code word", "why_tests_cant": "256^19 and more code words per row", "anchors": ["src/decode/qr/correct.rs: correct_with_error_count, calculate_syndromes, syndrome"]}
{"id": "C31", "title": "Errors up to the correction capacity are repaired", "statement": "If a code word is corrupted in at most ec_cap codewords, correction returns the original code word.", "quantifier": "every table row, every code word, every error pattern of weight <= ec_cap", "why_tests_cant": "astronomically many patterns; needs algebra", "anchors": ["src/decode/qr/correct.rs: find_locs, calculate_distances, solve"]}
{"id": "C32", "title": "An accepted block is a code word", "statement": "Whenever correction returns Ok(block), all checked syndromes of that block are zero, i.e. uncorrectable blocks are reported as errors.", "quantifier": "every table row, every received block", "why_tests_cant": "all received blocks", "anchors": ["src/decode/qr/correct.rs: correct_with_error_count"]}
{"id": "C33", "title": "The reported error count is the number of changed bits", "statement": "Whenever correction returns Ok((block', n)), n is the Hamming distance in bits between the received block and block'.", "quantifier": "every table row, every received block", "why_tests_cant": "all received blocks", "anchors": ["src/decode/qr/correct.rs: correct_with_error_count"]}
{"id": "C34", "title": "Correction never panics and keeps the block length", "statement": "For every table row and every block of total_per bytes, correction returns Ok of a block of the same length, or Err; no index is out of range.", "quantifier": "every table row, every received block", "why_tests_cant": "index safety depends on the number of roots of a data-dependent polynomial", "anchors": ["src/decode/qr/correct.rs"]}
{"id": "C35", "title": "Symbols built to the standard decode to their message", "statement": "For every version 1..=40, level, mask and segment list that fits, the symbol built as ISO 18004 prescribes (bit stream, padding, RS encoding, interleaving, placement, masking, format information) decodes to the message, with errors = 0.", "quantifier": "every version, level, mask, message", "why_tests_cant": "all messages in all 1280 symbol kinds", "anchors": ["src/decode/qr/decoder.rs: QRDecoder::decode, QRDecoderWithInfo::decode"]}
{"id": "C36", "title": "Damage outside data and first format copy is irrelevant", "statement": "Two grids of the same version that agree on all data modules and on the first, readable, format copy decode to the same result (finder, timing, alignment, version information, dark module and second format copy are not consulted).", "quantifier": "every pair of grids", "why_tests_cant": "all pairs of grids", "anchors": ["src/decode/qr/decoder.rs", "src/decode/qr/blocks.rs", "src/decode/qr/format.rs"]}
{"id": "C37", "title": "The decoder with info returns the same text or the same error", "statement": "QRDecoderWithInfo succeeds iff QRDecoder succeeds, with the same text; otherwise both fail with the same error.", "quantifier": "every input", "why_tests_cant": "all inputs", "anchors": ["src/decode/qr/decoder.rs"]}
{"id": "C38", "title": "Extraction errors are passed on unchanged", "statement": "decode(Err(e)) = Err(e) for both decoders.", "quantifier": "every error value", "why_tests_cant": "all error values", "anchors": ["src/decode/qr/decoder.rs", "src/decode/mod.rs: Decode"]}
{"id": "C39", "title": "QRInfo describes the symbol", "statement": "On success info.version is the grid's version, info.ec_level the level in the format information, info.errors the number of corrected bits and info.total_data the number of bits in data and error correction codewords (as documented).", "quantifier": "every grid that decodes", "why_tests_cant": "all grids", "anchors": ["src/decode/qr/decoder.rs: QRDecoderWithInfo", "src/util/qr.rs: QRInfo"]}
{"id": "C40", "title": "One result per detected location, in order, independent of the others", "statement": "Decoder::decode returns exactly one result per detected location, in detection order; each depends only on the prepared image and its own location, so a failing code never hides another one; no location gives an empty list.", "quantifier": "every image, all component implementations", "why_tests_cant": "arbitrary user components", "anchors": ["src/decoder.rs: Decoder::decode"]}
{"id": "C41", "title": "Builder: build panics iff a component is missing, the last setting wins", "statement": "For any sequence of prepare/detect/qr calls, build panics iff one of the three was never set; otherwise the decoder uses the last component given for each slot.", "quantifier": "every call sequence", "why_tests_cant": "every call history", "anchors": ["src/decoder.rs: DecoderBuilder"]}
{"id": "C42", "title": "Grid indexing converts pixels to bits row-major", "statement": "qr_data[[x,y]] is 1 iff the pixel y*side+x is 0; for a grid of side*side pixels no in-range coordinate panics.", "quantifier": "every grid and coordinate", "why_tests_cant": "all grids", "anchors": ["src/util/qr.rs: QRData::new, Index"]}
{"id": "C43", "title": "Preparation yields a black/white image of the same size", "statement": "For every image on which it does not panic, BlockedMean::prepare returns an image of the same dimensions with only pixels 0 and 255.", "quantifier": "every image, block size, mean size", "why_tests_cant": "all images", "anchors": ["src/prepare/blockedmean.rs"]}
{"id": "C44", "title": "Preparation thresholds against the local mean", "statement": "An output pixel is white iff the mean of the grey values in its window of blocks is above 250, or at least 5 and below the pixel's grey value; the floating point comparison agrees with the exact rational one.", "quantifier": "every image below 2^32 pixels per side", "why_tests_cant": "floating-point rounding for all sums", "anchors": ["src/prepare/blockedmean.rs: to_block_mean_map, to_threshold"]}
{"id": "C45", "title": "Preparation never panics", "statement": "prepare returns for every image.", "quantifier": "every image, block size, mean size", "why_tests_cant": "small images are not in the test set", "anchors": ["src/prepare/blockedmean.rs: range"]}
{"id": "C46", "title": "A uniformly grey image prepares to a uniform image", "statement": "If all pixels have grey value c the result is all white when c > 250 and all black otherwise.", "quantifier": "every size, every c", "why_tests_cant": "all sizes", "anchors": ["src/prepare/blockedmean.rs"]}
{"id": "C47", "title": "Within one block brighter stays brighter", "statement": "For two pixels in the same block, the output of the brighter one is not darker than that of the other.", "quantifier": "every image and pixel pair in a block", "why_tests_cant": "all images", "anchors": ["src/prepare/blockedmean.rs: to_threshold"]}
{"id": "C48", "title": "Detected locations are proper QR geometries", "statement": "Every detected location has version >= 1 and a module size of at least a pixel, consists of three different points inside the image, is stored so that top_right/bottom_left have the orientation of an unmirrored code, has nearly perpendicular sides of nearly the same length, and its version fits the distance of the finder patterns.", "quantifier": "every image of fewer than 2^63 pixels", "why_tests_cant": "all images", "anchors": ["src/detect/linescan.rs: find_qr, find_qr_internal, detect"]}
{"id": "C49", "title": "Detection never panics", "statement": "LineScan::detect returns for every grey image, of any size and content.", "quantifier": "every image of fewer than 2^63 pixels (a Rust Vec cannot hold more)", "why_tests_cant": "float coordinates turned into pixel indices for all images", "anchors": ["src/detect/linescan.rs"]}
{"id": "C50", "title": "No finder-like runs, no detections", "statement": "If no row contains enough colour changes to form a finder pattern, that is at most three (e.g. a uniform image), detect returns no location.", "quantifier": "every such image", "why_tests_cant": "all sizes", "anchors": ["src/detect/linescan.rs"]}
{"id": "C51", "title": "Perfect finder patterns are accepted at every scale", "statement": "Run lengths k,k,3k,k,k are accepted as a finder pattern with module size k, for every k >= 1; run lengths with a missing colour are never accepted; what is accepted is finder shaped in exact arithmetic, although the test computes with rounded numbers.", "quantifier": "every scale k", "why_tests_cant": "all scales", "anchors": ["src/detect/linescan.rs: looks_like_finder, est_mod_size"]}
{"id": "C52", "title": "Extraction yields a well-formed grid made of image pixels", "statement": "When extract returns Ok, the grid has side*side entries with side = 17+4*version, the location's version, and every entry is a pixel of the prepared image.", "quantifier": "every image and location", "why_tests_cant": "all images", "anchors": ["src/extract/qr/mod.rs: extract"]}
{"id": "C53", "title": "Extraction samples the bilinear module grid", "statement": "Every module of a returned grid is the pixel nearest to its position, up to a hundredth of a pixel, where positions are bilinear in row and column, pass through the three finder centres and, from version 2 on, through the middle of a dark spot of the image (the alignment pattern), which is around the centre of what can be an alignment pattern in one of the places where it is looked for (C72), with none before it that must be one. All floating point rounding is included. Images of at most 2^20 pixels per side, versions 1 to 40.", "quantifier": "every image, every location, every module", "why_tests_cant": "accumulated floating point loop state over all sizes", "anchors": ["src/extract/qr/mod.rs: extract, determine_perspective"]}
{"id": "C54", "title": "An upright code is extracted module-exactly", "statement": "If a grid of version 1 to 40 (with the lower right alignment pattern from version 2 on) is drawn with m-by-m pixel modules at any offset in an image and the location gives the finder centres up to a common displacement d and individual errors e with 1.3 d + 5 e + 0.05 <= m/2, extract returns exactly the grid.", "quantifier": "every grid, every m, every offset, every content of the rest of the image, every such location", "why_tests_cant": "all renderings", "anchors": ["src/extract/qr/mod.rs"]}
{"id": "C55", "title": "Extraction never panics", "statement": "extract returns Ok or Err for every image and every location the detector can produce.", "quantifier": "every image and location", "why_tests_cant": "needs codes at the border or rotated codes", "anchors": ["src/extract/qr/mod.rs: extract, is_alignment, determine_perspective"]}
{"id": "C56", "title": "Damaged symbols decode, and the damage is counted", "statement": "For the versions and levels whose correction repairs every single damaged codeword (1-M, 16-H, 21-H, 23-H..40-H), a symbol that is damaged arbitrarily in at most one codeword per block, in any function pattern, in the second format copy and in at most two modules of the first format copy other than the last still decodes to its message, and info.errors is the number of damaged codeword modules.", "quantifier": "every symbol of these kinds, every such damage", "why_tests_cant": "all damage patterns of all symbols", "anchors": ["src/decode/qr/decoder.rs", "src/decode/qr/correct.rs"]}
{"id": "C57", "title": "Thresholding is local", "statement": "If two images of the same size agree on the window of blocks around a position and at the position itself, the prepared images agree at that position.", "quantifier": "every pair of images, every position", "why_tests_cant": "pairs of images", "anchors": ["src/prepare/blockedmean.rs"]}
{"id": "C58", "title": "Preparation panics exactly on too small sizes or overflow", "statement": "For images of at most 2^44 pixels, prepare returns if and only if the block size is positive, the mean size at least 3, the image at least one block wide and one block high, and the block counts do not overflow u32; with the default settings it returns for all images of at least 5 by 5 and at most 2^31 pixels.", "quantifier": "every image, block size, mean size", "why_tests_cant": "all sizes and parameters", "anchors": ["src/prepare/blockedmean.rs", "src/decoder.rs: default_decoder"]}
{"id": "C59", "title": "The finder test does not depend on the scale", "statement": "Run lengths a,b,c,d,e are accepted as a finder pattern if and only if k*a,k*b,k*c,k*d,k*e are, for every k >= 1.", "quantifier": "every run lengths, every scale k", "why_tests_cant": "all scales; ties are decided by rounding", "anchors": ["src/detect/linescan.rs: looks_like_finder, est_mod_size"]}
{"id": "C60", "title": "An upright picture of a text is extracted and decoded to it", "statement": "If an image shows a symbol for a list of segments (any version, level, mask, any function patterns but the lower right alignment pattern) as in C54, extracting at its location and decoding gives the text of the segments.", "quantifier": "every text that fits, every version, level, mask, module size, offset, every such location", "why_tests_cant": "all texts and all renderings", "anchors": ["src/extract/qr/mod.rs: extract", "src/decode/qr/decoder.rs: decode"]}
{"id": "C61", "title": "No clean finder pattern is overlooked", "statement": "An upright finder pattern with modules of at least two pixels and a light separator becomes a candidate with its exact centre and module size, unless a candidate closer than eight modules was found before, provided the row that leads to it has no run shorter than a tenth of the one before.", "quantifier": "every image, every place, every module size from 2 on, any content elsewhere", "why_tests_cant": "all images and all sizes", "anchors": ["src/detect/linescan.rs: LineScan::detect, refine_horizontal, refine_vertical, refine_diagonal"]}
{"id": "C62", "title": "The candidates are exactly the finder patterns", "statement": "In an image that shows finder patterns of one module size (at least two pixels) at least ten modules apart and no other place where row and column both have the shape of a finder pattern, and whose rows have no runs shorter than a tenth of the one before, the detector's candidates are exactly these finder patterns, each once, with exact centre and module size.", "quantifier": "every such image, any number of finder patterns", "why_tests_cant": "all images; all floating point rounding included", "anchors": ["src/detect/linescan.rs: LineScan::detect"]}
{"id": "C63", "title": "An upright symbol is detected exactly once", "statement": "If the finder patterns of C62 are the three of a symbol of version v, detection returns exactly one location, with the exact centres, module size and version v.", "quantifier": "every version, module size from 2 on, offset, image content elsewhere", "why_tests_cant": "all renderings", "anchors": ["src/detect/linescan.rs: LineScan::detect, find_qr"]}
{"id": "C64", "title": "The default decoders chain the default components", "statement": "For every image for which preparation is defined, default_decoder().decode and default_decoder_with_info().decode return one result per detected location of the prepared image, in order: the error of the extraction, or the decoder's result on the extracted grid; they panic exactly if one of these calls does.", "quantifier": "every image, every greyscale conversion", "why_tests_cant": "composition over all images", "anchors": ["src/decoder.rs: default_decoder, default_decoder_with_info, Decoder::decode"]}
{"id": "C65", "title": "The default decoders read an upright symbol, end to end", "statement": "If the thresholded image shows a symbol for a text (any version, level, mask) with modules of at least two pixels and a quiet zone of a module, under the conditions of C62, both default decoders return exactly one result: the text, with the symbol's version and level and no errors.", "quantifier": "every text that fits, every version, level, mask, module size, offset, every source image that is thresholded to it", "why_tests_cant": "the whole pipeline over all texts and renderings", "anchors": ["src/decoder.rs: default_decoder, default_decoder_with_info", "src/prepare/blockedmean.rs", "src/detect/linescan.rs", "src/extract/qr/mod.rs", "src/decode/qr/decoder.rs"]}
{"id": "C66", "title": "A symbol among other things is found and read", "statement": "If the thresholded image shows finder patterns of one module size, and nothing that row and column agree to be a finder pattern comes close to those that the scan has not yet reached, then every symbol that three of them form is among the detected locations, exactly, and whenever decoding returns, the text of every such symbol is among the results of both default decoders.", "quantifier": "every image content elsewhere, every number of symbols, version, level, mask, module size from 2 on, offset", "why_tests_cant": "all image contents around the symbol", "anchors": ["src/detect/linescan.rs: LineScan::detect, find_qr", "src/decoder.rs: default_decoder, default_decoder_with_info"]}
{"id": "C67", "title": "A symbol is read at every size and contrast near black and white", "statement": "If a symbol drawn with one pixel per module meets conditions on its module grid alone, then every source image in which each module is drawn with m by m pixels, m at least 5 (with a border of two modules) or from 2 on (if every pixel has 18 of its colour in the window of the local threshold), dark ones at most 5 and light ones at least 251, is read by both default decoders: exactly one result, the text; likewise for images of several symbols, whose texts are all among the results. The conditions are met, for example, by a version 1 symbol for HELLO WORLD.", "quantifier": "every scale m from 2 on, every noise within 5 grey levels, every text and symbol that meets the conditions", "why_tests_cant": "all sizes and all noise", "anchors": ["src/prepare/blockedmean.rs", "src/detect/linescan.rs", "src/extract/qr/mod.rs", "src/decode/qr/decoder.rs", "src/decoder.rs: default_decoder, default_decoder_with_info"]}
{"id": "C68", "title": "A damaged symbol is read from its image", "statement": "From an image that shows a grid with finder patterns, alignment pattern and quiet zone as in C65 to C67 the default decoders give exactly what decoding the grid gives, text or error, whatever its data and format modules. In particular, for the versions and levels whose single codeword errors are repaired (C39), a symbol with at most one damaged codeword per block and at most two damaged modules in the first format copy (not the last one) is read from its image at every size; the errors reported are the number of damaged codeword modules.", "quantifier": "every symbol of these versions and levels, every damage of that kind, every such image and size", "why_tests_cant": "all damages and all renderings", "anchors": ["src/decoder.rs: default_decoder, default_decoder_with_info", "src/decode/qr/correct.rs", "src/decode/qr/format.rs", "src/detect/linescan.rs", "src/extract/qr/mod.rs"]}
{"id": "C69", "title": "Symbols are read in any of the four turns", "statement": "Three finder positions that form a right isosceles triangle of the right size are recognised as one symbol whatever the angle by which it is turned: the corner at the right angle is the top left one and the two others are told apart by their sense of rotation. A grid whose picture is turned by any number of quarter turns is detected, extracted and decoded as if it were upright, under the conditions of C65 to C68, alone, among other things and at every size.", "quantifier": "every angle (geometry); every grid, quarter turn, image, place and size (reading)", "why_tests_cant": "all positions of all symbols", "anchors": ["src/detect/linescan.rs: find_qr, find_qr_internal", "src/extract/qr/mod.rs: extract", "src/decoder.rs: default_decoder, default_decoder_with_info"]}
{"id": "C70", "title": "Mirrored symbols are misread", "statement": "A picture that shows a symbol mirrored is detected and extracted, but with rows and columns exchanged: the default decoders give exactly what decoding the transposed grid gives. Its format information is then never read as what it says: 25 of the 32 formats are taken for another one (the table is exact) and seven are refused, in which case the result is the error 'Format information corrupted' although the symbol is flawless.", "quantifier": "every grid, every mirrored position, image, place and size; all 32 formats of a symbol with its dark module", "why_tests_cant": "all mirrored pictures of all symbols", "anchors": ["src/detect/linescan.rs: find_qr_internal (\"QR might be mirrored\")", "src/decode/qr/format.rs: format, format1, format2, correct", "src/decoder.rs: default_decoder, default_decoder_with_info"]}
{"id": "C71", "title": "Symbols are read in uneven light", "statement": "The local threshold removes the effects of light wherever black and white are mixed: if in the window that decides about a pixel at least an eighth of the pixels is black and at least an eighth is white, and within each window the grey values that show black, and those that show white, vary by less than a seventh of the contrast between them, then preparing gives exactly the black and white image, whatever the levels are and however they change from place to place. The default decoders then read the symbol, in each of its four turns, as if it were drawn in black and white.", "quantifier": "every grid, turn, scale from 2 on, and every assignment of grey values within the bounds", "why_tests_cant": "all lights", "anchors": ["src/prepare/blockedmean.rs: BlockedMean::prepare", "src/decoder.rs: default_decoder, default_decoder_with_info"]}
{"id": "C72", "title": "Symbols in perspective are read; extraction fails only if no alignment pattern is where it is looked for", "statement": "From version 2 on the alignment pattern is looked for in all places up to one and a half modules, in steps of half a module, around the place that the finder patterns suggest, in six sizes each, nearer places first. Extraction returns an error only if in none of these places the pixels must be taken for an alignment pattern, always the same error, and never for version 1. If the finder patterns are in three corners of a square, the alignment pattern is found in one of these places and every pixel nearest to the bilinear position of a module has its colour, the default decoders give exactly what decoding the grid gives, in each of the four turns and in any light that C71 allows. Not all modules of the alignment pattern are looked at: its right inner column never is.", "quantifier": "every image, location and version; every grid that is shown in this way, turn, module size from 2 on, place", "why_tests_cant": "all images around the alignment pattern, all distortions", "anchors": ["src/extract/qr/mod.rs: extract, determine_perspective, find_alignment, is_alignment", "src/decoder.rs: default_decoder, default_decoder_with_info"]}
{"id": "C73", "title": "A symbol in perspective is found and read among other things", "statement": "C72 holds among other things: if the thresholded image shows finder patterns of one module size, three of which are in three corners of a square of the right size, in any of the four turns, and nothing that row and column agree to be a finder pattern comes close to those that the scan has not yet reached, and the image shows the grid relative to these three as in C72, then whenever decoding returns, what decoding the grid gives is among the results of both default decoders; in particular the text.", "quantifier": "every image content elsewhere, every number of finder patterns, grid, version, turn, module size from 2 on, place, light that C71 allows", "why_tests_cant": "all image contents around the symbol", "anchors": ["src/detect/linescan.rs: LineScan::detect, find_qr", "src/extract/qr/mod.rs: extract", "src/decoder.rs: default_decoder, default_decoder_with_info"]}
{"id": "C74", "title": "A tilted grid is extracted as it is, for every angle", "statement": "If an image shows a grid with square modules tilted by any angle, and the reported finder centres are the true ones up to a common displacement d and up to e each (in pixels), then extraction returns exactly the grid, provided that the modules are large enough: 3/2 + 3d + 12e pixels for version 1, 11 + 14d + 24e pixels from version 2 on. Decoding then gives the text.", "quantifier": "every angle, grid, version, real module size and place, every image that shows it, every location within the tolerance", "why_tests_cant": "all angles and all places", "anchors": ["src/extract/qr/mod.rs: extract, determine_perspective, find_alignment, is_alignment", "src/util/qr.rs: QRLocation"]}
{"id": "C75", "title": "A symbol tilted by any angle is read", "statement": "A symbol that is alone in a crisp black and white image with its quiet zone, tilted by any angle, is read by the default decoders.", "quantifier": "every symbol, angle, module size and place", "why_tests_cant": "all angles", "anchors": ["src/detect/linescan.rs: LineScan::detect, find_qr_internal, QRFinderPattern::est_mod_size", "src/decoder.rs: default_decoder, default_decoder_with_info"]}
{"id": "C76", "title": "When the default decoders crash", "statement": "Both default decoders panic on the same images: exactly those that are narrower or lower than 5 pixels, those where extraction panics at a detected location, and those where the data of an extracted symbol, after error correction, contain an alphanumeric segment of odd length whose last character is not one of the 45. For symbols up to version 40 extraction panics at a detected location only if the symbol reaches beyond the right or the lower edge of the image. One symbol of the last kind, anywhere in an image, makes both decoders panic, whatever else the image shows; there is such a symbol, and it does so at every size.", "quantifier": "every grey image up to 2^20 pixels wide and high and 2^36 pixels in all, every grid", "why_tests_cant": "whether there are other images that crash", "anchors": ["src/decoder.rs: default_decoder, default_decoder_with_info, Decoder::decode", "src/decode/qr/data.rs: alphanumeric", "src/extract/qr/mod.rs: extract", "src/prepare/block.rs: BlockedMean::prepare"]}
{"id": "C77", "title": "Which three finder centres make a symbol, and of which version", "statement": "Three points are recognised as the finder centres of a symbol of version v with the given module size, in whatever order they are examined, if the angle at one of them is between 72.6 and 107.4 degrees, both sides there differ by at most 14.5 per cent and both differ by less than 1.9 modules from the distance in version v; the corner, the sense of rotation and the version are then reported as they are. At a detected location the version reported is the true one if the error of the estimated module size adds up to less than 1.9 modules over the distances of the finder centres, and only if it adds up to at most 2.1 modules over one of them.", "quantifier": "every three points less than 2^31 apart in each coordinate, every order, every module size from 1 on, every version; every image", "why_tests_cant": "all triangles, all roundings", "anchors": ["src/detect/linescan.rs: find_qr, find_qr_internal, LineScan::detect"]}
{"id": "C78", "title": "Exactly what the symbol says is returned", "statement": "Decoding returns a text iff the data codewords of the grid, after correction, are complete numeric, alphanumeric or byte segments that say this text, followed by the terminator or by fewer than four bits; it returns an error iff the grid carries no data (unreadable format, unknown version, a block beyond repair) or something that is no segment follows complete segments: an unsupported mode, too few bits, an illegal pair of characters, bytes that should be UTF-8 and are not. A text is among the results of the default decoder iff a grid extracted at a detected location says it: no text is invented, none is lost.", "quantifier": "every sequence of codewords, version 1 to 40, every complete grid, every image", "why_tests_cant": "all 2^(8n) payloads", "anchors": ["src/decode/qr/data.rs: data, numeric, alphanumeric, eight_bit", "src/decode/qr/decoder.rs: QRDecoder::decode", "src/decoder.rs: default_decoder"]}
{"id": "C79", "title": "No symbol is located twice", "statement": "Of any two locations that detection returns for an image, each has a finder pattern that is none of the other's: its centre is more than half a module away from all three finder centres of the other location.", "quantifier": "every valid grey image of less than 2^63 pixels, every pair of returned locations", "why_tests_cant": "all images, all pairs of locations", "anchors": ["src/detect/linescan.rs: LineScan::detect, refine, find_qr"]}
{"id": "C80", "title": "Light symbols on a dark ground are located but not read", "statement": "In a black and white image and in its negative the same symbols are located. What is extracted from the negative at a location of version 1 is the negative grid, whose format information is accepted but read as another level and another mask; from version 2 on, in place of the text there is the error that no alignment pattern was found.", "quantifier": "every black and white image (detection); every symbol, of version 1 in any of the four turns and with any module size, of versions 2 to 40 upright or upside down with modules of two pixels or more, or turned by a quarter with an even module size (decoding)", "why_tests_cant": "all images, symbols, sizes, light", "anchors": ["src/detect/linescan.rs: LineScan::detect", "src/extract/qr/mod.rs: extract, determine_perspective, is_alignment", "src/decode/qr/format.rs: format"]}
{"id": "C81", "title": "Correction changes no more than the standard allows", "statement": "Whatever the image: a block that is accepted differs from the received one in at most half as many codewords as it has for error correction, and the number of errors reported with a text is at most four for every error correction codeword of a symbol of that version and level.", "quantifier": "every received block of every version and level; every image", "why_tests_cant": "all blocks, all images", "anchors": ["src/decode/qr/correct.rs: correct_with_error_count", "src/decode/qr/decoder.rs: QRDecoderWithInfo::decode"]}
{"id": "C82", "title": "Texts are not longer than the symbol can hold", "statement": "A returned text is never longer than what a single numeric segment in the data codewords of a symbol of its version and level can say; no image makes the default decoders return a text of more than 9452 characters. Such a text exists.", "quantifier": "every image, every returned text", "why_tests_cant": "all images, all data", "anchors": ["src/decode/qr/data.rs: data, numeric, alphanumeric, eight_bit", "src/decode/qr/decoder.rs: QRDecoder::decode"]}
{"id": "C83", "title": "Symbols resized by any factor are located and read", "statement": "A square picture of a symbol, one pixel per module, resized by nearest neighbour to any larger square, so that its modules need not all have the same number of pixels: if in the small picture no run is much shorter than the one before and only the finder patterns have anything like their shape, then the symbol alone is located, with its version and every centre within 1.01 pixels of the right place horizontally and 2.5 pixels vertically, once (v + 16) / 2 pixels fall on a module; and its text is returned, with no errors, once 27 pixels (version 1) or 66 pixels (versions 2 to 40) fall on a module.", "quantifier": "every such picture of every symbol, every size up to 2^26 - 1 pixels (location) and up to 2^18 pixels (reading), whole or fractional numbers of pixels per module", "why_tests_cant": "all symbols, sizes and fractions of a pixel", "anchors": ["src/detect/linescan.rs: LineScan::detect, QRFinderPosition", "src/extract/qr/mod.rs: extract, determine_perspective", "src/decode/qr/decoder.rs: QRDecoder::decode"]}
