{
 "claims": [
  {
   "property": "C01",
   "status": "proved",
   "theorems": [
    "Verif.Props.chomp_reads_stream"
   ],
   "note": ""
  },
  {
   "property": "C02",
   "status": "proved",
   "theorems": [
    "Verif.Props.chomp_refuses_iff",
    "Verif.Props.chomp_reads_stream"
   ],
   "note": ""
  },
  {
   "property": "C03",
   "status": "partial",
   "theorems": [
    "Verif.Props.chomp_refusal_harmless_partial",
    "Verif.Props.chomp_refusal_loses_bits"
   ],
   "note": "The claim is false of the code: chomp_refusal_loses_bits refutes it for every byte. The partial theorem gives the refusals that are harmless."
  },
  {
   "property": "C04",
   "status": "proved",
   "theorems": [
    "Verif.Props.chomp_never_panics_and_sound"
   ],
   "note": ""
  },
  {
   "property": "C05",
   "status": "proved",
   "theorems": [
    "Verif.Props.chomp_u16_reads_stream",
    "Verif.Props.chomp_or_u16_error_value"
   ],
   "note": ""
  },
  {
   "property": "C06",
   "status": "partial",
   "theorems": [
    "Verif.Props.chomp_or_u16_over_16_partial",
    "Verif.Props.chomp_or_u16_over_16"
   ],
   "note": "The claim is false of the code: chomp_or_u16_over_16 shows Ok for 17..=23 and a panic for >= 24 bits."
  },
  {
   "property": "C07",
   "status": "proved",
   "theorems": [
    "Verif.Props.numeric_roundtrip"
   ],
   "note": ""
  },
  {
   "property": "C08",
   "status": "proved",
   "theorems": [
    "Verif.Props.alphanumeric_roundtrip"
   ],
   "note": ""
  },
  {
   "property": "C09",
   "status": "proved",
   "theorems": [
    "Verif.Props.byte_reading"
   ],
   "note": ""
  },
  {
   "property": "C10",
   "status": "partial",
   "theorems": [
    "Verif.Props.utf8_text_recovered_partial",
    "Verif.Props.utf8_text_recovered_iff",
    "Verif.Props.utf8_euro_misread"
   ],
   "note": "The claim is false of the code; utf8_text_recovered_iff gives the exact condition under which it holds."
  },
  {
   "property": "C11",
   "status": "proved",
   "theorems": [
    "Verif.Props.data_segments"
   ],
   "note": ""
  },
  {
   "property": "C12",
   "status": "proved",
   "theorems": [
    "Verif.Props.unsupported_mode"
   ],
   "note": ""
  },
  {
   "property": "C13",
   "status": "proved",
   "theorems": [
    "Verif.Props.truncated_is_error"
   ],
   "note": ""
  },
  {
   "property": "C14",
   "status": "partial",
   "theorems": [
    "Verif.Props.numeric_count_partial",
    "Verif.Props.numeric_count_wrong"
   ],
   "note": "The claim is false of the code (numeric_count_wrong); the partial theorem gives the exact condition."
  },
  {
   "property": "C15",
   "status": "partial",
   "theorems": [
    "Verif.Props.data_never_panics_partial",
    "Verif.Props.data_panics_iff"
   ],
   "note": "The claim is false of the code; data_panics_iff characterises exactly the panicking inputs."
  },
  {
   "property": "C16",
   "status": "proved",
   "theorems": [
    "Verif.Props.gf8_is_polynomial_arithmetic",
    "Verif.Props.gf8_field_laws",
    "Verif.Props.gf8_tables"
   ],
   "note": ""
  },
  {
   "property": "C17",
   "status": "partial",
   "theorems": [
    "Verif.Props.gf8_div_mul_partial",
    "Verif.Props.gf8_div_zero_numerator",
    "Verif.Props.gf8_div_by_zero"
   ],
   "note": "The claim is false of the code for numerator 0 (gf8_div_zero_numerator, for every divisor); proved for all nonzero numerators."
  },
  {
   "property": "C18",
   "status": "proved",
   "theorems": [
    "Verif.Props.gf4_is_polynomial_arithmetic",
    "Verif.Props.gf4_ring_laws",
    "Verif.Props.gf4_div_mul",
    "Verif.Props.gf4_tables",
    "Verif.Props.gf4_div_zero"
   ],
   "note": ""
  },
  {
   "property": "C19",
   "status": "proved",
   "theorems": [
    "Verif.Props.clean_format_first_copy",
    "Verif.Props.clean_format_second_copy"
   ],
   "note": ""
  },
  {
   "property": "C20",
   "status": "proved",
   "theorems": [
    "Verif.Props.two_flips_corrected",
    "Verif.Props.two_flips_rejected",
    "Verif.Props.two_flips_never_misread"
   ],
   "note": ""
  },
  {
   "property": "C21",
   "status": "partial",
   "theorems": [
    "Verif.Props.three_flips_corrected_partial",
    "Verif.Props.three_flips_misread",
    "Verif.Props.three_flips_count"
   ],
   "note": "The claim is false of the code: three_flips_misread gives a 3-bit flip set misread for every level and mask. The partial theorem gives the flip sets that are corrected."
  },
  {
   "property": "C22",
   "status": "proved",
   "theorems": [
    "Verif.Props.second_copy_is_fallback",
    "Verif.Props.format_never_panics"
   ],
   "note": ""
  },
  {
   "property": "C23",
   "status": "proved",
   "theorems": [
    "Verif.Props.masks_are_iso",
    "Verif.Props.mask_involution",
    "Verif.Props.no_other_mask"
   ],
   "note": ""
  },
  {
   "property": "C24",
   "status": "proved",
   "theorems": [
    "Verif.Props.data_iff_not_function",
    "Verif.Props.blocks_consults_exactly_data_modules"
   ],
   "note": ""
  },
  {
   "property": "C25",
   "status": "proved",
   "theorems": [
    "Verif.Props.blocks_reads_zigzag",
    "Verif.Props.data_modules_exactly_once"
   ],
   "note": ""
  },
  {
   "property": "C26",
   "status": "proved",
   "theorems": [
    "Verif.Props.block_table_is_iso",
    "Verif.Props.data_module_count"
   ],
   "note": ""
  },
  {
   "property": "C27",
   "status": "proved",
   "theorems": [
    "Verif.Props.deinterleave_inverts_interleave",
    "Verif.Props.blocks_of_placed_family"
   ],
   "note": ""
  },
  {
   "property": "C28",
   "status": "proved",
   "theorems": [
    "Verif.Props.blocks_always_ok",
    "Verif.Props.blocks_reads_zigzag"
   ],
   "note": ""
  },
  {
   "property": "C30",
   "status": "proved",
   "theorems": [
    "Verif.Props.codeword_untouched"
   ],
   "note": ""
  },
  {
   "property": "C31",
   "status": "partial",
   "theorems": [
    "Verif.Props.damage_repaired_iff_partial",
    "Verif.Props.single_error_repaired_iff_partial",
    "Verif.Props.repairs_singles_iff_partial",
    "Verif.Props.single_error_lost_silently",
    "Verif.Props.cancelling_errors_never_repaired"
   ],
   "note": "The claim is false of the code: outside 21 version/level pairs some single damaged codeword is silently miscorrected in every code word (single_error_lost_silently), and cancelling errors are never repaired. The partial theorems give exact conditions: for all regular patterns up to the capacity, and for all single errors over the whole table."
  },
  {
   "property": "C32",
   "status": "partial",
   "theorems": [
    "Verif.Props.accepted_parity_partial",
    "Verif.Props.accepted_non_codeword"
   ],
   "note": "The claim is false of the code (accepted_non_codeword). What holds for every received block: an accepted block satisfies the first code condition, and blocks with parity zero are only accepted unchanged."
  },
  {
   "property": "C33",
   "status": "proved",
   "theorems": [
    "Verif.Props.error_count_is_bit_distance"
   ],
   "note": ""
  },
  {
   "property": "C34",
   "status": "proved",
   "theorems": [
    "Verif.Props.correction_total"
   ],
   "note": ""
  },
  {
   "property": "C29",
   "status": "proved",
   "theorems": [
    "Verif.Props.unknown_version_rejected",
    "Verif.Props.unknown_version_never_ok"
   ],
   "note": ""
  },
  {
   "property": "C35",
   "status": "proved",
   "theorems": [
    "Verif.Props.symbol_decodes",
    "Verif.Props.encode_decode"
   ],
   "note": ""
  },
  {
   "property": "C36",
   "status": "proved",
   "theorems": [
    "Verif.Props.only_data_and_first_format_matter",
    "Verif.Props.only_data_and_formats_matter"
   ],
   "note": ""
  },
  {
   "property": "C37",
   "status": "proved",
   "theorems": [
    "Verif.Props.info_decoder_agrees"
   ],
   "note": ""
  },
  {
   "property": "C38",
   "status": "proved",
   "theorems": [
    "Verif.Props.extraction_error_passed_on"
   ],
   "note": ""
  },
  {
   "property": "C39",
   "status": "partial",
   "theorems": [
    "Verif.Props.info_describes_symbol_partial",
    "Verif.Props.total_data_omits_ec"
   ],
   "note": "Version, level and error count are as documented. The claim about total_data is false of the code: only data codewords are counted (total_data_omits_ec, for every decoded grid)."
  },
  {
   "property": "C40",
   "status": "proved",
   "theorems": [
    "Verif.Props.decode_runs_all_locations",
    "Verif.Props.one_result_per_location",
    "Verif.Props.locations_are_independent"
   ],
   "note": ""
  },
  {
   "property": "C41",
   "status": "proved",
   "theorems": [
    "Verif.Props.builder_last_wins"
   ],
   "note": ""
  },
  {
   "property": "C42",
   "status": "proved",
   "theorems": [
    "Verif.Props.grid_indexing"
   ],
   "note": ""
  },
  {
   "property": "C56",
   "status": "proved",
   "theorems": [
    "Verif.Props.damaged_symbol_decodes"
   ],
   "note": ""
  },
  {
   "property": "C43",
   "status": "proved",
   "theorems": [
    "Verif.Props.prepare_black_white"
   ],
   "note": ""
  },
  {
   "property": "C44",
   "status": "proved",
   "theorems": [
    "Verif.Props.prepare_threshold"
   ],
   "note": ""
  },
  {
   "property": "C45",
   "status": "partial",
   "theorems": [
    "Verif.Props.prepare_returns_iff",
    "Verif.Props.prepare_never_panics_false"
   ],
   "note": "The claim is false of the code (prepare_never_panics_false); prepare_returns_iff gives the exact condition under which prepare returns."
  },
  {
   "property": "C46",
   "status": "proved",
   "theorems": [
    "Verif.Props.uniform_image"
   ],
   "note": ""
  },
  {
   "property": "C47",
   "status": "proved",
   "theorems": [
    "Verif.Props.brighter_stays_brighter"
   ],
   "note": ""
  },
  {
   "property": "C57",
   "status": "proved",
   "theorems": [
    "Verif.Props.threshold_is_local"
   ],
   "note": ""
  },
  {
   "property": "C58",
   "status": "proved",
   "theorems": [
    "Verif.Props.prepare_returns_iff",
    "Verif.Props.default_prepare_returns"
   ],
   "note": ""
  },
  {
   "property": "C48",
   "status": "proved",
   "theorems": [
    "Verif.Props.detected_locations_are_proper"
   ],
   "note": ""
  },
  {
   "property": "C49",
   "status": "proved",
   "theorems": [
    "Verif.Props.detect_never_panics"
   ],
   "note": ""
  },
  {
   "property": "C50",
   "status": "proved",
   "theorems": [
    "Verif.Props.few_changes_no_detection"
   ],
   "note": ""
  },
  {
   "property": "C51",
   "status": "proved",
   "theorems": [
    "Verif.Props.finder_test_is_exact",
    "Verif.Props.accepted_is_finder_shaped",
    "Verif.Props.perfect_finder_accepted",
    "Verif.Props.missing_run_rejected"
   ],
   "note": ""
  },
  {
   "property": "C59",
   "status": "partial",
   "theorems": [
    "Verif.Props.finder_test_scale_invariant_partial",
    "Verif.Props.finder_test_not_scale_invariant"
   ],
   "note": "The claim is false of the code: the tie in the comparison of the last run is decided by rounding (finder_test_not_scale_invariant: 2,2,4,2,2 is accepted, 6,6,12,6,6 is not). Away from the tie the test is scale invariant (finder_test_scale_invariant_partial)."
  },
  {
   "property": "C52",
   "status": "proved",
   "theorems": [
    "Verif.Props.extracted_grid_is_well_formed"
   ],
   "note": ""
  },
  {
   "property": "C53",
   "status": "proved",
   "theorems": [
    "Verif.Props.samples_are_bilinear",
    "Verif.Props.bilinear_passes_through"
   ],
   "note": ""
  },
  {
   "property": "C54",
   "status": "proved",
   "theorems": [
    "Verif.Props.drawn_grid_is_extracted",
    "Verif.Props.picture_is_extracted"
   ],
   "note": ""
  },
  {
   "property": "C55",
   "status": "partial",
   "theorems": [
    "Verif.Props.extraction_panics_beyond_the_image_only_partial",
    "Verif.Props.extracted_modules_are_inside",
    "Verif.Props.version_one_inside_is_extracted_partial",
    "Verif.Props.version_one_outside_panics",
    "Verif.Props.extraction_can_panic"
   ],
   "note": "The claim is false of the code: extraction_can_panic gives an image whose only detected location leads to a panic, because samples beyond the right or lower edge are not checked. This is the only reason: whenever extraction panics (versions 1 to 40, images at least two pixels wide), a module position, or a position within 21/5 modules of the expected alignment pattern, is beyond the right or lower edge; conversely a returned grid has no module beyond the edge. For version 1 the panic is located: no panic if all module positions are inside, a panic if one is outside."
  },
  {
   "property": "C60",
   "status": "proved",
   "theorems": [
    "Verif.Props.drawn_symbol_decodes",
    "Verif.Props.picture_of_text_decodes"
   ],
   "note": ""
  },
  {
   "property": "C61",
   "status": "proved",
   "theorems": [
    "Verif.Props.finder_not_overlooked"
   ],
   "note": ""
  },
  {
   "property": "C62",
   "status": "proved",
   "theorems": [
    "Verif.Props.exactly_the_finders"
   ],
   "note": ""
  },
  {
   "property": "C63",
   "status": "proved",
   "theorems": [
    "Verif.Props.symbol_is_detected"
   ],
   "note": ""
  },
  {
   "property": "C64",
   "status": "proved",
   "theorems": [
    "Verif.Props.default_decoder_results",
    "Verif.Props.default_decoder_with_info_results"
   ],
   "note": ""
  },
  {
   "property": "C65",
   "status": "proved",
   "theorems": [
    "Verif.Props.default_decoder_reads_symbol"
   ],
   "note": ""
  },
  {
   "property": "C66",
   "status": "proved",
   "theorems": [
    "Verif.Props.symbol_is_among",
    "Verif.Props.default_decoder_finds_symbol",
    "Verif.Props.two_at_every_size"
   ],
   "note": ""
  },
  {
   "property": "C67",
   "status": "proved",
   "theorems": [
    "Verif.Props.default_decoder_reads_enlarged",
    "Verif.Props.default_decoder_finds_enlarged",
    "Verif.Props.picture_reads_at_every_size",
    "Verif.Props.large_modules_are_legible",
    "Verif.Props.hello_detected",
    "Verif.Props.hello_at_every_size",
    "Verif.Props.two_at_every_size"
   ],
   "note": ""
  },
  {
   "property": "C68",
   "status": "proved",
   "theorems": [
    "Verif.Props.default_decoder_reads_damaged",
    "Verif.Props.damaged_reads_at_every_size",
    "Verif.Props.default_decoder_decodes_grid",
    "Verif.Props.default_decoder_finds_grid",
    "Verif.Props.default_decoder_decodes_enlarged",
    "Verif.Props.default_decoder_finds_enlarged_grid"
   ],
   "note": "The versions and levels are those of singlesRepaired (see C39). hit_at_every_size is a concrete damaged symbol."
  },
  {
   "property": "C69",
   "status": "proved",
   "theorems": [
    "Verif.Props.right_angle_is_located",
    "Verif.Props.turned_symbol_is_detected",
    "Verif.Props.turned_symbol_is_among",
    "Verif.Props.turned_location_extracts",
    "Verif.Props.default_decoder_decodes_turned",
    "Verif.Props.default_decoder_finds_turned",
    "Verif.Props.default_decoder_reads_turned",
    "Verif.Props.default_decoder_decodes_enlarged_turned",
    "Verif.Props.turned_picture_reads_at_every_size"
   ],
   "note": "The positions are the four quarter turns (not_mirrored_iff); right_angle_is_located is for any angle. read_in_every_turn is a concrete symbol."
  },
  {
   "property": "C70",
   "status": "proved",
   "theorems": [
    "Verif.Props.default_decoder_decodes_mirrored",
    "Verif.Props.default_decoder_decodes_enlarged_mirrored",
    "Verif.Props.mirrored_format",
    "Verif.Props.mirrored_format_is_misread",
    "Verif.Props.default_decoder_refuses_mirrored",
    "Verif.Props.transposed_transposed"
   ],
   "note": "The finders are stored 'the other way around' for mirrored symbols, which keeps the sense of rotation but exchanges rows and columns. mirrored_at_every_size is a concrete flawless symbol that is refused when mirrored."
  },
  {
   "property": "C71",
   "status": "proved",
   "theorems": [
    "Verif.Props.thresholding_ignores_lighting",
    "Verif.Props.default_decoder_decodes_lit",
    "Verif.Props.picture_reads_in_any_light"
   ],
   "note": "The condition that both colours occur in every window is needed: plain grey paper becomes black (C46). readPicture_mixed and readInLight_lit show a concrete symbol in uneven light."
  },
  {
   "property": "C72",
   "status": "proved",
   "theorems": [
    "Verif.Props.extraction_fails_without_alignment_only",
    "Verif.Props.shown_grid_extracts",
    "Verif.Props.default_decoder_decodes_placed",
    "Verif.Props.default_decoder_reads_placed"
   ],
   "note": "The places, their order and the modules that are looked at are in Spec/Sampling, ShowsGrid in Spec/Placed. PlacedExamples has a version 2 symbol whose alignment pattern is one module out of place, in uneven light."
  },
  {
   "property": "C73",
   "status": "proved",
   "theorems": [
    "Verif.Props.default_decoder_finds_placed",
    "Verif.Props.default_decoder_finds_in_perspective"
   ],
   "note": "PlacedExamples applies it to the symbol of C72."
  },
  {
   "property": "C74",
   "status": "proved",
   "theorems": [
    "Verif.Props.tilted_grid_is_extracted",
    "Verif.Props.tilted_symbol_decodes",
    "Verif.Props.every_tilted_picture_is_extracted"
   ],
   "note": "What it means that an image shows a tilted grid is in Spec/Tilted. every_tilted_picture_is_extracted gives a picture and a location for every grid and every angle that meet the conditions."
  },
  {
   "property": "C75",
   "status": "partial",
   "theorems": [
    "Verif.Props.located_tilted_symbol_is_read_partial",
    "Verif.Props.shown_location_is_read",
    "Verif.Props.tilted_hello_is_read",
    "Verif.Props.tilted_symbol_is_overlooked"
   ],
   "note": "The claim is false of the code: tilted_symbol_is_overlooked is a flawless symbol tilted by 37 degrees, alone in a crisp image, for which both default decoders return nothing. The module size is estimated from runs along rows and columns, which are longer in a tilted symbol, so that the symbol seems to be too small. Proved: whenever the detector reports the symbol closely enough, it is read, at every angle. tilted_hello_is_read is a symbol tilted by 16 degrees that is read."
  },
  {
   "property": "C76",
   "status": "proved",
   "theorems": [
    "Verif.Props.default_decoders_panic_iff",
    "Verif.Props.decode_panics_iff",
    "Verif.Props.detected_extraction_panics_only",
    "Verif.Props.shown_grid_panics",
    "Verif.Props.bad_symbol_panics_at_every_size"
   ],
   "note": "Larger images can overflow a sum in the thresholding (C45). MakesPanic is in Props/Panics, its parts in Spec/Panics. PanicsExamples has a symbol of version 1."
  },
  {
   "property": "C77",
   "status": "proved",
   "theorems": [
    "Verif.Props.clear_geometry_is_located",
    "Verif.Props.version_needs_module_size"
   ],
   "note": "ClearGeometry is in Spec/ClearGeometry; what is neither clear nor excluded by C48 is left to rounding. skew_is_clear is a concrete triangle."
  },
  {
   "property": "C78",
   "status": "proved",
   "theorems": [
    "Verif.Props.data_returns_iff",
    "Verif.Props.data_fails_iff",
    "Verif.Props.decode_returns_iff",
    "Verif.Props.decode_fails_iff",
    "Verif.Props.default_decoder_texts"
   ],
   "note": "Says, Garbled and their parts are in Spec/Texts; CarriesData in Spec/Panics. Numeric groups with values that the standard does not use say their decimal digits (C14). The third outcome, a panic, is C15/C76."
  },
  {
   "property": "C79",
   "status": "proved",
   "theorems": [
    "Verif.Props.no_symbol_located_twice"
   ],
   "note": "HasItsOwn is in Spec/Once. Half of the smaller of the two module sizes. Two locations may share two finder patterns: four finder patterns in a square make four locations (OnceExamples)."
  },
  {
   "property": "C80",
   "status": "proved",
   "theorems": [
    "Verif.Props.detection_sees_changes_only",
    "Verif.Props.negative_is_found_alike",
    "Verif.Props.negative_extracts_opposite",
    "Verif.Props.default_decoder_decodes_negative",
    "Verif.Props.default_decoder_decodes_lit_negative",
    "Verif.Props.negative_format",
    "Verif.Props.negative_level",
    "Verif.Props.negative_is_not_extracted",
    "Verif.Props.default_decoder_refuses_negative",
    "Verif.Props.default_decoder_refuses_lit_negative"
   ],
   "note": "Spec/Negative. For version 1 the default decoders give what decoding makes of the negative grid (in the example an error). From version 2 on all 294 places where an alignment pattern is looked for are rejected, whatever the rounding within a hundredth of a pixel; for symbols turned by a quarter with odd module sizes some of these places fall on pixel boundaries, and these are left out of the statement."
  },
  {
   "property": "C81",
   "status": "proved",
   "theorems": [
    "Verif.Props.correction_changes_little",
    "Verif.Props.reported_errors_bounded",
    "Verif.Props.returned_info_is_bounded"
   ],
   "note": "changedWords is in Spec/Bounds. This does not say that the changes are the right ones (C31, C32)."
  },
  {
   "property": "C82",
   "status": "proved",
   "theorems": [
    "Verif.Props.text_fits",
    "Verif.Props.returned_texts_are_short",
    "Verif.Props.returned_info_is_bounded",
    "Verif.Props.longest_text"
   ],
   "note": "TextFits is in Spec/Bounds. The standard's maximum is 7089 characters; values that the standard does not use give one character more per group (C14)."
  },
  {
   "property": "C83",
   "status": "proved",
   "theorems": [
    "Verif.Props.resized_symbol_is_located",
    "Verif.Props.resized_symbol_is_read",
    "Verif.Props.scale_at_every_size"
   ],
   "note": "Resized, CalmRows and NothingAlike are in Spec/Resized. The pixels per module are those that the proof needs; smaller sizes are not refuted. Reading also asks that the source is black and white enough to be binarized exactly (Crisp)."
  }
 ]
}