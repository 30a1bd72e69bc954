"""Writes /verif/MANIFEST.json. Theorem names are relative to Verif.Props unless they contain a dot."""
import json, os
P = "Verif.Props."
C = []
def c(pid, status, theorems, note=""):
    C.append({"property": pid, "status": status,
              "theorems": [t if t.startswith("Verif.") else P + t for t in theorems], "note": note})

c("C01", "proved", ["chomp_reads_stream"])
c("C02", "proved", ["chomp_refuses_iff", "chomp_reads_stream"])
c("C03", "partial", ["chomp_refusal_harmless_partial", "chomp_refusal_loses_bits"],
  "The claim is false of the code: chomp_refusal_loses_bits refutes it for every byte. The partial theorem gives the refusals that are harmless.")
c("C04", "proved", ["chomp_never_panics_and_sound"])
c("C05", "proved", ["chomp_u16_reads_stream", "chomp_or_u16_error_value"])
c("C06", "partial", ["chomp_or_u16_over_16_partial", "chomp_or_u16_over_16"],
  "The claim is false of the code: chomp_or_u16_over_16 shows Ok for 17..=23 and a panic for >= 24 bits.")

c("C07", "proved", ["numeric_roundtrip"])
c("C08", "proved", ["alphanumeric_roundtrip"])
c("C09", "proved", ["byte_reading"])
c("C10", "partial", ["utf8_text_recovered_partial", "utf8_text_recovered_iff", "utf8_euro_misread"],
  "The claim is false of the code; utf8_text_recovered_iff gives the exact condition under which it holds.")
c("C11", "proved", ["data_segments"])
c("C12", "proved", ["unsupported_mode"])
c("C13", "proved", ["truncated_is_error"])
c("C14", "partial", ["numeric_count_partial", "numeric_count_wrong"],
  "The claim is false of the code (numeric_count_wrong); the partial theorem gives the exact condition.")
c("C15", "partial", ["data_never_panics_partial", "data_panics_iff"],
  "The claim is false of the code; data_panics_iff characterises exactly the panicking inputs.")

c("C16", "proved", ["gf8_is_polynomial_arithmetic", "gf8_field_laws", "gf8_tables"])
c("C17", "partial", ["gf8_div_mul_partial", "gf8_div_zero_numerator", "gf8_div_by_zero"],
  "The claim is false of the code for numerator 0 (gf8_div_zero_numerator, for every divisor); proved for all nonzero numerators.")
c("C18", "proved", ["gf4_is_polynomial_arithmetic", "gf4_ring_laws", "gf4_div_mul", "gf4_tables", "gf4_div_zero"])
c("C19", "proved", ["clean_format_first_copy", "clean_format_second_copy"])
c("C20", "proved", ["two_flips_corrected", "two_flips_rejected", "two_flips_never_misread"])
c("C21", "partial", ["three_flips_corrected_partial", "three_flips_misread", "three_flips_count"],
  "The claim is false of the code: three_flips_misread gives a 3-bit flip set misread for every level and mask. The partial theorem gives the flip sets that are corrected.")
c("C22", "proved", ["second_copy_is_fallback", "format_never_panics"])
c("C23", "proved", ["masks_are_iso", "mask_involution", "no_other_mask"])

c("C24", "proved", ["data_iff_not_function", "blocks_consults_exactly_data_modules"])
c("C25", "proved", ["blocks_reads_zigzag", "data_modules_exactly_once"])
c("C26", "proved", ["block_table_is_iso", "data_module_count"])
c("C27", "proved", ["deinterleave_inverts_interleave", "blocks_of_placed_family"])
c("C28", "proved", ["blocks_always_ok", "blocks_reads_zigzag"])
c("C30", "proved", ["codeword_untouched"])
c("C31", "partial", ["damage_repaired_iff_partial", "single_error_repaired_iff_partial", "repairs_singles_iff_partial",
  "single_error_lost_silently", "cancelling_errors_never_repaired"],
  "The claim is false of the code: outside 21 version/level pairs some single damaged codeword is silently miscorrected in every code word (single_error_lost_silently), and cancelling errors are never repaired. The partial theorems give exact conditions: for all regular patterns up to the capacity, and for all single errors over the whole table.")
c("C32", "partial", ["accepted_parity_partial", "accepted_non_codeword"],
  "The claim is false of the code (accepted_non_codeword). What holds for every received block: an accepted block satisfies the first code condition, and blocks with parity zero are only accepted unchanged.")
c("C33", "proved", ["error_count_is_bit_distance"])
c("C34", "proved", ["correction_total"])

c("C29", "proved", ["unknown_version_rejected", "unknown_version_never_ok"])
c("C35", "proved", ["symbol_decodes", "encode_decode"])
c("C36", "proved", ["only_data_and_first_format_matter", "only_data_and_formats_matter"])
c("C37", "proved", ["info_decoder_agrees"])
c("C38", "proved", ["extraction_error_passed_on"])
c("C39", "partial", ["info_describes_symbol_partial", "total_data_omits_ec"],
  "Version, level and error count are as documented. The claim about total_data is false of the code: only data codewords are counted (total_data_omits_ec, for every decoded grid).")
c("C40", "proved", ["decode_runs_all_locations", "one_result_per_location", "locations_are_independent"])
c("C41", "proved", ["builder_last_wins"])
c("C42", "proved", ["grid_indexing"])
c("C56", "proved", ["damaged_symbol_decodes"])

c("C43", "proved", ["prepare_black_white"])
c("C44", "proved", ["prepare_threshold"])
c("C45", "partial", ["prepare_returns_iff", "prepare_never_panics_false"],
  "The claim is false of the code (prepare_never_panics_false); prepare_returns_iff gives the exact condition under which prepare returns.")
c("C46", "proved", ["uniform_image"])
c("C47", "proved", ["brighter_stays_brighter"])
c("C57", "proved", ["threshold_is_local"])
c("C58", "proved", ["prepare_returns_iff", "default_prepare_returns"])

c("C48", "proved", ["detected_locations_are_proper"])
c("C49", "proved", ["detect_never_panics"])
c("C50", "proved", ["few_changes_no_detection"])
c("C51", "proved", ["finder_test_is_exact", "accepted_is_finder_shaped", "perfect_finder_accepted", "missing_run_rejected"])
c("C59", "partial", ["finder_test_scale_invariant_partial", "finder_test_not_scale_invariant"],
  "The claim is false of the code: the tie in the comparison of the last run is decided by rounding (finder_test_not_scale_invariant: 2,2,4,2,2 is accepted, 6,6,12,6,6 is not). Away from the tie the test is scale invariant (finder_test_scale_invariant_partial).")

c("C52", "proved", ["extracted_grid_is_well_formed"])
c("C53", "proved", ["samples_are_bilinear", "bilinear_passes_through"])
c("C54", "proved", ["drawn_grid_is_extracted", "picture_is_extracted"])
c("C55", "partial", ["extraction_panics_beyond_the_image_only_partial", "extracted_modules_are_inside", "version_one_inside_is_extracted_partial", "version_one_outside_panics", "extraction_can_panic"],
  "The claim is false of the code: extraction_can_panic gives an image whose only detected location leads to a panic, because samples beyond the right or lower edge are not checked. This is the only reason: whenever extraction panics (versions 1 to 40, images at least two pixels wide), a module position, or a position within 21/5 modules of the expected alignment pattern, is beyond the right or lower edge; conversely a returned grid has no module beyond the edge. For version 1 the panic is located: no panic if all module positions are inside, a panic if one is outside.")
c("C60", "proved", ["drawn_symbol_decodes", "picture_of_text_decodes"])

c("C61", "proved", ["finder_not_overlooked"])
c("C62", "proved", ["exactly_the_finders"])
c("C63", "proved", ["symbol_is_detected"])
c("C64", "proved", ["default_decoder_results", "default_decoder_with_info_results"])
c("C65", "proved", ["default_decoder_reads_symbol"])
c("C66", "proved", ["symbol_is_among", "default_decoder_finds_symbol", "two_at_every_size"])
c("C67", "proved", ["default_decoder_reads_enlarged", "default_decoder_finds_enlarged", "picture_reads_at_every_size", "large_modules_are_legible",
  "hello_detected", "hello_at_every_size", "two_at_every_size"])

c("C68", "proved", ["default_decoder_reads_damaged", "damaged_reads_at_every_size", "default_decoder_decodes_grid", "default_decoder_finds_grid", "default_decoder_decodes_enlarged", "default_decoder_finds_enlarged_grid"], "The versions and levels are those of singlesRepaired (see C39). hit_at_every_size is a concrete damaged symbol.")

c("C69", "proved", ["right_angle_is_located", "turned_symbol_is_detected", "turned_symbol_is_among", "turned_location_extracts", "default_decoder_decodes_turned", "default_decoder_finds_turned", "default_decoder_reads_turned", "default_decoder_decodes_enlarged_turned", "turned_picture_reads_at_every_size"], "The positions are the four quarter turns (not_mirrored_iff); right_angle_is_located is for any angle. read_in_every_turn is a concrete symbol.")

c("C70", "proved", ["default_decoder_decodes_mirrored", "default_decoder_decodes_enlarged_mirrored", "mirrored_format", "mirrored_format_is_misread", "default_decoder_refuses_mirrored", "transposed_transposed"], "The finders are stored 'the other way around' for mirrored symbols, which keeps the sense of rotation but exchanges rows and columns. mirrored_at_every_size is a concrete flawless symbol that is refused when mirrored.")

c("C71", "proved", ["thresholding_ignores_lighting", "default_decoder_decodes_lit", "picture_reads_in_any_light"], "The condition that both colours occur in every window is needed: plain grey paper becomes black (C46). readPicture_mixed and readInLight_lit show a concrete symbol in uneven light.")
c("C72", "proved", ["extraction_fails_without_alignment_only", "shown_grid_extracts", "default_decoder_decodes_placed", "default_decoder_reads_placed"], "The places, their order and the modules that are looked at are in Spec/Sampling, ShowsGrid in Spec/Placed. PlacedExamples has a version 2 symbol whose alignment pattern is one module out of place, in uneven light.")
c("C73", "proved", ["default_decoder_finds_placed", "default_decoder_finds_in_perspective"], "PlacedExamples applies it to the symbol of C72.")
c("C74", "proved", ["tilted_grid_is_extracted", "tilted_symbol_decodes", "every_tilted_picture_is_extracted"], "What it means that an image shows a tilted grid is in Spec/Tilted. every_tilted_picture_is_extracted gives a picture and a location for every grid and every angle that meet the conditions.")
c("C75", "partial", ["located_tilted_symbol_is_read_partial", "shown_location_is_read", "tilted_hello_is_read", "tilted_symbol_is_overlooked"],
  "The claim is false of the code: tilted_symbol_is_overlooked is a flawless symbol tilted by 37 degrees, alone in a crisp image, for which both default decoders return nothing. The module size is estimated from runs along rows and columns, which are longer in a tilted symbol, so that the symbol seems to be too small. Proved: whenever the detector reports the symbol closely enough, it is read, at every angle. tilted_hello_is_read is a symbol tilted by 16 degrees that is read.")
c("C76", "proved", ["default_decoders_panic_iff", "decode_panics_iff", "detected_extraction_panics_only", "shown_grid_panics", "bad_symbol_panics_at_every_size"], "Larger images can overflow a sum in the thresholding (C45). MakesPanic is in Props/Panics, its parts in Spec/Panics. PanicsExamples has a symbol of version 1.")
c("C77", "proved", ["clear_geometry_is_located", "version_needs_module_size"], "ClearGeometry is in Spec/ClearGeometry; what is neither clear nor excluded by C48 is left to rounding. skew_is_clear is a concrete triangle.")
c("C78", "proved", ["data_returns_iff", "data_fails_iff", "decode_returns_iff", "decode_fails_iff", "default_decoder_texts"], "Says, Garbled and their parts are in Spec/Texts; CarriesData in Spec/Panics. Numeric groups with values that the standard does not use say their decimal digits (C14). The third outcome, a panic, is C15/C76.")
c("C79", "proved", ["no_symbol_located_twice"], "HasItsOwn is in Spec/Once. Half of the smaller of the two module sizes. Two locations may share two finder patterns: four finder patterns in a square make four locations (OnceExamples).")
c("C80", "proved", ["detection_sees_changes_only", "negative_is_found_alike", "negative_extracts_opposite", "default_decoder_decodes_negative", "default_decoder_decodes_lit_negative", "negative_format", "negative_level", "negative_is_not_extracted", "default_decoder_refuses_negative", "default_decoder_refuses_lit_negative"], "Spec/Negative. For version 1 the default decoders give what decoding makes of the negative grid (in the example an error). From version 2 on all 294 places where an alignment pattern is looked for are rejected, whatever the rounding within a hundredth of a pixel; for symbols turned by a quarter with odd module sizes some of these places fall on pixel boundaries, and these are left out of the statement.")
c("C81", "proved", ["correction_changes_little", "reported_errors_bounded", "returned_info_is_bounded"], "changedWords is in Spec/Bounds. This does not say that the changes are the right ones (C31, C32).")
c("C82", "proved", ["text_fits", "returned_texts_are_short", "returned_info_is_bounded", "longest_text"], "TextFits is in Spec/Bounds. The standard's maximum is 7089 characters; values that the standard does not use give one character more per group (C14).")
c("C83", "proved", ["resized_symbol_is_located", "resized_symbol_is_read", "scale_at_every_size"], "Resized, CalmRows and NothingAlike are in Spec/Resized. The pixels per module are those that the proof needs; smaller sizes are not refuted. Reading also asks that the source is black and white enough to be binarized exactly (Crisp).")

if __name__ == "__main__":
    out = os.path.join(os.path.dirname(__file__), "..", "MANIFEST.json")
    json.dump({"claims": C}, open(out, "w"), indent=1)
