import Verif.Props.Among
import Verif.Props.AmongExamples
import Verif.Props.Blocks
import Verif.Props.Bounds
import Verif.Props.Chomp
import Verif.Props.Clear
import Verif.Props.ClearExamples
import Verif.Props.Correct
import Verif.Props.Damage
import Verif.Props.DamageExamples
import Verif.Props.DamagedImage
import Verif.Props.DamagedImageExamples
import Verif.Props.Data
import Verif.Props.Decoder
import Verif.Props.DecoderExamples
import Verif.Props.Default
import Verif.Props.Detect
import Verif.Props.DetectExamples
import Verif.Props.Detection
import Verif.Props.Extract
import Verif.Props.ExtractExamples
import Verif.Props.ExtractPanics
import Verif.Props.ExtractReach
import Verif.Props.Finder
import Verif.Props.Format
import Verif.Props.Galois
import Verif.Props.Lighting
import Verif.Props.LightingExamples
import Verif.Props.Located
import Verif.Props.Mirrored
import Verif.Props.MirroredExamples
import Verif.Props.Negative
import Verif.Props.NegativeExamples
import Verif.Props.NegativeLarge
import Verif.Props.Once
import Verif.Props.OnceExamples
import Verif.Props.Panics
import Verif.Props.PanicsExamples
import Verif.Props.Pipeline
import Verif.Props.Placed
import Verif.Props.PlacedExamples
import Verif.Props.Rendering
import Verif.Props.Resized
import Verif.Props.ResizedExamples
import Verif.Props.Scales
import Verif.Props.ScalesExamples
import Verif.Props.Texts
import Verif.Props.Threshold
import Verif.Props.Tilted
import Verif.Props.TiltedExamples
import Verif.Props.TiltedOverlooked
import Verif.Props.TiltedRead
import Verif.Props.Turned
import Verif.Props.TurnedExamples
import Verif.Props.TurnedPicture
import Verif.Props.UnitTests

/-!
# The axioms of the theorems named in `MANIFEST.json`

Generated by `tools/axioms_gen.py`.
-/

/-- info: 'Verif.Props.chomp_reads_stream' depends on axioms: [propext, Classical.choice, Quot.sound] -/
#guard_msgs in
#print axioms Verif.Props.chomp_reads_stream

/-- info: 'Verif.Props.chomp_refuses_iff' depends on axioms: [propext, Classical.choice, Quot.sound] -/
#guard_msgs in
#print axioms Verif.Props.chomp_refuses_iff

/-- info: 'Verif.Props.chomp_refusal_harmless_partial' depends on axioms: [propext, Classical.choice, Quot.sound] -/
#guard_msgs in
#print axioms Verif.Props.chomp_refusal_harmless_partial

/-- info: 'Verif.Props.chomp_refusal_loses_bits' depends on axioms: [propext, Quot.sound] -/
#guard_msgs in
#print axioms Verif.Props.chomp_refusal_loses_bits

/-- info: 'Verif.Props.chomp_never_panics_and_sound' depends on axioms: [propext, Classical.choice, Quot.sound] -/
#guard_msgs in
#print axioms Verif.Props.chomp_never_panics_and_sound

/-- info: 'Verif.Props.chomp_u16_reads_stream' depends on axioms: [propext, Classical.choice, Quot.sound] -/
#guard_msgs in
#print axioms Verif.Props.chomp_u16_reads_stream

/-- info: 'Verif.Props.chomp_or_u16_error_value' depends on axioms: [propext, Classical.choice, Quot.sound] -/
#guard_msgs in
#print axioms Verif.Props.chomp_or_u16_error_value

/-- info: 'Verif.Props.chomp_or_u16_over_16_partial' depends on axioms: [propext, Classical.choice, Quot.sound] -/
#guard_msgs in
#print axioms Verif.Props.chomp_or_u16_over_16_partial

/-- info: 'Verif.Props.chomp_or_u16_over_16' depends on axioms: [propext, Classical.choice, Quot.sound] -/
#guard_msgs in
#print axioms Verif.Props.chomp_or_u16_over_16

/-- info: 'Verif.Props.numeric_roundtrip' depends on axioms: [propext, Classical.choice, Quot.sound] -/
#guard_msgs in
#print axioms Verif.Props.numeric_roundtrip

/-- info: 'Verif.Props.alphanumeric_roundtrip' depends on axioms: [propext, Classical.choice, Quot.sound] -/
#guard_msgs in
#print axioms Verif.Props.alphanumeric_roundtrip

/-- info: 'Verif.Props.byte_reading' depends on axioms: [propext, Classical.choice, Quot.sound] -/
#guard_msgs in
#print axioms Verif.Props.byte_reading

/-- info: 'Verif.Props.utf8_text_recovered_partial' depends on axioms: [propext, Classical.choice, Quot.sound] -/
#guard_msgs in
#print axioms Verif.Props.utf8_text_recovered_partial

/-- info: 'Verif.Props.utf8_text_recovered_iff' depends on axioms: [propext, Classical.choice, Quot.sound] -/
#guard_msgs in
#print axioms Verif.Props.utf8_text_recovered_iff

/-- info: 'Verif.Props.utf8_euro_misread' depends on axioms: [propext, Classical.choice, Quot.sound] -/
#guard_msgs in
#print axioms Verif.Props.utf8_euro_misread

/-- info: 'Verif.Props.data_segments' depends on axioms: [propext, Classical.choice, Quot.sound] -/
#guard_msgs in
#print axioms Verif.Props.data_segments

/-- info: 'Verif.Props.unsupported_mode' depends on axioms: [propext, Classical.choice, Quot.sound] -/
#guard_msgs in
#print axioms Verif.Props.unsupported_mode

/-- info: 'Verif.Props.truncated_is_error' depends on axioms: [propext, Classical.choice, Quot.sound] -/
#guard_msgs in
#print axioms Verif.Props.truncated_is_error

/-- info: 'Verif.Props.numeric_count_partial' depends on axioms: [propext, Classical.choice, Quot.sound] -/
#guard_msgs in
#print axioms Verif.Props.numeric_count_partial

/-- info: 'Verif.Props.numeric_count_wrong' depends on axioms: [propext, Classical.choice, Quot.sound] -/
#guard_msgs in
#print axioms Verif.Props.numeric_count_wrong

/-- info: 'Verif.Props.data_never_panics_partial' depends on axioms: [propext, Classical.choice, Quot.sound] -/
#guard_msgs in
#print axioms Verif.Props.data_never_panics_partial

/-- info: 'Verif.Props.data_panics_iff' depends on axioms: [propext, Classical.choice, Quot.sound] -/
#guard_msgs in
#print axioms Verif.Props.data_panics_iff

/-- info: 'Verif.Props.gf8_is_polynomial_arithmetic' depends on axioms: [propext, Quot.sound] -/
#guard_msgs in
#print axioms Verif.Props.gf8_is_polynomial_arithmetic

/-- info: 'Verif.Props.gf8_field_laws' depends on axioms: [propext, Classical.choice, Quot.sound] -/
#guard_msgs in
#print axioms Verif.Props.gf8_field_laws

/-- info: 'Verif.Props.gf8_tables' depends on axioms: [propext, Quot.sound] -/
#guard_msgs in
#print axioms Verif.Props.gf8_tables

/-- info: 'Verif.Props.gf8_div_mul_partial' depends on axioms: [propext, Classical.choice, Quot.sound] -/
#guard_msgs in
#print axioms Verif.Props.gf8_div_mul_partial

/-- info: 'Verif.Props.gf8_div_zero_numerator' depends on axioms: [propext, Quot.sound] -/
#guard_msgs in
#print axioms Verif.Props.gf8_div_zero_numerator

/-- info: 'Verif.Props.gf8_div_by_zero' depends on axioms: [propext, Quot.sound] -/
#guard_msgs in
#print axioms Verif.Props.gf8_div_by_zero

/-- info: 'Verif.Props.gf4_is_polynomial_arithmetic' depends on axioms: [propext, Quot.sound] -/
#guard_msgs in
#print axioms Verif.Props.gf4_is_polynomial_arithmetic

/-- info: 'Verif.Props.gf4_ring_laws' depends on axioms: [propext, Quot.sound] -/
#guard_msgs in
#print axioms Verif.Props.gf4_ring_laws

/-- info: 'Verif.Props.gf4_div_mul' depends on axioms: [propext, Quot.sound] -/
#guard_msgs in
#print axioms Verif.Props.gf4_div_mul

/-- info: 'Verif.Props.gf4_tables' depends on axioms: [propext, Quot.sound] -/
#guard_msgs in
#print axioms Verif.Props.gf4_tables

/-- info: 'Verif.Props.gf4_div_zero' depends on axioms: [propext, Quot.sound] -/
#guard_msgs in
#print axioms Verif.Props.gf4_div_zero

/-- info: 'Verif.Props.clean_format_first_copy' depends on axioms: [propext, Quot.sound] -/
#guard_msgs in
#print axioms Verif.Props.clean_format_first_copy

/-- info: 'Verif.Props.clean_format_second_copy' depends on axioms: [propext, Quot.sound] -/
#guard_msgs in
#print axioms Verif.Props.clean_format_second_copy

/-- info: 'Verif.Props.two_flips_corrected' depends on axioms: [propext, Classical.choice, Quot.sound] -/
#guard_msgs in
#print axioms Verif.Props.two_flips_corrected

/-- info: 'Verif.Props.two_flips_rejected' depends on axioms: [propext, Classical.choice, Quot.sound] -/
#guard_msgs in
#print axioms Verif.Props.two_flips_rejected

/-- info: 'Verif.Props.two_flips_never_misread' depends on axioms: [propext, Classical.choice, Quot.sound] -/
#guard_msgs in
#print axioms Verif.Props.two_flips_never_misread

/-- info: 'Verif.Props.three_flips_corrected_partial' depends on axioms: [propext, Classical.choice, Quot.sound] -/
#guard_msgs in
#print axioms Verif.Props.three_flips_corrected_partial

/-- info: 'Verif.Props.three_flips_misread' depends on axioms: [propext, Quot.sound] -/
#guard_msgs in
#print axioms Verif.Props.three_flips_misread

/-- info: 'Verif.Props.three_flips_count' depends on axioms: [propext, Quot.sound] -/
#guard_msgs in
#print axioms Verif.Props.three_flips_count

/-- info: 'Verif.Props.second_copy_is_fallback' depends on axioms: [propext, Quot.sound] -/
#guard_msgs in
#print axioms Verif.Props.second_copy_is_fallback

/-- info: 'Verif.Props.format_never_panics' depends on axioms: [propext, Quot.sound] -/
#guard_msgs in
#print axioms Verif.Props.format_never_panics

/-- info: 'Verif.Props.masks_are_iso' depends on axioms: [propext, Quot.sound] -/
#guard_msgs in
#print axioms Verif.Props.masks_are_iso

/-- info: 'Verif.Props.mask_involution' depends on axioms: [propext, Quot.sound] -/
#guard_msgs in
#print axioms Verif.Props.mask_involution

/-- info: 'Verif.Props.no_other_mask' depends on axioms: [propext, Quot.sound] -/
#guard_msgs in
#print axioms Verif.Props.no_other_mask

/-- info: 'Verif.Props.data_iff_not_function' depends on axioms: [propext, Classical.choice, Quot.sound] -/
#guard_msgs in
#print axioms Verif.Props.data_iff_not_function

/-- info: 'Verif.Props.blocks_consults_exactly_data_modules' depends on axioms: [propext, Classical.choice, Quot.sound] -/
#guard_msgs in
#print axioms Verif.Props.blocks_consults_exactly_data_modules

/-- info: 'Verif.Props.blocks_reads_zigzag' depends on axioms: [propext, Classical.choice, Quot.sound] -/
#guard_msgs in
#print axioms Verif.Props.blocks_reads_zigzag

/-- info: 'Verif.Props.data_modules_exactly_once' depends on axioms: [propext, Classical.choice, Quot.sound] -/
#guard_msgs in
#print axioms Verif.Props.data_modules_exactly_once

/-- info: 'Verif.Props.block_table_is_iso' depends on axioms: [propext, Classical.choice, Quot.sound] -/
#guard_msgs in
#print axioms Verif.Props.block_table_is_iso

/-- info: 'Verif.Props.data_module_count' depends on axioms: [propext, Classical.choice, Quot.sound] -/
#guard_msgs in
#print axioms Verif.Props.data_module_count

/-- info: 'Verif.Props.deinterleave_inverts_interleave' depends on axioms: [propext, Classical.choice, Quot.sound] -/
#guard_msgs in
#print axioms Verif.Props.deinterleave_inverts_interleave

/-- info: 'Verif.Props.blocks_of_placed_family' depends on axioms: [propext, Classical.choice, Quot.sound] -/
#guard_msgs in
#print axioms Verif.Props.blocks_of_placed_family

/-- info: 'Verif.Props.blocks_always_ok' depends on axioms: [propext, Classical.choice, Quot.sound] -/
#guard_msgs in
#print axioms Verif.Props.blocks_always_ok

/-- info: 'Verif.Props.codeword_untouched' depends on axioms: [propext, Classical.choice, Quot.sound] -/
#guard_msgs in
#print axioms Verif.Props.codeword_untouched

/-- info: 'Verif.Props.damage_repaired_iff_partial' depends on axioms: [propext, Classical.choice, Quot.sound] -/
#guard_msgs in
#print axioms Verif.Props.damage_repaired_iff_partial

/-- info: 'Verif.Props.single_error_repaired_iff_partial' depends on axioms: [propext, Classical.choice, Quot.sound] -/
#guard_msgs in
#print axioms Verif.Props.single_error_repaired_iff_partial

/-- info: 'Verif.Props.repairs_singles_iff_partial' depends on axioms: [propext, Classical.choice, Quot.sound] -/
#guard_msgs in
#print axioms Verif.Props.repairs_singles_iff_partial

/-- info: 'Verif.Props.single_error_lost_silently' depends on axioms: [propext, Classical.choice, Quot.sound] -/
#guard_msgs in
#print axioms Verif.Props.single_error_lost_silently

/-- info: 'Verif.Props.cancelling_errors_never_repaired' depends on axioms: [propext, Classical.choice, Quot.sound] -/
#guard_msgs in
#print axioms Verif.Props.cancelling_errors_never_repaired

/-- info: 'Verif.Props.accepted_parity_partial' depends on axioms: [propext, Classical.choice, Quot.sound] -/
#guard_msgs in
#print axioms Verif.Props.accepted_parity_partial

/-- info: 'Verif.Props.accepted_non_codeword' depends on axioms: [propext, Classical.choice, Quot.sound] -/
#guard_msgs in
#print axioms Verif.Props.accepted_non_codeword

/-- info: 'Verif.Props.error_count_is_bit_distance' depends on axioms: [propext, Classical.choice, Quot.sound] -/
#guard_msgs in
#print axioms Verif.Props.error_count_is_bit_distance

/-- info: 'Verif.Props.correction_total' depends on axioms: [propext, Classical.choice, Quot.sound] -/
#guard_msgs in
#print axioms Verif.Props.correction_total

/-- info: 'Verif.Props.unknown_version_rejected' depends on axioms: [propext, Classical.choice, Quot.sound] -/
#guard_msgs in
#print axioms Verif.Props.unknown_version_rejected

/-- info: 'Verif.Props.unknown_version_never_ok' depends on axioms: [propext, Classical.choice, Quot.sound] -/
#guard_msgs in
#print axioms Verif.Props.unknown_version_never_ok

/-- info: 'Verif.Props.symbol_decodes' depends on axioms: [propext, Classical.choice, Quot.sound] -/
#guard_msgs in
#print axioms Verif.Props.symbol_decodes

/-- info: 'Verif.Props.encode_decode' depends on axioms: [propext, Classical.choice, Quot.sound] -/
#guard_msgs in
#print axioms Verif.Props.encode_decode

/-- info: 'Verif.Props.only_data_and_first_format_matter' depends on axioms: [propext, Classical.choice, Quot.sound] -/
#guard_msgs in
#print axioms Verif.Props.only_data_and_first_format_matter

/-- info: 'Verif.Props.only_data_and_formats_matter' depends on axioms: [propext, Classical.choice, Quot.sound] -/
#guard_msgs in
#print axioms Verif.Props.only_data_and_formats_matter

/-- info: 'Verif.Props.info_decoder_agrees' depends on axioms: [propext, Classical.choice, Quot.sound] -/
#guard_msgs in
#print axioms Verif.Props.info_decoder_agrees

/-- info: 'Verif.Props.extraction_error_passed_on' depends on axioms: [propext, Classical.choice, Quot.sound] -/
#guard_msgs in
#print axioms Verif.Props.extraction_error_passed_on

/-- info: 'Verif.Props.info_describes_symbol_partial' depends on axioms: [propext, Classical.choice, Quot.sound] -/
#guard_msgs in
#print axioms Verif.Props.info_describes_symbol_partial

/-- info: 'Verif.Props.total_data_omits_ec' depends on axioms: [propext, Classical.choice, Quot.sound] -/
#guard_msgs in
#print axioms Verif.Props.total_data_omits_ec

/-- info: 'Verif.Props.decode_runs_all_locations' depends on axioms: [propext] -/
#guard_msgs in
#print axioms Verif.Props.decode_runs_all_locations

/-- info: 'Verif.Props.one_result_per_location' depends on axioms: [propext] -/
#guard_msgs in
#print axioms Verif.Props.one_result_per_location

/-- info: 'Verif.Props.locations_are_independent' depends on axioms: [propext] -/
#guard_msgs in
#print axioms Verif.Props.locations_are_independent

/-- info: 'Verif.Props.builder_last_wins' depends on axioms: [propext, Quot.sound] -/
#guard_msgs in
#print axioms Verif.Props.builder_last_wins

/-- info: 'Verif.Props.grid_indexing' depends on axioms: [propext, Quot.sound] -/
#guard_msgs in
#print axioms Verif.Props.grid_indexing

/-- info: 'Verif.Props.damaged_symbol_decodes' depends on axioms: [propext, Classical.choice, Quot.sound] -/
#guard_msgs in
#print axioms Verif.Props.damaged_symbol_decodes

/-- info: 'Verif.Props.prepare_black_white' depends on axioms: [propext, Classical.choice, Quot.sound] -/
#guard_msgs in
#print axioms Verif.Props.prepare_black_white

/-- info: 'Verif.Props.prepare_threshold' depends on axioms: [propext, Classical.choice, Quot.sound] -/
#guard_msgs in
#print axioms Verif.Props.prepare_threshold

/-- info: 'Verif.Props.prepare_returns_iff' depends on axioms: [propext, Classical.choice, Quot.sound] -/
#guard_msgs in
#print axioms Verif.Props.prepare_returns_iff

/-- info: 'Verif.Props.prepare_never_panics_false' depends on axioms: [propext, Classical.choice, Quot.sound] -/
#guard_msgs in
#print axioms Verif.Props.prepare_never_panics_false

/-- info: 'Verif.Props.uniform_image' depends on axioms: [propext, Classical.choice, Quot.sound] -/
#guard_msgs in
#print axioms Verif.Props.uniform_image

/-- info: 'Verif.Props.brighter_stays_brighter' depends on axioms: [propext, Classical.choice, Quot.sound] -/
#guard_msgs in
#print axioms Verif.Props.brighter_stays_brighter

/-- info: 'Verif.Props.threshold_is_local' depends on axioms: [propext, Classical.choice, Quot.sound] -/
#guard_msgs in
#print axioms Verif.Props.threshold_is_local

/-- info: 'Verif.Props.default_prepare_returns' depends on axioms: [propext, Classical.choice, Quot.sound] -/
#guard_msgs in
#print axioms Verif.Props.default_prepare_returns

/-- info: 'Verif.Props.detected_locations_are_proper' depends on axioms: [propext, Classical.choice, Quot.sound] -/
#guard_msgs in
#print axioms Verif.Props.detected_locations_are_proper

/-- info: 'Verif.Props.detect_never_panics' depends on axioms: [propext, Classical.choice, Quot.sound] -/
#guard_msgs in
#print axioms Verif.Props.detect_never_panics

/-- info: 'Verif.Props.few_changes_no_detection' depends on axioms: [propext, Classical.choice, Quot.sound] -/
#guard_msgs in
#print axioms Verif.Props.few_changes_no_detection

/-- info: 'Verif.Props.finder_test_is_exact' depends on axioms: [propext, Classical.choice, Quot.sound] -/
#guard_msgs in
#print axioms Verif.Props.finder_test_is_exact

/-- info: 'Verif.Props.accepted_is_finder_shaped' depends on axioms: [propext, Classical.choice, Quot.sound] -/
#guard_msgs in
#print axioms Verif.Props.accepted_is_finder_shaped

/-- info: 'Verif.Props.perfect_finder_accepted' depends on axioms: [propext, Classical.choice, Quot.sound] -/
#guard_msgs in
#print axioms Verif.Props.perfect_finder_accepted

/-- info: 'Verif.Props.missing_run_rejected' depends on axioms: [propext, Classical.choice, Quot.sound] -/
#guard_msgs in
#print axioms Verif.Props.missing_run_rejected

/-- info: 'Verif.Props.finder_test_scale_invariant_partial' depends on axioms: [propext, Classical.choice, Quot.sound] -/
#guard_msgs in
#print axioms Verif.Props.finder_test_scale_invariant_partial

/-- info: 'Verif.Props.finder_test_not_scale_invariant' depends on axioms: [propext, Classical.choice, Quot.sound] -/
#guard_msgs in
#print axioms Verif.Props.finder_test_not_scale_invariant

/-- info: 'Verif.Props.extracted_grid_is_well_formed' depends on axioms: [propext, Classical.choice, Quot.sound] -/
#guard_msgs in
#print axioms Verif.Props.extracted_grid_is_well_formed

/-- info: 'Verif.Props.samples_are_bilinear' depends on axioms: [propext, Classical.choice, Quot.sound] -/
#guard_msgs in
#print axioms Verif.Props.samples_are_bilinear

/-- info: 'Verif.Props.bilinear_passes_through' depends on axioms: [propext, Classical.choice, Quot.sound] -/
#guard_msgs in
#print axioms Verif.Props.bilinear_passes_through

/-- info: 'Verif.Props.drawn_grid_is_extracted' depends on axioms: [propext, Classical.choice, Quot.sound] -/
#guard_msgs in
#print axioms Verif.Props.drawn_grid_is_extracted

/-- info: 'Verif.Props.picture_is_extracted' depends on axioms: [propext, Classical.choice, Quot.sound] -/
#guard_msgs in
#print axioms Verif.Props.picture_is_extracted

/-- info: 'Verif.Props.extraction_panics_beyond_the_image_only_partial' depends on axioms: [propext, Classical.choice, Quot.sound] -/
#guard_msgs in
#print axioms Verif.Props.extraction_panics_beyond_the_image_only_partial

/-- info: 'Verif.Props.extracted_modules_are_inside' depends on axioms: [propext, Classical.choice, Quot.sound] -/
#guard_msgs in
#print axioms Verif.Props.extracted_modules_are_inside

/-- info: 'Verif.Props.version_one_inside_is_extracted_partial' depends on axioms: [propext, Classical.choice, Quot.sound] -/
#guard_msgs in
#print axioms Verif.Props.version_one_inside_is_extracted_partial

/-- info: 'Verif.Props.version_one_outside_panics' depends on axioms: [propext, Classical.choice, Quot.sound] -/
#guard_msgs in
#print axioms Verif.Props.version_one_outside_panics

/-- info: 'Verif.Props.extraction_can_panic' depends on axioms: [propext, Classical.choice, Quot.sound] -/
#guard_msgs in
#print axioms Verif.Props.extraction_can_panic

/-- info: 'Verif.Props.drawn_symbol_decodes' depends on axioms: [propext, Classical.choice, Quot.sound] -/
#guard_msgs in
#print axioms Verif.Props.drawn_symbol_decodes

/-- info: 'Verif.Props.picture_of_text_decodes' depends on axioms: [propext, Classical.choice, Quot.sound] -/
#guard_msgs in
#print axioms Verif.Props.picture_of_text_decodes

/-- info: 'Verif.Props.finder_not_overlooked' depends on axioms: [propext, Classical.choice, Quot.sound] -/
#guard_msgs in
#print axioms Verif.Props.finder_not_overlooked

/-- info: 'Verif.Props.exactly_the_finders' depends on axioms: [propext, Classical.choice, Quot.sound] -/
#guard_msgs in
#print axioms Verif.Props.exactly_the_finders

/-- info: 'Verif.Props.symbol_is_detected' depends on axioms: [propext, Classical.choice, Quot.sound] -/
#guard_msgs in
#print axioms Verif.Props.symbol_is_detected

/-- info: 'Verif.Props.default_decoder_results' depends on axioms: [propext, Classical.choice, Quot.sound] -/
#guard_msgs in
#print axioms Verif.Props.default_decoder_results

/-- info: 'Verif.Props.default_decoder_with_info_results' depends on axioms: [propext, Classical.choice, Quot.sound] -/
#guard_msgs in
#print axioms Verif.Props.default_decoder_with_info_results

/-- info: 'Verif.Props.default_decoder_reads_symbol' depends on axioms: [propext, Classical.choice, Quot.sound] -/
#guard_msgs in
#print axioms Verif.Props.default_decoder_reads_symbol

/-- info: 'Verif.Props.symbol_is_among' depends on axioms: [propext, Classical.choice, Quot.sound] -/
#guard_msgs in
#print axioms Verif.Props.symbol_is_among

/-- info: 'Verif.Props.default_decoder_finds_symbol' depends on axioms: [propext, Classical.choice, Quot.sound] -/
#guard_msgs in
#print axioms Verif.Props.default_decoder_finds_symbol

/-- info: 'Verif.Props.two_at_every_size' depends on axioms: [propext, Classical.choice, Quot.sound] -/
#guard_msgs in
#print axioms Verif.Props.two_at_every_size

/-- info: 'Verif.Props.default_decoder_reads_enlarged' depends on axioms: [propext, Classical.choice, Quot.sound] -/
#guard_msgs in
#print axioms Verif.Props.default_decoder_reads_enlarged

/-- info: 'Verif.Props.default_decoder_finds_enlarged' depends on axioms: [propext, Classical.choice, Quot.sound] -/
#guard_msgs in
#print axioms Verif.Props.default_decoder_finds_enlarged

/-- info: 'Verif.Props.picture_reads_at_every_size' depends on axioms: [propext, Classical.choice, Quot.sound] -/
#guard_msgs in
#print axioms Verif.Props.picture_reads_at_every_size

/-- info: 'Verif.Props.large_modules_are_legible' depends on axioms: [propext, Classical.choice, Quot.sound] -/
#guard_msgs in
#print axioms Verif.Props.large_modules_are_legible

/-- info: 'Verif.Props.hello_detected' depends on axioms: [propext, Classical.choice, Quot.sound] -/
#guard_msgs in
#print axioms Verif.Props.hello_detected

/-- info: 'Verif.Props.hello_at_every_size' depends on axioms: [propext, Classical.choice, Quot.sound] -/
#guard_msgs in
#print axioms Verif.Props.hello_at_every_size

/-- info: 'Verif.Props.default_decoder_reads_damaged' depends on axioms: [propext, Classical.choice, Quot.sound] -/
#guard_msgs in
#print axioms Verif.Props.default_decoder_reads_damaged

/-- info: 'Verif.Props.damaged_reads_at_every_size' depends on axioms: [propext, Classical.choice, Quot.sound] -/
#guard_msgs in
#print axioms Verif.Props.damaged_reads_at_every_size

/-- info: 'Verif.Props.default_decoder_decodes_grid' depends on axioms: [propext, Classical.choice, Quot.sound] -/
#guard_msgs in
#print axioms Verif.Props.default_decoder_decodes_grid

/-- info: 'Verif.Props.default_decoder_finds_grid' depends on axioms: [propext, Classical.choice, Quot.sound] -/
#guard_msgs in
#print axioms Verif.Props.default_decoder_finds_grid

/-- info: 'Verif.Props.default_decoder_decodes_enlarged' depends on axioms: [propext, Classical.choice, Quot.sound] -/
#guard_msgs in
#print axioms Verif.Props.default_decoder_decodes_enlarged

/-- info: 'Verif.Props.default_decoder_finds_enlarged_grid' depends on axioms: [propext, Classical.choice, Quot.sound] -/
#guard_msgs in
#print axioms Verif.Props.default_decoder_finds_enlarged_grid

/-- info: 'Verif.Props.right_angle_is_located' depends on axioms: [propext, Classical.choice, Quot.sound] -/
#guard_msgs in
#print axioms Verif.Props.right_angle_is_located

/-- info: 'Verif.Props.turned_symbol_is_detected' depends on axioms: [propext, Classical.choice, Quot.sound] -/
#guard_msgs in
#print axioms Verif.Props.turned_symbol_is_detected

/-- info: 'Verif.Props.turned_symbol_is_among' depends on axioms: [propext, Classical.choice, Quot.sound] -/
#guard_msgs in
#print axioms Verif.Props.turned_symbol_is_among

/-- info: 'Verif.Props.turned_location_extracts' depends on axioms: [propext, Classical.choice, Quot.sound] -/
#guard_msgs in
#print axioms Verif.Props.turned_location_extracts

/-- info: 'Verif.Props.default_decoder_decodes_turned' depends on axioms: [propext, Classical.choice, Quot.sound] -/
#guard_msgs in
#print axioms Verif.Props.default_decoder_decodes_turned

/-- info: 'Verif.Props.default_decoder_finds_turned' depends on axioms: [propext, Classical.choice, Quot.sound] -/
#guard_msgs in
#print axioms Verif.Props.default_decoder_finds_turned

/-- info: 'Verif.Props.default_decoder_reads_turned' depends on axioms: [propext, Classical.choice, Quot.sound] -/
#guard_msgs in
#print axioms Verif.Props.default_decoder_reads_turned

/-- info: 'Verif.Props.default_decoder_decodes_enlarged_turned' depends on axioms: [propext, Classical.choice, Quot.sound] -/
#guard_msgs in
#print axioms Verif.Props.default_decoder_decodes_enlarged_turned

/-- info: 'Verif.Props.turned_picture_reads_at_every_size' depends on axioms: [propext, Classical.choice, Quot.sound] -/
#guard_msgs in
#print axioms Verif.Props.turned_picture_reads_at_every_size

/-- info: 'Verif.Props.default_decoder_decodes_mirrored' depends on axioms: [propext, Classical.choice, Quot.sound] -/
#guard_msgs in
#print axioms Verif.Props.default_decoder_decodes_mirrored

/-- info: 'Verif.Props.default_decoder_decodes_enlarged_mirrored' depends on axioms: [propext, Classical.choice, Quot.sound] -/
#guard_msgs in
#print axioms Verif.Props.default_decoder_decodes_enlarged_mirrored

/-- info: 'Verif.Props.mirrored_format' depends on axioms: [propext, Quot.sound] -/
#guard_msgs in
#print axioms Verif.Props.mirrored_format

/-- info: 'Verif.Props.mirrored_format_is_misread' depends on axioms: [propext, Quot.sound] -/
#guard_msgs in
#print axioms Verif.Props.mirrored_format_is_misread

/-- info: 'Verif.Props.default_decoder_refuses_mirrored' depends on axioms: [propext, Classical.choice, Quot.sound] -/
#guard_msgs in
#print axioms Verif.Props.default_decoder_refuses_mirrored

/-- info: 'Verif.Props.transposed_transposed' depends on axioms: [propext, Classical.choice, Quot.sound] -/
#guard_msgs in
#print axioms Verif.Props.transposed_transposed

/-- info: 'Verif.Props.thresholding_ignores_lighting' depends on axioms: [propext, Classical.choice, Quot.sound] -/
#guard_msgs in
#print axioms Verif.Props.thresholding_ignores_lighting

/-- info: 'Verif.Props.default_decoder_decodes_lit' depends on axioms: [propext, Classical.choice, Quot.sound] -/
#guard_msgs in
#print axioms Verif.Props.default_decoder_decodes_lit

/-- info: 'Verif.Props.picture_reads_in_any_light' depends on axioms: [propext, Classical.choice, Quot.sound] -/
#guard_msgs in
#print axioms Verif.Props.picture_reads_in_any_light

/-- info: 'Verif.Props.extraction_fails_without_alignment_only' depends on axioms: [propext, Classical.choice, Quot.sound] -/
#guard_msgs in
#print axioms Verif.Props.extraction_fails_without_alignment_only

/-- info: 'Verif.Props.shown_grid_extracts' depends on axioms: [propext, Classical.choice, Quot.sound] -/
#guard_msgs in
#print axioms Verif.Props.shown_grid_extracts

/-- info: 'Verif.Props.default_decoder_decodes_placed' depends on axioms: [propext, Classical.choice, Quot.sound] -/
#guard_msgs in
#print axioms Verif.Props.default_decoder_decodes_placed

/-- info: 'Verif.Props.default_decoder_reads_placed' depends on axioms: [propext, Classical.choice, Quot.sound] -/
#guard_msgs in
#print axioms Verif.Props.default_decoder_reads_placed

/-- info: 'Verif.Props.default_decoder_finds_placed' depends on axioms: [propext, Classical.choice, Quot.sound] -/
#guard_msgs in
#print axioms Verif.Props.default_decoder_finds_placed

/-- info: 'Verif.Props.default_decoder_finds_in_perspective' depends on axioms: [propext, Classical.choice, Quot.sound] -/
#guard_msgs in
#print axioms Verif.Props.default_decoder_finds_in_perspective

/-- info: 'Verif.Props.tilted_grid_is_extracted' depends on axioms: [propext, Classical.choice, Quot.sound] -/
#guard_msgs in
#print axioms Verif.Props.tilted_grid_is_extracted

/-- info: 'Verif.Props.tilted_symbol_decodes' depends on axioms: [propext, Classical.choice, Quot.sound] -/
#guard_msgs in
#print axioms Verif.Props.tilted_symbol_decodes

/-- info: 'Verif.Props.every_tilted_picture_is_extracted' depends on axioms: [propext, Classical.choice, Quot.sound] -/
#guard_msgs in
#print axioms Verif.Props.every_tilted_picture_is_extracted

/-- info: 'Verif.Props.located_tilted_symbol_is_read_partial' depends on axioms: [propext, Classical.choice, Quot.sound] -/
#guard_msgs in
#print axioms Verif.Props.located_tilted_symbol_is_read_partial

/-- info: 'Verif.Props.shown_location_is_read' depends on axioms: [propext, Classical.choice, Quot.sound] -/
#guard_msgs in
#print axioms Verif.Props.shown_location_is_read

/-- info: 'Verif.Props.tilted_hello_is_read' depends on axioms: [propext, Classical.choice, Quot.sound] -/
#guard_msgs in
#print axioms Verif.Props.tilted_hello_is_read

/-- info: 'Verif.Props.tilted_symbol_is_overlooked' depends on axioms: [propext, Classical.choice, Quot.sound] -/
#guard_msgs in
#print axioms Verif.Props.tilted_symbol_is_overlooked

/-- info: 'Verif.Props.default_decoders_panic_iff' depends on axioms: [propext, Classical.choice, Quot.sound] -/
#guard_msgs in
#print axioms Verif.Props.default_decoders_panic_iff

/-- info: 'Verif.Props.decode_panics_iff' depends on axioms: [propext, Classical.choice, Quot.sound] -/
#guard_msgs in
#print axioms Verif.Props.decode_panics_iff

/-- info: 'Verif.Props.detected_extraction_panics_only' depends on axioms: [propext, Classical.choice, Quot.sound] -/
#guard_msgs in
#print axioms Verif.Props.detected_extraction_panics_only

/-- info: 'Verif.Props.shown_grid_panics' depends on axioms: [propext, Classical.choice, Quot.sound] -/
#guard_msgs in
#print axioms Verif.Props.shown_grid_panics

/-- info: 'Verif.Props.bad_symbol_panics_at_every_size' depends on axioms: [propext, Classical.choice, Quot.sound] -/
#guard_msgs in
#print axioms Verif.Props.bad_symbol_panics_at_every_size

/-- info: 'Verif.Props.clear_geometry_is_located' depends on axioms: [propext, Classical.choice, Quot.sound] -/
#guard_msgs in
#print axioms Verif.Props.clear_geometry_is_located

/-- info: 'Verif.Props.version_needs_module_size' depends on axioms: [propext, Classical.choice, Quot.sound] -/
#guard_msgs in
#print axioms Verif.Props.version_needs_module_size

/-- info: 'Verif.Props.data_returns_iff' depends on axioms: [propext, Classical.choice, Quot.sound] -/
#guard_msgs in
#print axioms Verif.Props.data_returns_iff

/-- info: 'Verif.Props.data_fails_iff' depends on axioms: [propext, Classical.choice, Quot.sound] -/
#guard_msgs in
#print axioms Verif.Props.data_fails_iff

/-- info: 'Verif.Props.decode_returns_iff' depends on axioms: [propext, Classical.choice, Quot.sound] -/
#guard_msgs in
#print axioms Verif.Props.decode_returns_iff

/-- info: 'Verif.Props.decode_fails_iff' depends on axioms: [propext, Classical.choice, Quot.sound] -/
#guard_msgs in
#print axioms Verif.Props.decode_fails_iff

/-- info: 'Verif.Props.default_decoder_texts' depends on axioms: [propext, Classical.choice, Quot.sound] -/
#guard_msgs in
#print axioms Verif.Props.default_decoder_texts

/-- info: 'Verif.Props.no_symbol_located_twice' depends on axioms: [propext, Classical.choice, Quot.sound] -/
#guard_msgs in
#print axioms Verif.Props.no_symbol_located_twice

/-- info: 'Verif.Props.detection_sees_changes_only' depends on axioms: [propext, Classical.choice, Quot.sound] -/
#guard_msgs in
#print axioms Verif.Props.detection_sees_changes_only

/-- info: 'Verif.Props.negative_is_found_alike' depends on axioms: [propext, Classical.choice, Quot.sound] -/
#guard_msgs in
#print axioms Verif.Props.negative_is_found_alike

/-- info: 'Verif.Props.negative_extracts_opposite' depends on axioms: [propext, Classical.choice, Quot.sound] -/
#guard_msgs in
#print axioms Verif.Props.negative_extracts_opposite

/-- info: 'Verif.Props.default_decoder_decodes_negative' depends on axioms: [propext, Classical.choice, Quot.sound] -/
#guard_msgs in
#print axioms Verif.Props.default_decoder_decodes_negative

/-- info: 'Verif.Props.default_decoder_decodes_lit_negative' depends on axioms: [propext, Classical.choice, Quot.sound] -/
#guard_msgs in
#print axioms Verif.Props.default_decoder_decodes_lit_negative

/-- info: 'Verif.Props.negative_format' depends on axioms: [propext, Quot.sound] -/
#guard_msgs in
#print axioms Verif.Props.negative_format

/-- info: 'Verif.Props.negative_level' depends on axioms: [propext, Classical.choice, Quot.sound] -/
#guard_msgs in
#print axioms Verif.Props.negative_level

/-- info: 'Verif.Props.negative_is_not_extracted' depends on axioms: [propext, Classical.choice, Quot.sound] -/
#guard_msgs in
#print axioms Verif.Props.negative_is_not_extracted

/-- info: 'Verif.Props.default_decoder_refuses_negative' depends on axioms: [propext, Classical.choice, Quot.sound] -/
#guard_msgs in
#print axioms Verif.Props.default_decoder_refuses_negative

/-- info: 'Verif.Props.default_decoder_refuses_lit_negative' depends on axioms: [propext, Classical.choice, Quot.sound] -/
#guard_msgs in
#print axioms Verif.Props.default_decoder_refuses_lit_negative

/-- info: 'Verif.Props.correction_changes_little' depends on axioms: [propext, Classical.choice, Quot.sound] -/
#guard_msgs in
#print axioms Verif.Props.correction_changes_little

/-- info: 'Verif.Props.reported_errors_bounded' depends on axioms: [propext, Classical.choice, Quot.sound] -/
#guard_msgs in
#print axioms Verif.Props.reported_errors_bounded

/-- info: 'Verif.Props.returned_info_is_bounded' depends on axioms: [propext, Classical.choice, Quot.sound] -/
#guard_msgs in
#print axioms Verif.Props.returned_info_is_bounded

/-- info: 'Verif.Props.text_fits' depends on axioms: [propext, Classical.choice, Quot.sound] -/
#guard_msgs in
#print axioms Verif.Props.text_fits

/-- info: 'Verif.Props.returned_texts_are_short' depends on axioms: [propext, Classical.choice, Quot.sound] -/
#guard_msgs in
#print axioms Verif.Props.returned_texts_are_short

/-- info: 'Verif.Props.longest_text' depends on axioms: [propext, Classical.choice, Quot.sound] -/
#guard_msgs in
#print axioms Verif.Props.longest_text

/-- info: 'Verif.Props.resized_symbol_is_located' depends on axioms: [propext, Classical.choice, Quot.sound] -/
#guard_msgs in
#print axioms Verif.Props.resized_symbol_is_located

/-- info: 'Verif.Props.resized_symbol_is_read' depends on axioms: [propext, Classical.choice, Quot.sound] -/
#guard_msgs in
#print axioms Verif.Props.resized_symbol_is_read

/-- info: 'Verif.Props.scale_at_every_size' depends on axioms: [propext, Classical.choice, Quot.sound] -/
#guard_msgs in
#print axioms Verif.Props.scale_at_every_size
