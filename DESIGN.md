# Formal model of bardecoder in Lean 4: design

## 1. Shape of the development

    lean/Verif/Model/*   the code, function by function; each definition cites /repo file and lines
    lean/Verif/Spec/*    small specifications written from ISO/IEC 18004 / the API docs, not from the code
    lean/Verif/Lemmas/*  helper lemmas (no property is stated here)
    lean/Verif/Props/*   the property theorems, one file per area, with non-vacuity examples beside them

Specifications never use model helpers; theorems in `Props` relate a model entry point to a spec.

## 2. Modelling conventions

* `u8` is `BitVec 8`; `u16` is `BitVec 16`. `u32`, `u64`, `usize` counters are `Nat`. Where Rust would panic
  because of under/overflow (overflow checks on), an out-of-range index, a division by zero, an over-long shift
  or an `unwrap` on `None`, the model returns an explicit `panic` outcome (`Verif.Outcome`), so "never panics" is a
  theorem, not an assumption. Overflow of `u32`/`usize` upwards is not modelled unless a definition says so.
* `Result<T, QRError>` is kept: `Outcome.ok / Outcome.err / Outcome.panic`. Error messages are kept.
* `&mut` arguments become returned values; loops become folds or structural/fuel recursion (fuel is shown to be
  sufficient where it is used).
* Rust `String` is `List Char` (both are sequences of Unicode scalar values).
* `f64` is an executable model of IEEE-754 binary64 with round-to-nearest-even over exact rationals
  (`Model/Float`); signed zeros are merged (documented there).
* `log` macros (`debug!`, `trace!`) and the `debug-images` feature are not modelled: no effect on results.
* External: `image::imageops::grayscale` (parameter: the model starts from the grey image), `String::from_utf8`
  (modelled by Lean core's UTF-8 validator/decoder), `GrayImage` (row-major list of pixels with width and height).

## 3. Trusted base

Lean 4.33.0 kernel; axioms `propext`, `Classical.choice`, `Quot.sound` only (`Props/Axioms.lean` has the list for every theorem
of the manifest, checked in every build). No `sorry`, no own axioms, no `native_decide`, no `bv_decide`. The tie from model to Rust is a
careful reading; the Rust code is not run.

## 4. Plan per property

| id | modelled | how proved |
|----|----------|-----------|
| C01-C04 | `Chomp` state machine | refinement to a list of bits, invariant over arbitrary request histories; C03 is false of the code: witness + what remains true |
| C05-C06 | `chomp_or_u16` | from the refinement; C06 is false of the code: universal refutation |
| C07-C15 | `data`, `numeric`, `alphanumeric`, `eight_bit` | encoder spec over bit lists, induction on the segment list / payload; C10, C14, C15 false of the code: witness, exact condition, and partial theorem |
| C16-C18 | GF tables | finite tables by `decide +kernel`, lifted to laws through log/exp and linearity; C17 false at numerator 0 |
| C19-C22 | `format*` | linearity of syndromes, finite tables for words x flips lifted to arbitrary grids; C21 false: witness |
| C23 | masks | case split on the mask, arithmetic |
| C24-C25, C28 | `is_data`, `y_range`, `blocks` | spec of function patterns; arithmetic per version; list lemmas for the zigzag |
| C26 | `block_info` | whole-table kernel evaluation against independent ISO formulae |
| C27 | `Blocks`, `Codewords` | invariant on the push state machine, for arbitrary block families |
| C29 | `block_info` | case analysis |
| C30-C34 | `correct*`, `solve`, `find_locs`, `calculate_distances` | Mathlib polynomials over the field from C16; C31, C32 false of the code: witnesses + exact single-error characterisation + conditional theorem |
| C35-C39 | both decoders | composition of the above |
| C40-C41 | pipeline and builder | list induction over arbitrary components / call histories |
| C42 | `QRData` | direct |
| C43-C47 | `BlockedMean` on the float model | invariants of the accumulation loops, rounding lemmas |
| C48-C51 | `LineScan` on the float model | loop invariants on run counters; rounding-error bounds |
| C52-C54 | `QRExtractor` on the float model | loop invariants, closed forms, forward error bounds (`Lemmas/Near`) |
| C55 | `QRExtractor` | false: witness; every panic is traced to a position beyond the right or lower edge (error bounds for all tested points, `Lemmas/Reach`), exactly located for version 1 |
| C56 | decoder on damaged symbols | correction theorems C30-C34 and layout lemmas |
| C57, C58 | `BlockedMean` | closed form of the block sums |
| C59 | finder test | false: witness, and the scale invariance away from the tie |
| C60 | `QRExtractor` and `QRDecoder` | composition of C54 and C35 |
| C61 | `LineScan::detect` | loop invariant over the pixels of one row; exact evaluation of the three refinements on a clean finder pattern (half-integer arithmetic is exact in the float model) |
| C62 | `LineScan::detect` | loop invariant over all pixels: candidates are exactly the finder patterns noticed so far |
| C63 | `LineScan::detect`, `find_qr` | C62 and exact evaluation of `find_qr` on the three candidates |
| C64 | `default_decoder`, `default_decoder_with_info`, `Decoder::decode` | unfolding the generic `decode` on the default components; preparation by C58, detection by C49 |
| C65 | the whole default pipeline | composition of C63, C60, C35 and C64 |
| C66 | `LineScan::detect`, `find_qr`, the default pipeline | invariant of the scan: the exact candidate of a finder pattern is added when the scan comes to it, as everything found before is too far away to suppress it; then as C63, C65 |
| C67 | the whole default pipeline on enlarged images | run lengths of an enlargement are multiples of those of the small image, so conditions on the small image, in fractions, imply those of C65 and C66 for every scale; thresholding is shown to give back the black and white image by counting pixels in the window (for every scale from 5 on, for scales 2 to 4 after a check of the small image); `*Examples` check the conditions for concrete symbols |
| C68 | the default pipeline on images of damaged symbols | C65 to C67 are proved for grids with any data modules (detection and extraction only look at the function patterns), then composed with C56; `DamagedImageExamples` has a symbol with a codeword and two format modules inverted |
| C69 | `find_qr` and extraction for symbols in any axis-parallel position | `find_qr_internal` is evaluated on right isosceles triangles at any angle (squared lengths are exact up to the error of the square root); the eight positions of a picture are described by two reversals and an exchange, and the extraction proofs are done for all eight at once |
| C70 | the default pipeline on mirrored pictures | a mirrored picture of a grid is a turned picture of its transpose, so C69 applies; the two format copies of the transpose show the reversed word (the second with the dark module in the middle), and the 32 words are evaluated by the kernel |
| C71 | thresholding of grey images, the default pipeline on them | the mean of a window with an eighth of each colour is at least an eighth of the contrast away from both levels, up to the variation; the thresholded image is then an enlargement of the grid, to which the proofs of C69 apply; `LightingExamples` has a symbol in a light that changes over the image |
| C72 | the search for the alignment pattern, the default pipeline on symbols that are not square | the list of tried places is enumerated; a place passes the test only if the pixels near to it allow it, and passes it if they demand it (positions are exact up to a hundredth of a pixel); extraction then samples the bilinear grid through the middle of the spot found (C53); detection as in C69; `PlacedExamples` checks a picture with a displaced alignment pattern by kernel evaluation |
| C73 | the default pipeline, other things in the image | detection as in C66 and C69, extraction as in C72 |
| C74 | extraction of grids at any angle | the image is described over the reals; the bilinear positions are the true ones up to the tolerance; a line through the dark spot in the middle of the alignment pattern ends within a known distance of its edges at every angle (`Lemmas/Chord`), so that the middle of the spot is found up to a bound; the rest is C72. A picture is constructed for every angle |
| C75 | the default pipeline on tilted symbols | false: a picture at 37 degrees is evaluated by the kernel (`Lemmas/Quick` is the detector with the comparisons of whole numbers done first, proved equal to the model); otherwise C74 for the reported location; `TiltedRead` is a picture at 16 degrees, `TiltedExamples` one that is slightly tilted |
| C76 | panics of the whole pipeline | the pipeline of C63/C64 is followed in both directions: each stage panics iff one of its own conditions holds (C45, C55, C15) and the conditions are put together over the list of locations; the symbol of the example is evaluated by the kernel and carried to all sizes by C66 |
| C77 | find_qr and find_qr_internal | the conditions of C48 from the other side: every rounding (at most a relative 2^-52 each) is bounded, with a margin between what is proved to be accepted and what is proved to be refused |
| C78 | `data`, `QRDecoder`, the default decoder | one round of the main loop: a terminator, a complete segment, no segment, or the panic of C15; induction over the stream, in both directions |
| C79 | detect with its three refinements | how far a refinement moves a position (at most 2.2 modules and 2 pixels per axis), against the seven modules that a new position must keep from all earlier ones; every location comes from three candidates, and no three candidates make two locations |
| C80 | detection, extraction and format reading on negatives of images | detection and the confirmations only compare pixels with each other, so that renaming grey values changes nothing; from version 2 on, the module a place of the alignment search looks at is computed from its distance to the pattern, with an interval for rounding, and the kernel evaluates that each of the 294 places shows a wrong colour; the format words of negatives are those of the opposite level and mask |
| C81 | correct_with_error_count, decode with info | the changed places are roots of a polynomial of degree `ec_cap`, and 2 * `ec_cap` is at most the number of error correction codewords for every row of the table |
| C82 | data, the default decoders | with the texts of C78: every segment needs at least as many bits as a numeric one for the same number of characters; the capacities of all versions are evaluated |
| C83 | detect, extract, the default decoders | the runs of a resized row are those of the small row times the factor, to within a pixel; the scan, the refinement and the distances are followed with that error, and the perspective has tolerance for it |

Everything above is expressible in the model; none is declared not applicable.

## 5. What is modelled

| file in /repo/src | model | left out |
|---|---|---|
| `util/chomp.rs` | `Model/Chomp` | tests |
| `util/point.rs` | `Model/Point` | the integer instances of `Point` that only the debug images use |
| `util/qr.rs` | `Model/QRData`, `Model/Basic` | `Display`, `Debug`, and the conversions between error types |
| `prepare/blockedmean.rs` | `Model/BlockedMean` | debug images |
| `prepare/mod.rs`, `detect/mod.rs`, `extract/mod.rs`, `decode/mod.rs` | the traits, as structures of functions with a state that the components may use (`Model/Pipeline`) | |
| `detect/linescan.rs` | `Model/LineScan` | debug images, logging |
| `extract/qr/mod.rs` | `Model/Extract` | debug images, logging |
| `decode/qr/galois.rs` | `Model/Galois` | `Display` |
| `decode/qr/format.rs` | `Model/Format` | logging |
| `decode/qr/blocks.rs` | `Model/Blocks` | |
| `decode/qr/mod.rs` | `Model/BlockInfo` (the whole table), the types | |
| `decode/qr/correct.rs` | `Model/Correct` | logging |
| `decode/qr/data.rs` | `Model/Data` | logging |
| `decode/qr/decoder.rs` | `Model/Decoder` | logging |
| `decoder.rs` | `Model/Pipeline`, `Model/Default` | |
| `lib.rs` | nothing to model (re-exports) | |

Not modelled at all: the `image` crate (decoding of files, conversion to grey, `GrayImage` beyond width, height and
row-major pixels), the allocator (memory is unlimited), `newtype_derive` and `failure` (only the derived operations
and messages that are used), benches and tests. `f64` operations are those of `Model/Float`: exact rational
arithmetic rounded to nearest even with 53 bits, with infinities and NaN; the square root is the correctly rounded
one. The model merges the two zeros. Overflow checks are taken to be on, as in a debug build, so that a wrapped sum in
a release build is a panic here.

### Fidelity of the model

The model is executable, so it was run against the crate's own tests. These runs are tests, not proofs; they support the
claim that the definitions compute what the code computes.

* `Props/UnitTests` states every `#[test]` function of /repo/src for the model; the kernel evaluates them.
* `tools/run_model.py` compiles the model (the C code Lake emits for `Verif/Model`, unchanged) and decodes the test images
  of /repo/tests/images with `defaultDecoderWithInfo`. Files are turned into grey images by a decoder in the script.
  The text of every active test of tests/image_tests.rs is reproduced, in the same order and number, and so are version,
  level, `total_data` and `errors` in the tests that check them (photographs, an upside-down symbol, one that needs the
  alignment pattern and has 3 repaired errors, two codes in one picture, versions 1 to 25).

## 6. Where the code does not do what one would expect

Each of these is a theorem (a witness or an exact condition), next to the part that does hold:

* C03: a refused request of `chomp` can lose the unread bits. C06: `chomp_or_u16` answers 17 to 23 bits with `Ok` and
  panics for more.
* C10: UTF-8 text is only recovered if the code's guess of the encoding is right. C14: a numeric segment can give a wrong
  number of digits. C15: some payloads make `data` panic; the condition is exact.
* C17: 0 / x is not 0 in GF(256).
* C21: some triples of wrong format modules are taken for another format.
* C31, C32: for most versions and levels there are single wrong codewords that are not repaired, or repaired into wrong
  data without an error. C39: `total_data` counts the data codewords only.
* C45: `prepare` panics for images smaller than a block or too large; the condition is exact. C46: uniform images up to
  the grey value 250 become black.
* C55: extraction can panic beyond the right or lower edge of the image, and only there.
* C51, C59: the last comparison of the finder test has a tie that is decided by rounding, so that 2,2,4,2,2 is accepted
  and 6,6,12,6,6 is not.
* C72: the test for the alignment pattern looks at its left inner column twice and never at the right one.
* C70: mirrored symbols are extracted with rows and columns exchanged and their format is not read as it is.
* C80: symbols printed light on dark are located like others, but never read as what they say: version 1 with the wrong level and mask, larger versions not at all (no alignment pattern is found).
* C75: a flawless symbol tilted by 37 degrees is overlooked, because its modules seem larger than they are.
* C76: a symbol with an illegal last character in an alphanumeric segment makes the whole image unreadable: both default
  decoders panic.

## 7. What the seeded bugs show

`seeded/LOG.jsonl` has 193 wrong programs, made with `tools/mutate.py`; 192 stopped the build. The one that did not (the
first "only the estimate is tried") was stopped when it was tried again, after theorems had been added.

- In 150 of the 192 the build stopped in a supporting lemma, before any property theorem was checked: `lake` does not
  build a module whose imports failed. Such an entry says that the proof no longer goes through. It does not by itself
  say that the property theorem is false of the edited program; often the lemma just unfolds the edited definition.
- The claim in `claim_broken` was found by reading, not by a proof. It is not shown that the edited program violates it.
- "added in this round" in `theorems_tightened` means that the theorem was new when the edit was tried, not that the edit
  had survived before.
- For C83 no edit failed in its own theorems; they were stopped in lemmas that C83 shares with other properties, or in
  `Lemmas/RuledQr`.
