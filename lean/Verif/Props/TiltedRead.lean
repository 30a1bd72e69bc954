import Verif.Props.TiltedExamples

/-! # "HELLO WORLD", tilted by 16 degrees, is read -/
namespace Verif.Props
open Verif Verif.Spec LineScan

/-- "HELLO WORLD" with modules of 23/10 pixels, tilted by the angle with the sine 7/25, about 16 degrees: 62 by 62 pixels,
the black ones are the digits 1. -/
def tiltedBits : Nat :=
  0x7800000000000003e00000000000000182000000000000019c0000000000000e60c0000000000031e3e00000000010f78f180000000067c27c780000000f9f06f3e70000003c7c39cc1f8000003020c6307fe00001e06308318ff00017c1e401ce07f800fb0f801f3001e001e63e0ff8cf03000398ffffe73f8c000fa3fffc18fe70001c1fcff063f9c000306707f39fc60005c19c03ce7f18001f00700730fce000f8800398c073000067004fe7e00c00639821ff8ff07001fc00ffcc07fdc007fc1fc63e01fe001ffe631fff00f800f8f01cfffe0020002701f3ff11e0000018278ff83ff0007000c607f8c78001fc03000fe13e0007fe00013c83fe0018ff8006719c3800e03f8019efe0e003001e70f7fff3000cf8318be7cf8c0073f8c273813e7001cfe7008c00f980063f9c003380460019fe60000fe01800e7f180003ff000030fce0801c7fc000c03307c0701fc007e00c0f31800f000ff87018c678180003fdc06339fc600001fe0380c7f3800000798e031fce00000026319cfe30000000183e73f8c000000000f187e70000000003c6019800000000003f006000000000007f838000000000001fec0000000000000ff000000000000007c0000000000000010000000000000000000

/-- The picture. -/
def tiltedImage : GrayImage := bitImage 62 62 tiltedBits

theorem tilted_angle : Real.cos (Real.arccos (24 / 25)) = ((24 : Nat) : ℝ) / (25 : Nat) ∧
    Real.sin (Real.arccos (24 / 25)) = ((7 : Nat) : ℝ) / (25 : Nat) := by
  obtain ⟨h1, h2⟩ := angle_of (c := 24 / 25) (s := 7 / 25) (by norm_num) (by norm_num)
  rw [h1, h2]
  constructor <;> norm_num

set_option maxRecDepth 1000000

theorem tilted_seen : tiltedSeen 62 62 tiltedBits helloBits 21 24 7 25 59 9 4 23 10 = true := by decide +kernel

theorem tilted_eighteen : eighteen 62 62 tiltedBits = true := by decide +kernel

theorem tilted_modules : modulesSeen 62 62 tiltedBits helloBits 21 (39 / 2, 11) (101 / 2, 20) (21 / 2, 42) none = true := by
  decide +kernel

/-- What is found in the picture. -/
def tiltedLocation : QRLocation :=
  ⟨⟨.fin (39 / 2), .fin 11⟩, ⟨.fin (101 / 2), .fin 20⟩, ⟨.fin (21 / 2), .fin 42⟩, .fin (5468656690378459 / 2251799813685248), 1⟩

theorem tilted_detected : detect tiltedImage = .ret [tiltedLocation] := by
  unfold tiltedImage
  rw [← Quick.detect_eq]
  decide +kernel

/-- It is a picture of the tilted symbol. -/
theorem tilted_shown : ShownTilted tiltedImage helloModules (59 / 4, 9 / 4) (23 / 10) (Real.arccos (24 / 25)) := by
  have := tiltedSeen_of helloModules_bits rfl (by decide) (by decide) (by decide) (by decide) (by decide) tilted_angle.1
    tilted_angle.2 tilted_seen
  norm_num at this ⊢
  exact this

theorem tilted_inside : TiltedInside tiltedImage 21 (59 / 4, 9 / 4) (23 / 10) (Real.arccos (24 / 25)) := by
  intro a b a1 a2 b1 b2
  obtain ⟨h1, h2⟩ := tilted_angle
  unfold tiltedPlace
  rw [h1, h2]
  rw [show tiltedImage.width = 62 from rfl, show tiltedImage.height = 62 from rfl]
  push_cast at *
  refine ⟨⟨?_, ?_⟩, ?_, ?_⟩ <;> linarith

/-- The grid is shown at the points that are reported. -/
theorem tilted_shows_grid : ShowsGrid tiltedImage helloModules 1 (39 / 2, 11) (101 / 2, 20) (21 / 2, 42) := by
  refine ⟨fun h => absurd h (by decide), fun h => absurd h (by decide), ?_⟩
  intro al hal _
  rw [hal.mpr rfl]
  exact modulesSeen_of helloModules_bits rfl tilted_modules

/-- It is read. -/
theorem tilted_hello_is_read :
    ∃ d : Decoder Unit GrayImage GrayImage QRLocation QRData (List Char), defaultDecoder id = .ret d ∧
      ∀ s, d.decode tiltedImage s = .ret ([.ok "HELLO WORLD".toList], s) := by
  have hv : tiltedImage.Valid := bitImage_valid (by decide) (by decide)
  obtain ⟨⟨d, hd, -, h⟩, -⟩ := shown_location_is_read (σ := Unit) id tiltedImage hv tiltedImage
    (bitImage_threshold (by decide) (by decide) tilted_eighteen).symm (by decide) (by decide) (by decide) (by decide) (by decide)
    helloModules 1 (by decide) (by decide) .medium 3 (by decide) helloSegments (by unfold Segment.fits; decide) _
    helloSegments_text helloModules_isSymbol _ tilted_detected tiltedLocation (by simp) rfl _ _ _
    ⟨rfl, rfl, rfl, by intro p hp; fin_cases hp <;> norm_num [abs_le]⟩ tilted_shows_grid
  exact ⟨d, hd, h rfl⟩

end Verif.Props
