import Verif.Props.Resized
import Verif.Props.ScalesExamples
import Verif.Lemmas.EnlargeDraw

/-! # "SCALE 13250", read at every size from 27 pixels per module -/
namespace Verif.Props
open Verif Verif.Spec LineScan

/-- The image `g` resized by nearest neighbour to `w` by `w` pixels. -/
def resize (g : GrayImage) (w : Nat) : GrayImage where
  width := w
  height := w
  pixels := (positions w w).map fun p =>
    g.pixels.getD ((2 * p.2 + 1) * g.height / (2 * w) * g.width + (2 * p.1 + 1) * g.width / (2 * w)) 0

theorem resize_valid {g : GrayImage} {w : Nat} (hw : w < 2 ^ 32) : (resize g w).Valid :=
  ⟨by simp [resize, positions_length], hw, hw⟩

theorem resize_resized (g : GrayImage) (w : Nat) : Resized (resize g w) g := by
  intro x hx y hy
  replace hx : x < w := hx
  replace hy : y < w := hy
  have hlt : y * w + x < w * w := by
    have : (y + 1) * w ≤ w * w := Nat.mul_le_mul_right _ hy
    rw [Nat.succ_mul] at this
    omega
  unfold grey
  congr 1
  simp only [resize]
  rw [BlockedMean.positions_eq, List.map_map, List.getD_eq_getElem?_getD, List.getElem?_map, List.getElem?_range hlt]
  simp only [Option.map_some, Option.getD_some, Function.comp]
  rw [Nat.mul_comm y, Nat.mul_add_mod, Nat.mod_eq_of_lt hx, Nat.mul_add_div (by omega), Nat.div_eq_of_lt hx]
  simp only [Nat.add_zero]

/-! ### Checking an image row by row -/

def calmRow (row : List Nat) : Bool :=
  (List.range row.length).all fun i => if endsAt row i then decide (Calm (runs (row.take i).reverse)) else true

theorem calmRows_of {g : GrayImage} {rows cols : List (List Nat)} (h : RowsOf g rows cols) (hc : rows.all calmRow = true) :
    CalmRows g := by
  intro y hy x hx hch
  have hl := rowsOf_row_length h hy
  rw [rows_left h hy (by omega)]
  have hmem : rows.getD y [] ∈ rows := by
    rw [List.getD_eq_getElem?_getD, List.getElem?_eq_getElem (by rw [h.1]; exact hy)]
    exact List.getElem_mem _
  have := (List.all_eq_true.mp hc) _ hmem
  unfold calmRow at this
  have := (List.all_eq_true.mp this) x (by rw [List.mem_range]; omega)
  rw [if_pos] at this
  · exact of_decide_eq_true this
  · rw [endsAt_iff]
    unfold changesAt at hch
    rw [h.2.2.2.2.1 _ (by omega) _ hy, h.2.2.2.2.1 _ hx _ hy] at hch
    exact Or.inr hch

def nothingAlike (rows : List (List Nat)) (width : Nat) (fs : List (Nat × Nat)) : Bool :=
  (List.range rows.length).all fun y =>
    let row := rows.getD y []
    (List.range (width + 1)).all fun x =>
      if endsAt row x then
        !decide (NearlyEnd (runs (row.take x).reverse)) || fs.any fun f => decide (x = f.1 + 7 ∧ f.2 + 2 ≤ y ∧ y < f.2 + 5)
      else true

theorem nothingAlike_of {g : GrayImage} {rows cols : List (List Nat)} (h : RowsOf g rows cols) {fs : List (Nat × Nat)}
    (hc : nothingAlike rows g.width fs = true) : NothingAlike g fs := by
  intro y hy x hx hend ht
  have hl := rowsOf_row_length h hy
  unfold nothingAlike at hc
  have := (List.all_eq_true.mp hc) y (by rw [List.mem_range, h.1]; exact hy)
  have := (List.all_eq_true.mp this) x (by rw [List.mem_range]; omega)
  rw [if_pos] at this
  · rw [← rows_left h hy hx] at this
    simpa [ht] using this
  · rw [endsAt_iff, hl]
    rcases hend with hend | ⟨hlt, hend⟩
    · exact Or.inl hend
    · right
      unfold changesAt at hend
      rwa [h.2.2.2.2.1 _ (by omega) _ hy, h.2.2.2.2.1 _ hlt _ hy] at hend

/-! ### A version 1-M symbol with mask 1 -/

/-- The modules as a number. -/
def scaleBits : Nat :=
  0x1FC37FA4920EB1D7440CBB3FE5D636208CFDFCDDE0026473ECA92A79F7400D79498C5006007F55FE08E837565DBA02EDD057608483FCF7F

/-- The modules of the symbol. -/
def scaleModules : QRData where
  data := (List.range (21 * 21)).map fun i => tone (bit scaleBits i)
  version := 1
  side := 21

/-- The text in alphanumeric mode. -/
def scaleSegments : List Segment := [.alphanumeric [28, 12, 10, 21, 14, 36, 1, 3, 2, 5, 0]]

theorem scaleSegments_text : SegmentsText scaleSegments "SCALE 13250".toList := .cons (.alphanumeric _) .nil

/-- The codewords. -/
def scaleBlock : List U8 :=
  [32, 92, 248, 58, 234, 104, 24, 5, 240, 0, 236, 17, 236, 17, 236, 17, 50, 28, 59, 201, 200, 198, 225, 232, 211, 36]

theorem scaleBlock_codeword : IsCodeword (eccPerBlock 1 .medium) scaleBlock :=
  isCodeword_of_syndromes 10 (by decide) _ (by decide +kernel)

theorem scaleModules_bits : Bitmap scaleModules scaleBits := rfl

theorem scale_family : symbolFamily 1 .medium scaleSegments = [(scaleBlock.take 16, scaleBlock.drop 16)] := by
  have hd : dataCodewords 1 .medium scaleSegments = scaleBlock.take 16 := by
    unfold dataCodewords dataCapacity
    rw [hello_blocks]
    decide +kernel
  have hec : ecCodewords (eccPerBlock 1 .medium) (scaleBlock.take 16) = scaleBlock.drop 16 :=
    ecCodewords_unique (by decide) (by decide) (by rw [List.take_append_drop]; exact scaleBlock_codeword)
  unfold symbolFamily
  rw [hello_blocks, hd]
  simp only [splitLens, List.map_cons, List.map_nil, List.take_take]
  rw [show min 16 16 = 16 by decide, hec]

theorem scaleModules_eq : encode 1 .medium 1 scaleSegments (functionPatterns 1) = scaleModules :=
  encode_eq_of scale_family (by decide +kernel) rfl rfl scaleModules_bits

theorem scaleModules_isSymbol : IsSymbol scaleModules 1 .medium 1 scaleSegments := by
  rw [← scaleModules_eq]
  refine encode_isSymbol 1 (by decide) (by decide) .medium 1 scaleSegments ?_ _
  unfold dataCapacity
  rw [hello_blocks]
  decide +kernel

/-- The picture, one pixel per module, with a border of four modules. -/
def scaleSmall : GrayImage := picture scaleModules 1 4

theorem scaleSmall_eq : scaleSmall = picture scaleModules 1 4 := rfl

def scaleRows : List (List Nat) :=
  (List.range 29).map fun y => (List.range 29).map fun x => pictureTone scaleBits 21 4 x y

def scaleCols : List (List Nat) :=
  (List.range 29).map fun x => (List.range 29).map fun y => pictureTone scaleBits 21 4 x y

theorem scaleSmall_rows : RowsOf scaleSmall scaleRows scaleCols := rowsOf_picture scaleModules_bits rfl rfl

theorem scaleSmall_calm : CalmRows scaleSmall := calmRows_of scaleSmall_rows (by decide +kernel)

theorem scaleSmall_alike : NothingAlike scaleSmall (symbolFinders 1 1 4 4) :=
  nothingAlike_of scaleSmall_rows (show nothingAlike scaleRows 29 (symbolFinders 1 1 4 4) = true by decide +kernel)

theorem scaleSmall_black_or_white {a b : Nat} (ha : a < 29) (hb : b < 29) :
    grey scaleSmall a b = 0 ∨ grey scaleSmall a b = 255 := by
  rw [scaleSmall_rows.2.2.2.2.1 a ha b hb]
  unfold scaleRows
  rw [List.getD_eq_getElem?_getD, List.getD_eq_getElem?_getD, List.getElem?_map, List.getElem?_range hb, Option.map_some,
    Option.getD_some, List.getElem?_map, List.getElem?_range ha, Option.map_some, Option.getD_some]
  unfold pictureTone
  cases (Nat.ble 4 a && Nat.ble (a + 1) (4 + 21)) && (Nat.ble 4 b && Nat.ble (b + 1) (4 + 21)) <;>
    cases bit scaleBits ((b - 4) * 21 + (a - 4)) <;> simp

theorem scale_crisp (w : Nat) : Crisp (resize scaleSmall w) (resize scaleSmall w) := by
  refine ⟨rfl, rfl, ?_⟩
  intro x hx y hy
  have e := resize_resized scaleSmall w x hx y hy
  replace hx : x < w := hx
  replace hy : y < w := hy
  have inside : ∀ z < w, (2 * z + 1) * 29 / (2 * w) < 29 := by
    intro z hz
    rw [Nat.div_lt_iff_lt_mul (by omega)]
    omega
  have hbw := scaleSmall_black_or_white (inside x hx) (inside y hy)
  rw [show grey scaleSmall ((2 * x + 1) * 29 / (2 * w)) ((2 * y + 1) * 29 / (2 * w)) = grey (resize scaleSmall w) x y from e.symm] at hbw
  rcases hbw with h | h <;> rw [h] <;> simp

theorem scaleModules_finders : HasFinders scaleModules := by rw [← scaleModules_eq]; exact encode_finders _ _ _ _

theorem scaleSmall_drawn : Drawn scaleSmall scaleModules 1 4 4 := by
  rw [scaleSmall_eq]
  exact picture_drawn (by rw [scaleModules_isSymbol.1.2.2, scaleModules_isSymbol.1.2.1]) (by omega)

theorem scaleSmall_quiet : QuietZone scaleSmall scaleModules.side 1 4 4 := by
  rw [scaleSmall_eq]; exact picture_quiet (by omega)

/-- C83: the picture is located at every size from 8 1/2 pixels per module. -/
theorem scale_located (w : Nat) (hw : 17 * 29 ≤ 2 * w) (hb : w < 2 ^ 26) :
    ∃ (loc : QRLocation) (tl tr bl : Pt), detect (resize scaleSmall w) = .ret [loc] ∧ loc.version = 1 ∧
      loc.top_left = ⟨.fin tl.1, .fin tl.2⟩ ∧ loc.top_right = ⟨.fin tr.1, .fin tr.2⟩ ∧
      loc.bottom_left = ⟨.fin bl.1, .fin bl.2⟩ ∧
      NearFinder 29 w (4, 4) tl ∧ NearFinder 29 w (18, 4) tr ∧ NearFinder 29 w (4, 18) bl :=
  resized_symbol_is_located (resize scaleSmall w) scaleSmall (resize_valid (by omega)) 29 w rfl rfl rfl rfl
    (resize_resized _ _) hb scaleModules 1 (by decide) scaleModules_isSymbol.1 scaleModules_finders hw 4 4 (by decide) (by decide)
    scaleSmall_drawn scaleSmall_quiet scaleSmall_calm scaleSmall_alike

/-- C83: the picture is read at every size from 27 pixels per module. -/
theorem scale_at_every_size (w : Nat) (hw : 27 * 29 ≤ w) (hb : w ≤ 2 ^ 18) :
    ∃ d : Decoder Unit GrayImage GrayImage QRLocation QRData (List Char), defaultDecoder id = .ret d ∧
      ∀ s, d.decode (resize scaleSmall w) s = .ret ([.ok "SCALE 13250".toList], s) :=
  (resized_symbol_is_read (σ := Unit) id (resize scaleSmall w) (resize_valid (by omega)) (resize scaleSmall w) scaleSmall
    (resize_valid (by omega)) (scale_crisp w) 29 w rfl rfl rfl rfl (resize_resized _ _) hb scaleModules 1 (by decide)
    (by decide) .medium 1 (by decide) scaleSegments (by unfold Segment.fits; decide) _ scaleSegments_text
    scaleModules_isSymbol scaleModules_finders (by omega) hw (by omega) 4 4 (by decide) (by decide) scaleSmall_drawn
    scaleSmall_quiet scaleSmall_calm scaleSmall_alike).1

/-- 800 pixels for 29 modules. -/
example : ∃ d : Decoder Unit GrayImage GrayImage QRLocation QRData (List Char), defaultDecoder id = .ret d ∧
    ∀ s, d.decode (resize scaleSmall 800) s = .ret ([.ok "SCALE 13250".toList], s) :=
  scale_at_every_size 800 (by decide) (by decide)

end Verif.Props
