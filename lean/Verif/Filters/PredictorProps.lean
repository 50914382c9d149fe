import Verif.Filters.PredictorLemmas
/-
Property theorems for the predictor of the Flate and LZW decoders (C09 – C11).
`predictorRun ⟨predictor, colors, bitsPerComponent, columns⟩ blocks` builds the predictor from those
/DecodeParms values and decodes the blocks.
-/
namespace Pdfmm
open Codec

private theorem toInt32_id (z : Int) (h : -2147483648 ≤ z) (h' : z ≤ 2147483647) : toInt32 z = z := by
  unfold toInt32
  simp only
  split <;> omega

private theorem predInit_ok (pr : Int) (colors bpc cols : Nat)
    (hpr : -2147483648 ≤ pr) (hpr' : pr ≤ 2147483647)
    (h1 : 1 ≤ colors) (h2 : 1 ≤ bpc) (h3 : 1 ≤ cols) (h4 : cols * colors * bpc < 2147483648)
    (h5 : 8 ≤ cols * colors * bpc) :
    predInit ⟨pr, colors, bpc, cols⟩ = .ok (⟨pr, bpc, bpc * colors / 8, cols * colors * bpc / 8⟩,
      ⟨if pr ≥ 10 then -1 else pr, 0, pr ≥ 10, List.replicate (cols * colors * bpc / 8) 0,
        List.replicate (bpc * colors / 8) 0⟩) := by
  have b1 : cols * colors ≤ cols * colors * bpc := Nat.le_mul_of_pos_right _ (by omega)
  have b2 : bpc * colors ≤ cols * colors * bpc := by
    have : cols * colors * bpc = cols * (bpc * colors) := by
      rw [Nat.mul_assoc, Nat.mul_comm colors bpc]
    rw [this]; exact Nat.le_mul_of_pos_left _ (by omega)
  have b3 : cols ≤ cols * colors := Nat.le_mul_of_pos_right _ (by omega)
  have b4 : colors ≤ bpc * colors := Nat.le_mul_of_pos_left _ (by omega)
  have b5 : bpc ≤ bpc * colors := Nat.le_mul_of_pos_right _ (by omega)
  unfold predInit
  simp only
  rw [toInt32_id pr hpr hpr', toInt32_id colors (by omega) (by omega),
    toInt32_id bpc (by omega) (by omega), toInt32_id cols (by omega) (by omega)]
  rw [if_neg (by omega)]
  have m1 : mulInt (bpc : Int) (colors : Int) = .ok ((bpc * colors : Nat) : Int) := by
    unfold mulInt
    rw [← Int.natCast_mul, if_pos (by omega)]
  have m2 : mulInt (cols : Int) (colors : Int) = .ok ((cols * colors : Nat) : Int) := by
    unfold mulInt
    rw [← Int.natCast_mul, if_pos (by omega)]
  have m3 : mulInt ((cols * colors : Nat) : Int) (bpc : Int) = .ok ((cols * colors * bpc : Nat) : Int) := by
    unfold mulInt
    rw [← Int.natCast_mul, if_pos (by omega)]
  rw [m1, m2]
  simp only
  rw [m3]
  simp only
  have e1 : (((bpc * colors : Nat) : Int) / 8).toNat = bpc * colors / 8 := by omega
  have e2 : (((cols * colors * bpc : Nat) : Int) / 8).toNat = cols * colors * bpc / 8 := by omega
  rw [e1, e2, if_neg (by omega)]

private theorem stepper_run (c : Stepper PredState) (bs : List Bytes) (data : Bytes) (s : PredState) (o : List Bytes)
    (hd : bs.flatten = data) (h : c.loop c.start data = .ok (s, o)) (hf : c.finish s = .ok []) :
    (ofStepper c).run bs = .ok o.flatten := by
  unfold run
  rw [ofStepper_writes, hd, h]
  simp only [hf, List.append_nil]

private theorem stepper_run_error (c : Stepper PredState) (bs : List Bytes) (e : Fault)
    (h : c.loop c.start bs.flatten = .error e) : (ofStepper c).run bs = .error e := by
  unfold run
  rw [ofStepper_writes, h]

private theorem predictorRun_of_init (p : PredParams) (bs : List Bytes) (cfg : PredCfg) (st0 : PredState)
    (h : predInit p = .ok (cfg, st0)) : predictorRun p bs = (predDec cfg st0).run bs := by
  unfold predictorRun; rw [h]

/-- C09 is false of the code: with the Average filter and a byte on the left that is at least 128 (and
the one above below 128) the signed average is taken. -/
theorem C09_png_false :
    ¬ ∀ (img : List (Nat × Bytes)), (∀ r ∈ img, r.1 ≤ 4 ∧ r.2.length = 2) →
      predictorRun ⟨15, 1, 8, 2⟩ [Spec.pngFilterImage 1 (List.replicate 2 0) img] =
        .ok (img.map Prod.snd).flatten := by
  intro h
  have := h [(3, [200, 10])] (by decide)
  exact absurd this (by decide +kernel)

/-- C09. Any image filtered row by row with any mix of the PNG filters (with whole-byte pixels of any
size and rows of any length) is decoded to the original rows, however the data is cut into blocks and
for every `/Predictor` value from 10 on — provided that in rows using Average no byte has exactly one of
its left and upper neighbours at or above 128.  Missing: those Average rows (refuted above). -/
theorem C09_png_partial (predictor : Int) (colors bpc columns : Nat) (img : List (Nat × Bytes))
    (bs : List Bytes)
    (hpr : 10 ≤ predictor) (hpr' : predictor ≤ 2147483647) (hc : 1 ≤ colors) (hb : 1 ≤ bpc) (hcol : 1 ≤ columns)
    (hpix : 8 ∣ bpc * colors) (hfit : columns * colors * bpc < 2147483648)
    (himg : ∀ r ∈ img, r.1 ≤ 4 ∧ r.2.length = columns * colors * bpc / 8)
    (havg : AverageSameSide (bpc * colors / 8) (List.replicate (columns * colors * bpc / 8) 0) img)
    (hbs : bs.flatten = Spec.pngFilterImage (bpc * colors / 8) (List.replicate (columns * colors * bpc / 8) 0) img) :
    predictorRun ⟨predictor, colors, bpc, columns⟩ bs = .ok (img.map Prod.snd).flatten := by
  have hpos : 0 < bpc * colors := Nat.mul_pos hb hc
  have h8 : 8 ≤ bpc * colors := Nat.le_of_dvd hpos hpix
  have h8' : 8 ≤ columns * colors * bpc := by
    have : columns * colors * bpc = columns * (bpc * colors) := by
      rw [Nat.mul_assoc, Nat.mul_comm colors bpc]
    rw [this]; exact Nat.le_trans h8 (Nat.le_mul_of_pos_left _ (by omega))
  rw [predictorRun_of_init _ _ _ _
    (predInit_ok predictor colors bpc columns (by omega) hpr' hc hb hcol hfit h8')]
  unfold predDec
  rw [if_neg (by show ¬ predictor = 1; omega)]
  obtain ⟨s, hs⟩ := pred_image_loop ⟨predictor, bpc, bpc * colors / 8, columns * colors * bpc / 8⟩
    ⟨if predictor ≥ 10 then -1 else predictor, 0, predictor ≥ 10, List.replicate (columns * colors * bpc / 8) 0,
      List.replicate (bpc * colors / 8) 0⟩ img
    ⟨if predictor ≥ 10 then -1 else predictor, 0, predictor ≥ 10, List.replicate (columns * colors * bpc / 8) 0,
      List.replicate (bpc * colors / 8) 0⟩
    (Nat.div_pos h8 (by decide)) (Nat.div_pos h8' (by decide)) rfl
    (by simpa using hpr) (by simp) (by simp) himg havg
  exact stepper_run _ bs _ s _ hbs hs rfl

/-- A 2x2 RGB-like image (bpp 3) with Sub, Average, Paeth and Up rows meets the hypotheses. -/
example : predictorRun ⟨15, 3, 8, 2⟩ [Spec.pngFilterImage 3 (List.replicate 6 0)
      [(1, [1, 2, 3, 250, 5, 6]), (4, [9, 8, 7, 6, 5, 200]), (2, [1, 2, 3, 4, 5, 6]), (3, [7, 9, 20, 100, 3, 1])]] =
    .ok [1, 2, 3, 250, 5, 6, 9, 8, 7, 6, 5, 200, 1, 2, 3, 4, 5, 6, 7, 9, 20, 100, 3, 1] := by decide +kernel

example : AverageSameSide 1 [0, 0] [(3, [7, 100]), (4, [200, 10])] :=
  ⟨(fun _ => by decide), (by intro h; cases h), trivial⟩

/-- C11. Data differenced per component (8 bits each, any number of components and columns) is restored
by predictor 2, however it is cut into blocks. -/
theorem C11_tiff (colors columns : Nat) (img : List Bytes) (bs : List Bytes)
    (hc : 1 ≤ colors) (hcol : 1 ≤ columns) (hfit : columns * colors * 8 < 2147483648)
    (himg : ∀ r ∈ img, r.length = columns * colors)
    (hbs : bs.flatten = (img.map (Spec.tiffRow colors)).flatten) :
    predictorRun ⟨2, colors, 8, columns⟩ bs = .ok img.flatten := by
  have hpos : 1 ≤ columns * colors := Nat.mul_pos hcol hc
  have e1 : 8 * colors / 8 = colors := Nat.mul_div_cancel_left _ (by decide)
  have e2 : columns * colors * 8 / 8 = columns * colors := Nat.mul_div_cancel _ (by decide)
  have h8' : 8 ≤ columns * colors * 8 := Nat.le_mul_of_pos_left _ hpos
  have hi := predInit_ok 2 colors 8 columns (by decide) (by decide) hc (by decide) hcol hfit h8'
  rw [e1, e2] at hi
  rw [predictorRun_of_init ⟨2, colors, 8, columns⟩ _ _ _ hi]
  unfold predDec
  rw [if_neg (by show ¬ (2 : Int) = 1; decide)]
  obtain ⟨s, hs⟩ := tiff_image_loop ⟨2, 8, colors, columns * colors⟩
    ⟨if (2 : Int) ≥ 10 then -1 else 2, 0, (2 : Int) ≥ 10, List.replicate (columns * colors) 0,
      List.replicate colors 0⟩ img
    ⟨if (2 : Int) ≥ 10 then -1 else 2, 0, (2 : Int) ≥ 10, List.replicate (columns * colors) 0,
      List.replicate colors 0⟩ hc hpos rfl rfl rfl rfl (by simp) himg
  exact stepper_run _ bs _ s _ hbs hs rfl

example : predictorRun ⟨2, 2, 8, 2⟩ [[10, 20, 1], [255, 0, 0, 0, 7]] = .ok [10, 20, 11, 19, 0, 0, 0, 7] := by
  decide +kernel

/-- C10 is false of the code: pixels smaller than a byte make the Paeth filter compute a remainder
modulo zero … -/
theorem C10_paeth_div_zero : predictorRun ⟨15, 1, 1, 8⟩ [[4, 0]] = .error .ub := by decide +kernel

/-- … and large parameters overflow `int` before the overflow check. -/
theorem C10_overflow_ub : predictorRun ⟨2, 65536, 8, 65536⟩ [] = .error .ub := by decide +kernel

/-- C10, the part that holds: when the (32-bit) parameters are such that the row size in bits fits in an
`int` and a pixel has at least 8 bits, any data in any blocks is decoded or refused with an error; each
row written has the full row length.  Parameters below 1 are refused with `ValueOutOfRange`. -/
theorem C10_predictor_safe_partial (p : PredParams) (bs : List Bytes)
    (hpix : 8 ≤ toInt32 p.bitsPerComponent * toInt32 p.colors)
    (hfit : toInt32 p.columns * toInt32 p.colors * toInt32 p.bitsPerComponent ≤ 2147483647) :
    (∃ d, predictorRun p bs = .ok d) ∨ predictorRun p bs = raise .InvalidPredictor ∨
      (predictorRun p bs = raise .ValueOutOfRange ∧
        (toInt32 p.columns < 1 ∨ toInt32 p.colors < 1 ∨ toInt32 p.bitsPerComponent < 1)) := by
  by_cases hneg : toInt32 p.columns < 1 ∨ toInt32 p.colors < 1 ∨ toInt32 p.bitsPerComponent < 1
  · refine Or.inr (Or.inr ⟨?_, hneg⟩)
    unfold predictorRun predInit
    simp only
    rw [if_pos hneg]
  · have hrange : ∀ z, -2147483648 ≤ toInt32 z ∧ toInt32 z ≤ 2147483647 := by
      intro z; unfold toInt32; simp only; split <;> omega
    have hidem : ∀ z, toInt32 (toInt32 z) = toInt32 z := fun z => toInt32_id _ (hrange z).1 (hrange z).2
    -- pass to natural numbers
    obtain ⟨cols, hcols⟩ : ∃ n : Nat, toInt32 p.columns = n := ⟨(toInt32 p.columns).toNat, by omega⟩
    obtain ⟨colors, hcolors⟩ : ∃ n : Nat, toInt32 p.colors = n := ⟨(toInt32 p.colors).toNat, by omega⟩
    obtain ⟨bpc, hbpc⟩ : ∃ n : Nat, toInt32 p.bitsPerComponent = n := ⟨(toInt32 p.bitsPerComponent).toNat, by omega⟩
    have hsame : predInit p = predInit ⟨toInt32 p.predictor, toInt32 p.colors, toInt32 p.bitsPerComponent, toInt32 p.columns⟩ := by
      unfold predInit
      simp only [hidem]
    rw [hcols, hcolors, hbpc] at hfit hsame hneg
    rw [hbpc, hcolors] at hpix
    rw [← Int.natCast_mul] at hpix hfit
    rw [← Int.natCast_mul] at hfit
    have h8 : 8 ≤ bpc * colors := by omega
    have h8' : 8 ≤ cols * colors * bpc := by
      have : cols * colors * bpc = cols * (bpc * colors) := by
        rw [Nat.mul_assoc, Nat.mul_comm colors bpc]
      rw [this]; exact Nat.le_trans h8 (Nat.le_mul_of_pos_left _ (by omega))
    have hi := predInit_ok (toInt32 p.predictor) colors bpc cols (hrange _).1 (hrange _).2 (by omega) (by omega)
      (by omega) (by omega) h8'
    rw [hsame.symm] at hi
    rw [predictorRun_of_init _ _ _ _ hi]
    unfold predDec
    split
    · -- passthrough
      left
      have : ∀ (bs : List Bytes) (c : Codec PredState) (s : PredState), (∀ s b, c.block s b = .ok (s, [b])) →
          ∃ o, c.blocks s bs = .ok (s, o) := by
        intro bs c s hc
        induction bs with
        | nil => exact ⟨[], rfl⟩
        | cons b bs ih => obtain ⟨o, ho⟩ := ih; exact ⟨[b] ++ o, by simp only [blocks, hc, ho]⟩
      unfold run writes
      obtain ⟨o, ho⟩ := this bs { start := _, block := fun s b => .ok (s, [b]), finish := fun _ => .ok [] } _
        (fun s b => rfl)
      rw [ho]
      exact ⟨_, rfl⟩
    · have hsafe := predLoop_safe ⟨toInt32 p.predictor, bpc, bpc * colors / 8, cols * colors * bpc / 8⟩
        ⟨if toInt32 p.predictor ≥ 10 then -1 else toInt32 p.predictor, 0, toInt32 p.predictor ≥ 10,
          List.replicate (cols * colors * bpc / 8) 0, List.replicate (bpc * colors / 8) 0⟩ bs.flatten
        (by show 1 ≤ bpc * colors / 8; omega)
        ⟨if toInt32 p.predictor ≥ 10 then -1 else toInt32 p.predictor, 0, toInt32 p.predictor ≥ 10,
          List.replicate (cols * colors * bpc / 8) 0, List.replicate (bpc * colors / 8) 0⟩
        ⟨by show 0 < cols * colors * bpc / 8; omega, by simp, by simp⟩
      rcases hsafe with h | ⟨s, o, h, -⟩
      · right; left
        exact stepper_run_error _ bs _ h
      · left
        exact ⟨_, stepper_run _ bs _ s o rfl h rfl⟩

example : predictorRun ⟨15, 4294967297, 8, 3⟩ [[4, 1, 2, 3, 5]] = .ok [1, 3, 6] := by decide +kernel
example : predictorRun ⟨15, 1, 8, 3⟩ [[5, 1]] = raise .InvalidPredictor := by decide +kernel

/-- C08 for the predictor (part of Flate and LZW decoding): the decoded bytes do not depend on how the
input is cut, whatever the parameters. -/
theorem C08_predictor_block_independent (p : PredParams) (bs bs' : List Bytes) (h : bs.flatten = bs'.flatten) :
    predictorRun p bs = predictorRun p bs' := by
  unfold predictorRun
  cases predInit p with
  | error e => rfl
  | ok c =>
    obtain ⟨cfg, st0⟩ := c
    simp only
    unfold predDec
    split
    · have key : ∀ (bs : List Bytes) (s : PredState) (c : Codec PredState), (∀ s b, c.block s b = .ok (s, [b])) →
          c.blocks s bs = .ok (s, bs) := by
        intro bs s c hc
        induction bs with
        | nil => rfl
        | cons b bs ih => simp only [blocks, hc, ih]; rfl
      unfold run writes
      rw [key bs _ _ (fun s b => rfl), key bs' _ _ (fun s b => rfl)]
      simp only [List.append_nil, h]
    · exact ofStepper_run_congr _ h

end Pdfmm
