import Verif.Filters.AsciiLemmas2
/-
Property theorems for the ASCIIHexDecode and ASCII85Decode filters (C01 – C04, and their part of C08).
`hexEnc`, `hexDec`, `a85Enc`, `a85Dec` are the modelled filter directions; `run bs` is Begin, one
Encode/DecodeBlock call per element of `bs`, End.
-/
namespace Pdfmm
open Codec

/-- C01. ASCIIHex: encoding never fails, and however the data was cut for encoding (`eb`) and the
encoded text is cut for decoding (`db`), decoding returns the data. -/
theorem C01_hex_roundtrip (eb : List Bytes) :
    ∃ text, hexEnc.run eb = .ok text ∧
      ∀ db : List Bytes, db.flatten = text → hexDec.run db = .ok eb.flatten := by
  have he : hexEnc.run eb = .ok (List.flatten (List.map writeCharHex eb.flatten ++ [])) :=
    run_of_loop hexEncoder eb () (List.map writeCharHex eb.flatten) [] (hexEncoder_loop _) rfl
  refine ⟨_, he, ?_⟩
  intro db hdb
  obtain ⟨d', h⟩ := hexDecoder_loop_encoded 0 eb.flatten
  rw [List.append_nil] at hdb
  have := run_of_loop hexDecoder db ⟨d', true⟩ _ [] (by rw [hdb]; exact h) rfl
  rw [List.append_nil, flatten_map_singleton] at this
  exact this

example : hexEnc.run [[0x4A, 0x00], [], [0xFF]] = .ok [0x34, 0x41, 0x30, 0x30, 0x46, 0x46] ∧
    hexDec.run [[0x34], [0x41, 0x30], [0x30, 0x46, 0x46]] = .ok [0x4A, 0x00, 0xFF] := by
  decide +kernel

/-- C02 is false of the code: an odd final digit gives the byte `0x07` instead of `0x70`, and the end
marker `'>'` is taken for a digit. -/
theorem C02_hex_spec_false :
    ¬ ∀ (t r : Bytes), Spec.asciiHexDecode t = some r → hexDec.run [t] = .ok r := by
  intro h
  have := h [0x37] [0x70] (by decide)
  exact absurd this (by decide +kernel)

/-- The end marker alone already breaks the rule, with an even number of digits. -/
theorem C02_hex_endmarker_false :
    ¬ ∀ (t r : Bytes), (∀ ds, Spec.hexDigitsOf t = some ds → ds.length % 2 = 0) →
      Spec.asciiHexDecode t = some r → hexDec.run [t] = .ok r := by
  intro h
  have := h [0x34, 0x31, 0x3E] [0x41]
    (by intro ds hds; have e : Spec.hexDigitsOf [0x34, 0x31, 0x3E] = some [4, 1] := by decide
        rw [e] at hds; cases hds; rfl) (by decide)
  exact absurd this (by decide +kernel)

/-- C02, the part that holds: text without `'>'` and with an even number of digits is decoded as the
PDF rules say, however it is cut into blocks.  Missing: odd digit counts and the end marker
(refuted above). -/
theorem C02_hex_spec_partial (bs : List Bytes) (r : Bytes) (ds : List Nat)
    (hgt : ∀ b ∈ bs.flatten, b ≠ 62) (hds : Spec.hexDigitsOf bs.flatten = some ds)
    (heven : ds.length % 2 = 0) (hr : Spec.asciiHexDecode bs.flatten = some r) :
    hexDec.run bs = .ok r := by
  obtain ⟨⟨s, o, h1, h2⟩, -⟩ := (hex_loop_spec bs.flatten hgt ds hds).imp_left (fun h => h 0)
  obtain ⟨h3, h4⟩ := h2 heven
  have hf : hexDecoder.finish s = .ok [] := by
    show Except.ok (if s.low then [] else [[s.decodedByte]]) = _
    rw [h3]; rfl
  have := run_of_loop hexDecoder bs s o [] h1 hf
  simp only [Spec.asciiHexDecode, hds, Option.map_some, Option.some.injEq] at hr
  rw [List.append_nil, h4, hr] at this
  exact this

example : Spec.hexDigitsOf [0x34, 0x20, 0x61] = some [4, 10] ∧
    Spec.asciiHexDecode [0x34, 0x20, 0x61] = some [0x4A] := by decide

/-- C03. ASCII85: encoding never fails, and however the data was cut for encoding and the encoded text
is cut for decoding, decoding returns the data. -/
theorem C03_a85_roundtrip (eb : List Bytes) :
    ∃ text, a85Enc.run eb = .ok text ∧
      ∀ db : List Bytes, db.flatten = text → a85Dec.run db = .ok eb.flatten := by
  obtain ⟨s, w, f, s', w', f', h1, h2, h3, h4, h5, h6⟩ := a85_pass eb.flatten
  refine ⟨(w ++ f).flatten, run_of_loop a85Encoder eb s w f h1 h2, ?_⟩
  intro db hdb
  rw [a85Dec_run_eq db (fun b hb => a85Alpha_ne b (h6 b (hdb ▸ hb)))]
  rw [← h5]
  exact run_of_loop a85Decoder db s' w' f' (by rw [hdb]; exact h3) h4

example : a85Enc.run [[0, 0], [0, 0, 77], [97]] = .ok [122, 57, 106, 110] ∧
    a85Dec.run [[122, 57], [106, 110]] = .ok [0, 0, 0, 0, 77, 97] := by decide +kernel

/-- C04, output alphabet: the encoder only emits `'!'..'u'` and `'z'`. -/
theorem C04_a85_alphabet (eb : List Bytes) (text : Bytes) (h : a85Enc.run eb = .ok text) :
    ∀ b ∈ text, Spec.IsA85Digit b ∨ b = 122 := by
  obtain ⟨s, w, f, s', w', f', h1, h2, h3, h4, h5, h6⟩ := a85_pass eb.flatten
  have := run_of_loop a85Encoder eb s w f h1 h2
  have he : a85Enc.run eb = .ok (w ++ f).flatten := this
  rw [h] at he
  cases he
  exact h6

/-- C04, rejection of foreign characters: a character that is no base-85 digit, no `'z'`, no skipped
character and no `'~'`, before any end marker, makes decoding raise `ValueOutOfRange`, wherever it
stands and however the text is cut into blocks. -/
theorem C04_a85_rejects_foreign (bs : List Bytes) (pre post : Bytes) (c : Byte)
    (hbs : bs.flatten = pre ++ c :: post) (hpre : ∀ b ∈ pre, b ≠ 126) (hc : c ≠ 126)
    (h1 : ¬ Spec.IsA85Digit c) (h2 : ¬ Spec.IsA85Skip c) (h3 : c ≠ 122) :
    a85Dec.run bs = raise .ValueOutOfRange := by
  have : a85Dec.blocks a85Dec.start bs = raise .ValueOutOfRange :=
    a85Dec_blocks_bad _ bs pre post c (by show 0 < 5; decide) hbs hpre hc
      (fun s' _ _ => a85_bad_step s' c h1 h2 h3)
  unfold run writes
  rw [this]

example : ¬ Spec.IsA85Digit 0x80 ∧ ¬ Spec.IsA85Skip 0x80 ∧ (0x80 : Byte) ≠ 122 ∧
    a85Dec.run [[33, 33], [0x80]] = raise .ValueOutOfRange := by decide +kernel

/-- C04, rejection of `'z'` inside a group: after a number of digits that is not a multiple of five. -/
theorem C04_a85_rejects_z_inside_group (bs : List Bytes) (pre post : Bytes)
    (hbs : bs.flatten = pre ++ 122 :: post) (hpre : ∀ b ∈ pre, b ≠ 126)
    (hin : Spec.a85DigitCount pre % 5 ≠ 0) :
    a85Dec.run bs = raise .ValueOutOfRange := by
  have : a85Dec.blocks a85Dec.start bs = raise .ValueOutOfRange := by
    refine a85Dec_blocks_bad _ bs pre post 122 (by show 0 < 5; decide) hbs hpre (by decide) ?_
    intro s' _ hc
    have h0 : a85Dec.start.count = 0 := rfl
    rw [h0, Nat.zero_add] at hc
    unfold a85DecodeStep
    rw [if_pos rfl, if_pos (by rw [hc]; exact hin)]
  unfold run writes
  rw [this]

example : Spec.a85DigitCount [33, 32, 34] % 5 ≠ 0 := by decide

/-- C04, defined behaviour: decoding any bytes in any blocks either yields data or raises
`ValueOutOfRange`; it never indexes the power table out of range. -/
theorem C04_a85_total (bs : List Bytes) :
    a85Dec.run bs = raise .ValueOutOfRange ∨ ∃ r, a85Dec.run bs = .ok r := by
  unfold run writes
  rcases a85Dec_blocks_cases a85Dec.start bs (by show 0 < 5; decide) with h | ⟨s, o, h, hi⟩
  · rw [h]; exact Or.inl rfl
  · obtain ⟨o', ho'⟩ := a85EndDecode_ok s hi
    have hf : a85Dec.finish s = .ok o' := ho'
    rw [h]
    simp only
    rw [hf]
    exact Or.inr ⟨_, rfl⟩

theorem a85Decoder_loop_filter (s : A85State) (t : Bytes) :
    a85Decoder.loop s t = a85Decoder.loop s (t.filter fun b => !decide (Spec.IsA85Skip b)) := by
  induction t generalizing s with
  | nil => rfl
  | cons b t ih =>
    by_cases hb : Spec.IsA85Skip b
    · have hs : a85Decoder.step s b = .ok (s, []) := by
        have h1 : b ≠ 122 ∧ a85IsSpace b = true :=
          forall_byte (P := fun b => Spec.IsA85Skip b → b ≠ 122 ∧ a85IsSpace b = true)
            (by decide +kernel) b hb
        show a85DecodeStep s b = _
        unfold a85DecodeStep
        rw [if_neg h1.1, if_pos h1.2]
      rw [List.filter_cons_of_neg (by simp [hb])]
      rw [← ih s]
      simp only [Stepper.loop, hs]
      cases a85Decoder.loop s t with
      | error e => rfl
      | ok p => rfl
    · rw [List.filter_cons_of_pos (by simp [hb])]
      simp only [Stepper.loop]
      cases a85Decoder.step s b with
      | error e => rfl
      | ok p => simp only [ih p.1]

/-- C04, white space: the characters a reader may skip make no difference, wherever they stand (text
without an end marker). -/
theorem C04_a85_skips_white (bs : List Bytes) (hno : ∀ b ∈ bs.flatten, b ≠ 126) :
    a85Dec.run bs = a85Dec.run [bs.flatten.filter fun b => !decide (Spec.IsA85Skip b)] := by
  rw [a85Dec_run_eq bs hno, a85Dec_run_eq _ (by
    intro b hb
    rw [List.flatten_cons, List.flatten_nil, List.append_nil] at hb
    exact hno b (List.mem_filter.1 hb).1)]
  unfold run
  rw [ofStepper_writes, ofStepper_writes, a85Decoder_loop_filter]
  simp

example : a85Dec.run [[57, 13], [10, 106, 32, 110]] = .ok [77, 97] := by decide +kernel

theorem a85DecodeBlock_marker (s s' : A85State) (o : List Bytes) (t junk : Bytes)
    (h : ∀ b ∈ t, b ≠ 126) (hl : a85Decoder.loop s t = .ok (s', o)) :
    a85DecodeBlock s (t ++ 126 :: 62 :: junk) = .ok (s', o) := by
  induction t generalizing s s' o with
  | nil =>
    simp only [Stepper.loop, Except.ok.injEq, Prod.mk.injEq] at hl
    simp [a85DecodeBlock, hl]
  | cons b t ih =>
    have hb : b ≠ 126 := h b (by simp)
    have hs : a85Decoder.step s b = a85DecodeStep s b := rfl
    simp only [Stepper.loop, hs] at hl
    simp only [List.cons_append, a85DecodeBlock, hb, if_false]
    cases hd : a85DecodeStep s b with
    | error e => rw [hd] at hl; simp at hl
    | ok p =>
      obtain ⟨s1, o1⟩ := p
      rw [hd] at hl
      simp only at hl ⊢
      cases hq : a85Decoder.loop s1 t with
      | error e => rw [hq] at hl; simp at hl
      | ok q =>
        obtain ⟨s2, o2⟩ := q
        rw [hq] at hl
        rw [ih s1 s2 o2 (fun c hc => h c (by simp [hc])) hq]
        exact hl

/-- C03, end marker: text followed by the end marker `~>` (and anything after it), decoded in one piece,
gives back the data. -/
theorem C03_a85_endmarker (eb : List Bytes) (junk : Bytes) :
    ∃ text, a85Enc.run eb = .ok text ∧ a85Dec.oneShot (text ++ 126 :: 62 :: junk) = .ok eb.flatten := by
  obtain ⟨s, w, f, s', w', f', h1, h2, h3, h4, h5, h6⟩ := a85_pass eb.flatten
  refine ⟨(w ++ f).flatten, run_of_loop a85Encoder eb s w f h1 h2, ?_⟩
  have hb := a85DecodeBlock_marker _ s' w' (w ++ f).flatten junk
    (fun b hb => a85Alpha_ne b (h6 b hb)) h3
  have hb' : a85Dec.block a85Dec.start ((w ++ f).flatten ++ 126 :: 62 :: junk) = .ok (s', w') := hb
  have hf : a85Dec.finish s' = .ok f' := h4
  simp only [oneShot, run, writes, blocks, hb', hf, List.append_nil, h5]

example : a85Dec.oneShot [57, 106, 110, 126, 62, 10, 200] = .ok [77, 97] := by decide +kernel

/-- C08, ASCIIHex: decoding depends on the blocks only through their concatenation. -/
theorem C08_hex_block_independent (bs bs' : List Bytes) (h : bs.flatten = bs'.flatten) :
    hexDec.run bs = hexDec.run bs' := ofStepper_run_congr hexDecoder h

example : ([[0x34], [0x31]] : List Bytes).flatten = ([[0x34, 0x31]] : List Bytes).flatten := by decide

/-- C08, ASCII85: block independence fails once the end marker is cut (`"~" + ">"`). -/
theorem C08_a85_block_independent_false :
    ¬ ∀ bs bs' : List Bytes, bs.flatten = bs'.flatten → a85Dec.run bs = a85Dec.run bs' := by
  intro h
  have := h [[57, 106, 126, 62]] [[57, 106, 126], [62]] (by decide)
  exact absurd this (by decide +kernel)

/-- C08, ASCII85: block independence for text without an end marker.  Missing: texts containing `'~'`
(refuted above). -/
theorem C08_a85_block_independent_partial (bs bs' : List Bytes) (h : bs.flatten = bs'.flatten)
    (hno : ∀ b ∈ bs.flatten, b ≠ 126) : a85Dec.run bs = a85Dec.run bs' := by
  rw [a85Dec_run_eq bs hno, a85Dec_run_eq bs' (h ▸ hno)]
  exact ofStepper_run_congr a85Decoder h

end Pdfmm
