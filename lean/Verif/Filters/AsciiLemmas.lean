import Verif.Filters.AsciiModel
/- Helper lemmas for the ASCII filters. -/
namespace Pdfmm
open Codec

theorem hexEncoder_loop (bs : Bytes) :
    hexEncoder.loop () bs = .ok ((), bs.map writeCharHex) := by
  induction bs with
  | nil => rfl
  | cons b bs ih =>
    have hs : hexEncoder.step () b = .ok ((), [writeCharHex b]) := rfl
    simp only [Stepper.loop, hs]
    rw [ih]; rfl

theorem hexDecode_pair (d : Byte) (b : Byte) :
    hexDecoder.loop ⟨d, true⟩ (writeCharHex b) = .ok (⟨b, true⟩, [[b]]) := by
  have key : ∀ b : Byte,
      isWhitespace (hexDigit ((b &&& 0xF0) >>> 4)) = false ∧
      isWhitespace (hexDigit (b &&& 0x0F)) = false ∧
      ((hexValueOrZero (hexDigit ((b &&& 0xF0) >>> 4)) &&& 0x0F) <<< 4) |||
        hexValueOrZero (hexDigit (b &&& 0x0F)) = b := by
    apply forall_byte
    decide +kernel
  obtain ⟨h1, h2, h3⟩ := key b
  simp only [writeCharHex, Stepper.loop, hexDecoder, hexDecodeStep, h1, h2]
  simp only [Bool.false_eq_true, if_false, if_true, h3]
  rfl

theorem hexDecoder_loop_encoded (d : Byte) (bs : Bytes) :
    ∃ d', hexDecoder.loop ⟨d, true⟩ (bs.map writeCharHex).flatten
      = .ok (⟨d', true⟩, bs.map fun b => [b]) := by
  induction bs generalizing d with
  | nil => exact ⟨d, rfl⟩
  | cons b bs ih =>
    obtain ⟨d', h⟩ := ih b
    refine ⟨d', ?_⟩
    rw [List.map_cons, List.flatten_cons, Stepper.loop_append, hexDecode_pair]
    simp only
    rw [h]
    rfl

theorem flatten_map_singleton (bs : Bytes) : (bs.map fun b => [b]).flatten = bs := by
  induction bs with
  | nil => rfl
  | cons b bs ih => simp [ih]

/-! ### ASCII85 -/

/-- Byte-by-byte view of the decoder, valid for texts without `'~'`. -/
def a85Decoder : Stepper A85State where
  start := { count := 0, tuple := 0 }
  step := a85DecodeStep
  finish := a85EndDecode

theorem a85DecodeBlock_eq_loop (s : A85State) (bs : Bytes) (h : ∀ b ∈ bs, b ≠ 126) :
    a85DecodeBlock s bs = a85Decoder.loop s bs := by
  induction bs generalizing s with
  | nil => rfl
  | cons b bs ih =>
    have hb : b ≠ 126 := h b (by simp)
    have hs : a85Decoder.step s b = a85DecodeStep s b := rfl
    simp only [a85DecodeBlock, Stepper.loop, hb, if_false, hs]
    cases a85DecodeStep s b with
    | error e => rfl
    | ok p =>
      obtain ⟨s1, o1⟩ := p
      simp only
      rw [ih s1 (fun b' hb' => h b' (by simp [hb']))]
      cases a85Decoder.loop s1 bs <;> rfl

theorem a85Dec_blocks_eq_loop (s : A85State) (bs : List Bytes) (h : ∀ b ∈ bs.flatten, b ≠ 126) :
    a85Dec.blocks s bs = a85Decoder.loop s bs.flatten := by
  induction bs generalizing s with
  | nil => rfl
  | cons b bs ih =>
    have hb : a85Dec.block s b = a85Decoder.loop s b :=
      a85DecodeBlock_eq_loop s b (fun x hx => h x (by simp [hx]))
    simp only [blocks, List.flatten_cons, Stepper.loop_append]
    rw [hb]
    cases a85Decoder.loop s b with
    | error e => rfl
    | ok p =>
      obtain ⟨s1, o1⟩ := p
      have := ih s1 (fun x hx => h x (by
        rw [List.flatten_cons, List.mem_append]; exact Or.inr hx))
      simp only
      rw [this]

theorem a85Dec_writes_eq (bs : List Bytes) (h : ∀ b ∈ bs.flatten, b ≠ 126) :
    a85Dec.writes bs = (ofStepper a85Decoder).writes bs := by
  rw [ofStepper_writes]
  unfold writes
  have : a85Dec.blocks a85Dec.start bs = a85Decoder.loop a85Decoder.start bs.flatten :=
    a85Dec_blocks_eq_loop _ bs h
  rw [this]
  cases a85Decoder.loop a85Decoder.start bs.flatten <;> rfl

theorem a85Dec_run_eq (bs : List Bytes) (h : ∀ b ∈ bs.flatten, b ≠ 126) :
    a85Dec.run bs = (ofStepper a85Decoder).run bs := by
  unfold run; rw [a85Dec_writes_eq bs h]

/-- The character for a base-85 digit. -/
theorem a85Char_facts (d : Nat) (h : d < 85) :
    UInt8.ofNat (d + 33) ≠ 122 ∧ UInt8.ofNat (d + 33) ≠ 126 ∧ a85IsSpace (UInt8.ofNat (d + 33)) = false ∧
    schar (UInt8.ofNat (d + 33)) = d + 33 ∧ (UInt8.ofNat (d + 33)).toNat = d + 33 := by
  have key : ∀ i : Fin 85,
    UInt8.ofNat (i.val + 33) ≠ 122 ∧ UInt8.ofNat (i.val + 33) ≠ 126 ∧
    a85IsSpace (UInt8.ofNat (i.val + 33)) = false ∧
    schar (UInt8.ofNat (i.val + 33)) = i.val + 33 ∧ (UInt8.ofNat (i.val + 33)).toNat = i.val + 33 := by
    decide +kernel
  exact key ⟨d, h⟩

theorem a85Step_digit (c t d p : Nat) (h : d < 85) (hp : powers85[c]? = some p) :
    a85DecodeStep ⟨c, t⟩ (UInt8.ofNat (d + 33)) =
      (if c + 1 = 5 then .ok ({ count := 0, tuple := 0 }, [a85WidePut ((t + p * d) % 2 ^ 32) 4])
       else .ok ({ count := c + 1, tuple := (t + p * d) % 2 ^ 32 }, [])) := by
  obtain ⟨h1, h2, h3, h4, h5⟩ := a85Char_facts d h
  unfold a85DecodeStep
  rw [if_neg h1, h3]
  simp only [Bool.false_eq_true, if_false]
  rw [if_neg (by rw [h4]; omega)]
  simp only [hp, h5, Nat.add_sub_cancel, Nat.mul_comm d p]

theorem a85Digits_rev (t : Nat) : (a85Digits 5 t).reverse =
    [t / 85 / 85 / 85 / 85 % 85, t / 85 / 85 / 85 % 85, t / 85 / 85 % 85, t / 85 % 85, t % 85] := by
  simp [a85Digits]

theorem or_bytes (a b c d : Byte) :
    (((0 ||| a.toNat <<< 24) ||| b.toNat <<< 16) ||| c.toNat <<< 8) ||| d.toNat
      = a.toNat * 2 ^ 24 + b.toNat * 2 ^ 16 + c.toNat * 2 ^ 8 + d.toNat := by
  have ha := a.toNat_lt
  have hb := b.toNat_lt
  have hc := c.toNat_lt
  have hd := d.toNat_lt
  have e1 : (a.toNat <<< 24) ||| b.toNat <<< 16 = (a.toNat <<< 8 + b.toNat) <<< 16 := by
    rw [Nat.shiftLeft_add_eq_or_of_lt (by simpa using hb), Nat.shiftLeft_or_distrib, ← Nat.shiftLeft_add]
  have e2 : ((a.toNat <<< 8 + b.toNat) <<< 16) ||| c.toNat <<< 8
      = ((a.toNat <<< 8 + b.toNat) <<< 8 + c.toNat) <<< 8 := by
    generalize a.toNat <<< 8 + b.toNat = x
    rw [Nat.shiftLeft_add_eq_or_of_lt (by simpa using hc), Nat.shiftLeft_or_distrib, ← Nat.shiftLeft_add]
  rw [Nat.zero_or, e1, e2, ← Nat.shiftLeft_add_eq_or_of_lt (by simpa using hd)]
  simp only [Nat.shiftLeft_eq]
  omega

theorem or_bytes3 (a b c : Byte) :
    ((0 ||| a.toNat <<< 24) ||| b.toNat <<< 16) ||| c.toNat <<< 8
      = a.toNat * 2 ^ 24 + b.toNat * 2 ^ 16 + c.toNat * 2 ^ 8 := by
  have := or_bytes a b c 0
  simpa using this

theorem or_bytes2 (a b : Byte) :
    (0 ||| a.toNat <<< 24) ||| b.toNat <<< 16 = a.toNat * 2 ^ 24 + b.toNat * 2 ^ 16 := by
  have := or_bytes3 a b 0
  simpa using this

theorem or_bytes1 (a : Byte) : (0 ||| a.toNat <<< 24) = a.toNat * 2 ^ 24 := by
  have := or_bytes2 a 0
  simpa using this

theorem ofNat_shift_lemma (t : Nat) (x : Byte) (k : Nat) (h : t / 2 ^ k % 256 = x.toNat) :
    UInt8.ofNat (t >>> k) = x := by
  apply UInt8.toNat.inj
  simp [Nat.shiftRight_eq_div_pow, h]

theorem a85WidePut4 (a b c d : Byte) :
    a85WidePut (a.toNat * 2 ^ 24 + b.toNat * 2 ^ 16 + c.toNat * 2 ^ 8 + d.toNat) 4 = [a, b, c, d] := by
  have ha := a.toNat_lt
  have hb := b.toNat_lt
  have hc := c.toNat_lt
  have hd := d.toNat_lt
  simp only [a85WidePut, List.take_succ_cons, List.take_zero, List.map_cons, List.map_nil]
  rw [ofNat_shift_lemma _ a 24 (by omega), ofNat_shift_lemma _ b 16 (by omega),
    ofNat_shift_lemma _ c 8 (by omega)]
  have := ofNat_shift_lemma (a.toNat * 2 ^ 24 + b.toNat * 2 ^ 16 + c.toNat * 2 ^ 8 + d.toNat) d 0
    (by omega)
  simp only [Nat.shiftRight_zero] at this
  rw [this]

theorem a85WidePut3 (v : Nat) (a b c : Byte)
    (h : v / 2 ^ 8 = a.toNat * 2 ^ 16 + b.toNat * 2 ^ 8 + c.toNat) :
    a85WidePut v 3 = [a, b, c] := by
  have ha := a.toNat_lt
  have hb := b.toNat_lt
  have hc := c.toNat_lt
  simp only [a85WidePut, List.take_succ_cons, List.take_zero, List.map_cons, List.map_nil]
  rw [ofNat_shift_lemma _ a 24 (by omega), ofNat_shift_lemma _ b 16 (by omega),
    ofNat_shift_lemma _ c 8 (by omega)]

theorem a85WidePut2 (v : Nat) (a b : Byte) (h : v / 2 ^ 16 = a.toNat * 2 ^ 8 + b.toNat) :
    a85WidePut v 2 = [a, b] := by
  have ha := a.toNat_lt
  have hb := b.toNat_lt
  simp only [a85WidePut, List.take_succ_cons, List.take_zero, List.map_cons, List.map_nil]
  rw [ofNat_shift_lemma _ a 24 (by omega), ofNat_shift_lemma _ b 16 (by omega)]

theorem a85WidePut1 (v : Nat) (a : Byte) (h : v / 2 ^ 24 = a.toNat) :
    a85WidePut v 1 = [a] := by
  have ha := a.toNat_lt
  simp only [a85WidePut, List.take_succ_cons, List.take_zero, List.map_cons, List.map_nil]
  rw [ofNat_shift_lemma _ a 24 (by omega)]

/-- What the encoder emits for a full group of four bytes. -/
def a85Group (a b c d : Byte) : Bytes :=
  let t := a.toNat * 2 ^ 24 + b.toNat * 2 ^ 16 + c.toNat * 2 ^ 8 + d.toNat
  if t = 0 then [122] else a85EncodeTuple t 4

theorem a85Encoder_group (a b c d : Byte) :
    a85Encoder.loop ⟨0, 0⟩ [a, b, c, d] = .ok (⟨0, 0⟩, [a85Group a b c d]) := by
  simp only [Stepper.loop, a85Encoder, a85EncodeStep, a85Group, or_bytes]
  rfl

theorem a85Encoder_tail3 (a b c : Byte) :
    a85Encoder.loop ⟨0, 0⟩ [a, b, c] =
      .ok (⟨3, a.toNat * 2 ^ 24 + b.toNat * 2 ^ 16 + c.toNat * 2 ^ 8⟩, []) := by
  simp only [Stepper.loop, a85Encoder, a85EncodeStep, or_bytes3]
  rfl

theorem a85Encoder_tail2 (a b : Byte) :
    a85Encoder.loop ⟨0, 0⟩ [a, b] = .ok (⟨2, a.toNat * 2 ^ 24 + b.toNat * 2 ^ 16⟩, []) := by
  simp only [Stepper.loop, a85Encoder, a85EncodeStep, or_bytes2]
  rfl

theorem a85Encoder_tail1 (a : Byte) :
    a85Encoder.loop ⟨0, 0⟩ [a] = .ok (⟨1, a.toNat * 2 ^ 24⟩, []) := by
  simp only [Stepper.loop, a85Encoder, a85EncodeStep, or_bytes1]
  rfl

theorem a85EncodeTuple_eq (t k : Nat) :
    a85EncodeTuple t k =
      ([t / 85 / 85 / 85 / 85 % 85, t / 85 / 85 / 85 % 85, t / 85 / 85 % 85, t / 85 % 85, t % 85].take
        (k + 1)).map fun d => UInt8.ofNat (d + 33) := by
  unfold a85EncodeTuple; rw [a85Digits_rev]

theorem a85_digits_sum (t : Nat) :
    t = ((((t / 85 / 85 / 85 / 85) * 85 + t / 85 / 85 / 85 % 85) * 85 + t / 85 / 85 % 85) * 85
      + t / 85 % 85) * 85 + t % 85 := by
  omega

theorem a85_top (t : Nat) (h : t < 4294967296) : t / 85 / 85 / 85 / 85 < 85 := by omega

/-- State and output after decoding the first `n + 1` digits of a group (n = 0..3), and after 5. -/
theorem a85Decoder_digits (d0 d1 d2 d3 d4 : Nat) (h0 : d0 < 85) (h1 : d1 < 85) (h2 : d2 < 85)
    (h3 : d3 < 85) (h4 : d4 < 85)
    (t : Nat) (ht : 52200625 * d0 + 614125 * d1 + 7225 * d2 + 85 * d3 + d4 = t)
    (hlt : t < 4294967296) :
    a85Decoder.loop ⟨0, 0⟩ [UInt8.ofNat (d0 + 33), UInt8.ofNat (d1 + 33)] =
      .ok (⟨2, 52200625 * d0 + 614125 * d1⟩, []) ∧
    a85Decoder.loop ⟨0, 0⟩ [UInt8.ofNat (d0 + 33), UInt8.ofNat (d1 + 33), UInt8.ofNat (d2 + 33)] =
      .ok (⟨3, 52200625 * d0 + 614125 * d1 + 7225 * d2⟩, []) ∧
    a85Decoder.loop ⟨0, 0⟩ [UInt8.ofNat (d0 + 33), UInt8.ofNat (d1 + 33), UInt8.ofNat (d2 + 33),
        UInt8.ofNat (d3 + 33)] =
      .ok (⟨4, 52200625 * d0 + 614125 * d1 + 7225 * d2 + 85 * d3⟩, []) ∧
    a85Decoder.loop ⟨0, 0⟩ [UInt8.ofNat (d0 + 33), UInt8.ofNat (d1 + 33), UInt8.ofNat (d2 + 33),
        UInt8.ofNat (d3 + 33), UInt8.ofNat (d4 + 33)] =
      .ok (⟨0, 0⟩, [a85WidePut (52200625 * d0 + 614125 * d1 + 7225 * d2 + 85 * d3 + d4) 4]) := by
  have e0 : a85Decoder.step ⟨0, 0⟩ (UInt8.ofNat (d0 + 33)) = .ok (⟨1, 52200625 * d0⟩, []) := by
    show a85DecodeStep _ _ = _
    rw [a85Step_digit 0 0 d0 52200625 h0 rfl, Nat.mod_eq_of_lt (by omega)]
    simp
  have e1 : a85Decoder.step ⟨1, 52200625 * d0⟩ (UInt8.ofNat (d1 + 33))
      = .ok (⟨2, 52200625 * d0 + 614125 * d1⟩, []) := by
    show a85DecodeStep _ _ = _
    rw [a85Step_digit 1 _ d1 614125 h1 rfl, Nat.mod_eq_of_lt (by omega)]
    rfl
  have e2 : a85Decoder.step ⟨2, 52200625 * d0 + 614125 * d1⟩ (UInt8.ofNat (d2 + 33))
      = .ok (⟨3, 52200625 * d0 + 614125 * d1 + 7225 * d2⟩, []) := by
    show a85DecodeStep _ _ = _
    rw [a85Step_digit 2 _ d2 7225 h2 rfl, Nat.mod_eq_of_lt (by omega)]
    rfl
  have e3 : a85Decoder.step ⟨3, 52200625 * d0 + 614125 * d1 + 7225 * d2⟩ (UInt8.ofNat (d3 + 33))
      = .ok (⟨4, 52200625 * d0 + 614125 * d1 + 7225 * d2 + 85 * d3⟩, []) := by
    show a85DecodeStep _ _ = _
    rw [a85Step_digit 3 _ d3 85 h3 rfl, Nat.mod_eq_of_lt (by omega)]
    rfl
  have e4 : a85Decoder.step ⟨4, 52200625 * d0 + 614125 * d1 + 7225 * d2 + 85 * d3⟩
      (UInt8.ofNat (d4 + 33))
      = .ok (⟨0, 0⟩, [a85WidePut (52200625 * d0 + 614125 * d1 + 7225 * d2 + 85 * d3 + d4) 4]) := by
    show a85DecodeStep _ _ = _
    rw [a85Step_digit 4 _ d4 1 h4 rfl, Nat.mod_eq_of_lt (by omega), Nat.one_mul]
    rfl
  refine ⟨?_, ?_, ?_, ?_⟩ <;> simp only [Stepper.loop, e0, e1, e2, e3, e4, List.append_nil, List.nil_append]

/-- Decoding a whole encoded group from the group boundary. -/
theorem a85Decoder_group (a b c d : Byte) :
    a85Decoder.loop ⟨0, 0⟩ (a85Group a b c d) = .ok (⟨0, 0⟩, [[a, b, c, d]]) := by
  have ha := a.toNat_lt
  have hb := b.toNat_lt
  have hc := c.toNat_lt
  have hd := d.toNat_lt
  unfold a85Group
  simp only
  split
  · next h0 =>
    have ea : a = 0 := UInt8.toNat.inj (by simp; omega)
    have eb : b = 0 := UInt8.toNat.inj (by simp; omega)
    have ec : c = 0 := UInt8.toNat.inj (by simp; omega)
    have ed : d = 0 := UInt8.toNat.inj (by simp; omega)
    subst ea eb ec ed
    decide +kernel
  · next h0 =>
    rw [a85EncodeTuple_eq]
    generalize ht : a.toNat * 2 ^ 24 + b.toNat * 2 ^ 16 + c.toNat * 2 ^ 8 + d.toNat = t at h0 ⊢
    have hlt : t < 4294967296 := by omega
    have hs := a85_digits_sum t
    have htop := a85_top t hlt
    rw [Nat.mod_eq_of_lt htop]
    simp only [List.take_succ_cons, List.take_zero, List.map_cons, List.map_nil]
    have m1 := Nat.mod_lt (t / 85 / 85 / 85) (show 0 < 85 by decide)
    have m2 := Nat.mod_lt (t / 85 / 85) (show 0 < 85 by decide)
    have m3 := Nat.mod_lt (t / 85) (show 0 < 85 by decide)
    have m4 := Nat.mod_lt t (show 0 < 85 by decide)
    generalize t / 85 / 85 / 85 / 85 = d0 at *
    generalize t / 85 / 85 / 85 % 85 = d1 at *
    generalize t / 85 / 85 % 85 = d2 at *
    generalize t / 85 % 85 = d3 at *
    generalize t % 85 = d4 at *
    have hsum : 52200625 * d0 + 614125 * d1 + 7225 * d2 + 85 * d3 + d4 = t := by omega
    obtain ⟨-, -, -, h⟩ := a85Decoder_digits d0 d1 d2 d3 d4 htop m1 m2 m3 m4 t hsum hlt
    rw [h, hsum, ← ht, a85WidePut4]

theorem a85EndDecode_eq (k t p : Nat) (hp : powers85[k]? = some p) :
    a85EndDecode ⟨k + 1, t⟩ = .ok [a85WidePut ((t + p) % 2 ^ 32) k] := by
  simp [a85EndDecode, hp]

/-- Decoding the encoding of a one-byte tail. -/
theorem a85Decoder_tail1 (a : Byte) :
    ∃ s, a85Decoder.loop ⟨0, 0⟩ (a85EncodeTuple (a.toNat * 2 ^ 24) 1) = .ok (s, []) ∧
      a85EndDecode s = .ok [[a]] := by
  have ha := a.toNat_lt
  rw [a85EncodeTuple_eq]
  generalize ht : a.toNat * 2 ^ 24 = t
  have hlt : t < 4294967296 := by omega
  have hs := a85_digits_sum t
  have htop := a85_top t hlt
  rw [Nat.mod_eq_of_lt htop]
  simp only [List.take_succ_cons, List.take_zero, List.map_cons, List.map_nil]
  have m1 := Nat.mod_lt (t / 85 / 85 / 85) (show 0 < 85 by decide)
  have m2 := Nat.mod_lt (t / 85 / 85) (show 0 < 85 by decide)
  have m3 := Nat.mod_lt (t / 85) (show 0 < 85 by decide)
  have m4 := Nat.mod_lt t (show 0 < 85 by decide)
  generalize t / 85 / 85 / 85 / 85 = d0 at *
  generalize t / 85 / 85 / 85 % 85 = d1 at *
  generalize t / 85 / 85 % 85 = d2 at *
  generalize t / 85 % 85 = d3 at *
  generalize t % 85 = d4 at *
  have hsum : 52200625 * d0 + 614125 * d1 + 7225 * d2 + 85 * d3 + d4 = t := by omega
  obtain ⟨h, -, -, -⟩ := a85Decoder_digits d0 d1 d2 d3 d4 htop m1 m2 m3 m4 t hsum hlt
  refine ⟨_, h, ?_⟩
  rw [a85EndDecode_eq 1 _ 614125 rfl]
  have hb : a.toNat * 2 ^ 24 < 52200625 * d0 + 614125 * d1 + 614125 ∧
      52200625 * d0 + 614125 * d1 + 614125 < (a.toNat + 1) * 2 ^ 24 := by omega
  generalize 52200625 * d0 + 614125 * d1 + 614125 = v at *
  rw [Nat.mod_eq_of_lt (by omega), a85WidePut1 _ a (by omega)]

/-- Decoding the encoding of a two-byte tail. -/
theorem a85Decoder_tail2 (a b : Byte) :
    ∃ s, a85Decoder.loop ⟨0, 0⟩ (a85EncodeTuple (a.toNat * 2 ^ 24 + b.toNat * 2 ^ 16) 2)
        = .ok (s, []) ∧ a85EndDecode s = .ok [[a, b]] := by
  have ha := a.toNat_lt
  have hb := b.toNat_lt
  rw [a85EncodeTuple_eq]
  generalize ht : a.toNat * 2 ^ 24 + b.toNat * 2 ^ 16 = t
  have hlt : t < 4294967296 := by omega
  have hs := a85_digits_sum t
  have htop := a85_top t hlt
  rw [Nat.mod_eq_of_lt htop]
  simp only [List.take_succ_cons, List.take_zero, List.map_cons, List.map_nil]
  have m1 := Nat.mod_lt (t / 85 / 85 / 85) (show 0 < 85 by decide)
  have m2 := Nat.mod_lt (t / 85 / 85) (show 0 < 85 by decide)
  have m3 := Nat.mod_lt (t / 85) (show 0 < 85 by decide)
  have m4 := Nat.mod_lt t (show 0 < 85 by decide)
  generalize t / 85 / 85 / 85 / 85 = d0 at *
  generalize t / 85 / 85 / 85 % 85 = d1 at *
  generalize t / 85 / 85 % 85 = d2 at *
  generalize t / 85 % 85 = d3 at *
  generalize t % 85 = d4 at *
  have hsum : 52200625 * d0 + 614125 * d1 + 7225 * d2 + 85 * d3 + d4 = t := by omega
  obtain ⟨-, h, -, -⟩ := a85Decoder_digits d0 d1 d2 d3 d4 htop m1 m2 m3 m4 t hsum hlt
  refine ⟨_, h, ?_⟩
  rw [a85EndDecode_eq 2 _ 7225 rfl]
  have hv : a.toNat * 2 ^ 24 + b.toNat * 2 ^ 16 < 52200625 * d0 + 614125 * d1 + 7225 * d2 + 7225 ∧
      52200625 * d0 + 614125 * d1 + 7225 * d2 + 7225 < a.toNat * 2 ^ 24 + (b.toNat + 1) * 2 ^ 16 := by
    omega
  generalize 52200625 * d0 + 614125 * d1 + 7225 * d2 + 7225 = v at *
  rw [Nat.mod_eq_of_lt (by omega), a85WidePut2 _ a b (by omega)]

/-- Decoding the encoding of a three-byte tail. -/
theorem a85Decoder_tail3 (a b c : Byte) :
    ∃ s, a85Decoder.loop ⟨0, 0⟩
        (a85EncodeTuple (a.toNat * 2 ^ 24 + b.toNat * 2 ^ 16 + c.toNat * 2 ^ 8) 3)
        = .ok (s, []) ∧ a85EndDecode s = .ok [[a, b, c]] := by
  have ha := a.toNat_lt
  have hb := b.toNat_lt
  have hc := c.toNat_lt
  rw [a85EncodeTuple_eq]
  generalize ht : a.toNat * 2 ^ 24 + b.toNat * 2 ^ 16 + c.toNat * 2 ^ 8 = t
  have hlt : t < 4294967296 := by omega
  have hs := a85_digits_sum t
  have htop := a85_top t hlt
  rw [Nat.mod_eq_of_lt htop]
  simp only [List.take_succ_cons, List.take_zero, List.map_cons, List.map_nil]
  have m1 := Nat.mod_lt (t / 85 / 85 / 85) (show 0 < 85 by decide)
  have m2 := Nat.mod_lt (t / 85 / 85) (show 0 < 85 by decide)
  have m3 := Nat.mod_lt (t / 85) (show 0 < 85 by decide)
  have m4 := Nat.mod_lt t (show 0 < 85 by decide)
  generalize t / 85 / 85 / 85 / 85 = d0 at *
  generalize t / 85 / 85 / 85 % 85 = d1 at *
  generalize t / 85 / 85 % 85 = d2 at *
  generalize t / 85 % 85 = d3 at *
  generalize t % 85 = d4 at *
  have hsum : 52200625 * d0 + 614125 * d1 + 7225 * d2 + 85 * d3 + d4 = t := by omega
  obtain ⟨-, -, h, -⟩ := a85Decoder_digits d0 d1 d2 d3 d4 htop m1 m2 m3 m4 t hsum hlt
  refine ⟨_, h, ?_⟩
  rw [a85EndDecode_eq 3 _ 85 rfl]
  have hv : a.toNat * 2 ^ 24 + b.toNat * 2 ^ 16 + c.toNat * 2 ^ 8
        < 52200625 * d0 + 614125 * d1 + 7225 * d2 + 85 * d3 + 85 ∧
      52200625 * d0 + 614125 * d1 + 7225 * d2 + 85 * d3 + 85
        < a.toNat * 2 ^ 24 + b.toNat * 2 ^ 16 + (c.toNat + 1) * 2 ^ 8 := by
    omega
  generalize 52200625 * d0 + 614125 * d1 + 7225 * d2 + 85 * d3 + 85 = v at *
  rw [Nat.mod_eq_of_lt (by omega), a85WidePut3 _ a b c (by omega)]

end Pdfmm
