import Verif.Filters.AsciiLemmas
import Verif.Filters.Spec
/- Helper lemmas, continued: whole-run statements for the ASCII filters. -/
namespace Pdfmm
open Codec

/-- `run` of a stepper from the result of its loop. -/
theorem run_of_loop {σ : Type} (c : Stepper σ) (bs : List Bytes) (s : σ) (o o' : List Bytes)
    (h : c.loop c.start bs.flatten = .ok (s, o)) (hf : c.finish s = .ok o') :
    (ofStepper c).run bs = .ok (o ++ o').flatten := by
  unfold run
  rw [ofStepper_writes, h]
  simp only
  rw [hf]

/-- Alphabet of ASCII85 output. -/
def a85Alpha (b : Byte) : Prop := Spec.IsA85Digit b ∨ b = 122

theorem a85Alpha_ne (b : Byte) (h : a85Alpha b) : b ≠ 126 := by
  rintro rfl
  rcases h with h | h
  · exact absurd h (by decide)
  · exact absurd h (by decide)

theorem a85EncodeTuple_alpha (t k : Nat) : ∀ b ∈ a85EncodeTuple t k, a85Alpha b := by
  intro b hb
  rw [a85EncodeTuple_eq] at hb
  obtain ⟨d, hd, rfl⟩ := List.mem_map.mp hb
  have hd' := List.mem_of_mem_take hd
  left
  have : d < 85 := by
    simp only [List.mem_cons, List.not_mem_nil, or_false] at hd'
    rcases hd' with rfl | rfl | rfl | rfl | rfl <;> exact Nat.mod_lt _ (by decide)
  obtain ⟨-, -, -, -, h⟩ := a85Char_facts d this
  unfold Spec.IsA85Digit
  omega

theorem a85Group_alpha (a b c d : Byte) : ∀ x ∈ a85Group a b c d, a85Alpha x := by
  intro x hx
  unfold a85Group at hx
  simp only at hx
  split at hx
  · simp only [List.mem_singleton] at hx; exact Or.inr hx
  · exact a85EncodeTuple_alpha _ _ x hx

theorem a85Encoder_finish (k t : Nat) :
    a85Encoder.finish ⟨k + 1, t⟩ = .ok [a85EncodeTuple t (k + 1)] := by
  simp [a85Encoder]

/-- What one pass of the encoder over `bs` and of the decoder over its output achieves. -/
def A85Pass (bs : Bytes) : Prop :=
  ∃ s w f s' w' f', a85Encoder.loop ⟨0, 0⟩ bs = .ok (s, w) ∧ a85Encoder.finish s = .ok f ∧
      a85Decoder.loop ⟨0, 0⟩ (w ++ f).flatten = .ok (s', w') ∧ a85EndDecode s' = .ok f' ∧
      (w' ++ f').flatten = bs ∧ ∀ x ∈ (w ++ f).flatten, a85Alpha x

theorem a85_pass_tail (bs : Bytes) (k t : Nat)
    (h1 : a85Encoder.loop ⟨0, 0⟩ bs = .ok (⟨k + 1, t⟩, []))
    (h2 : ∃ s', a85Decoder.loop ⟨0, 0⟩ (a85EncodeTuple t (k + 1)) = .ok (s', []) ∧
      a85EndDecode s' = .ok [bs]) : A85Pass bs := by
  obtain ⟨s', h2, h3⟩ := h2
  refine ⟨_, [], [a85EncodeTuple t (k + 1)], s', [], [bs], h1, a85Encoder_finish k t, ?_, h3, ?_, ?_⟩
  · rw [List.nil_append, List.flatten_singleton]; exact h2
  · rw [List.nil_append, List.flatten_singleton]
  · rw [List.nil_append, List.flatten_singleton]; exact a85EncodeTuple_alpha _ _

theorem a85_pass_group (a b c d : Byte) (rest : Bytes) (h : A85Pass rest) :
    A85Pass (a :: b :: c :: d :: rest) := by
  obtain ⟨s, w, f, s', w', f', h1, h2, h3, h4, h5, h6⟩ := h
  have hg := a85Decoder_group a b c d
  have he := a85Encoder_group a b c d
  have ha := a85Group_alpha a b c d
  generalize a85Group a b c d = g at hg he ha
  refine ⟨s, g :: w, f, s', [a, b, c, d] :: w', f', ?_, h2, ?_, h4, ?_, ?_⟩
  · have : a :: b :: c :: d :: rest = [a, b, c, d] ++ rest := rfl
    rw [this, Stepper.loop_append, he]
    simp only
    rw [h1]
    rfl
  · rw [List.cons_append, List.flatten_cons, Stepper.loop_append, hg]
    simp only
    rw [h3]
    rfl
  · rw [List.cons_append, List.flatten_cons, h5]
    rfl
  · intro x hx
    rw [List.cons_append, List.flatten_cons, List.mem_append] at hx
    rcases hx with hx | hx
    · exact ha x hx
    · exact h6 x hx

theorem a85_pass (bs : Bytes) : A85Pass bs := by
  match bs with
  | [] => exact ⟨⟨0, 0⟩, [], [], ⟨0, 0⟩, [], [], rfl, rfl, rfl, rfl, rfl, by simp⟩
  | [a] => exact a85_pass_tail [a] 0 _ (a85Encoder_tail1 a) (a85Decoder_tail1 a)
  | [a, b] => exact a85_pass_tail [a, b] 1 _ (a85Encoder_tail2 a b) (a85Decoder_tail2 a b)
  | [a, b, c] => exact a85_pass_tail [a, b, c] 2 _ (a85Encoder_tail3 a b c) (a85Decoder_tail3 a b c)
  | a :: b :: c :: d :: rest => exact a85_pass_group a b c d rest (a85_pass rest)
termination_by bs.length

/-! ### ASCII85 decoder: defined behaviour and rejection -/

def A85Inv (s : A85State) : Prop := s.count < 5

theorem powers85_some (c : Nat) (h : c < 5) : ∃ p, powers85[c]? = some p := by
  have : c < powers85.length := by simpa [powers85] using h
  exact ⟨_, List.getElem?_eq_getElem this⟩

/-- One step: an out-of-range error, or a defined next state. -/
theorem a85DecodeStep_cases (s : A85State) (b : Byte) (h : A85Inv s) :
    a85DecodeStep s b = raise .ValueOutOfRange ∨
    ∃ s' o, a85DecodeStep s b = .ok (s', o) ∧ A85Inv s' := by
  unfold a85DecodeStep
  obtain ⟨p, hp⟩ := powers85_some s.count h
  split
  · split
    · exact Or.inl rfl
    · exact Or.inr ⟨_, _, rfl, h⟩
  · split
    · exact Or.inr ⟨_, _, rfl, h⟩
    · split
      · exact Or.inl rfl
      · rw [hp]
        simp only
        split
        · exact Or.inr ⟨_, _, rfl, by unfold A85Inv; decide⟩
        · refine Or.inr ⟨_, _, rfl, ?_⟩
          unfold A85Inv at *
          simp only; omega

theorem a85DecodeBlock_cases (s : A85State) (bs : Bytes) (h : A85Inv s) :
    a85DecodeBlock s bs = raise .ValueOutOfRange ∨
    ∃ s' o, a85DecodeBlock s bs = .ok (s', o) ∧ A85Inv s' := by
  induction bs generalizing s with
  | nil => exact Or.inr ⟨s, [], rfl, h⟩
  | cons b bs ih =>
    unfold a85DecodeBlock
    split
    · cases bs with
      | nil => exact Or.inr ⟨_, _, rfl, h⟩
      | cons c cs =>
        simp only
        split
        · exact Or.inl rfl
        · exact Or.inr ⟨_, _, rfl, h⟩
    · rcases a85DecodeStep_cases s b h with he | ⟨s', o, he, hi⟩
      · rw [he]; exact Or.inl rfl
      · rw [he]
        simp only
        rcases ih s' hi with he' | ⟨s'', o', he', hi'⟩
        · rw [he']; exact Or.inl rfl
        · rw [he']; exact Or.inr ⟨_, _, rfl, hi'⟩

theorem a85Dec_blocks_cases (s : A85State) (bs : List Bytes) (h : A85Inv s) :
    a85Dec.blocks s bs = raise .ValueOutOfRange ∨
    ∃ s' o, a85Dec.blocks s bs = .ok (s', o) ∧ A85Inv s' := by
  induction bs generalizing s with
  | nil => exact Or.inr ⟨s, [], rfl, h⟩
  | cons b bs ih =>
    unfold blocks
    have hb : a85Dec.block s b = a85DecodeBlock s b := rfl
    rw [hb]
    rcases a85DecodeBlock_cases s b h with he | ⟨s', o, he, hi⟩
    · rw [he]; exact Or.inl rfl
    · rw [he]
      simp only
      rcases ih s' hi with he' | ⟨s'', o', he', hi'⟩
      · rw [he']; exact Or.inl rfl
      · rw [he']; exact Or.inr ⟨_, _, rfl, hi'⟩

theorem a85EndDecode_ok (s : A85State) (h : A85Inv s) : ∃ o, a85EndDecode s = .ok o := by
  unfold a85EndDecode
  split
  · obtain ⟨p, hp⟩ := powers85_some (s.count - 1) (by unfold A85Inv at h; omega)
    rw [hp]; exact ⟨_, rfl⟩
  · exact ⟨_, rfl⟩

theorem a85_bad_step (s : A85State) (b : Byte) (h1 : ¬ Spec.IsA85Digit b) (h2 : ¬ Spec.IsA85Skip b)
    (h3 : b ≠ 122) : a85DecodeStep s b = raise .ValueOutOfRange := by
  have key : ∀ b : Byte, ¬ Spec.IsA85Digit b → ¬ Spec.IsA85Skip b → b ≠ 122 →
      a85IsSpace b = false ∧ (schar b < 33 ∨ schar b > 117) := by
    apply forall_byte
    decide +kernel
  obtain ⟨ha, hb⟩ := key b h1 h2 h3
  unfold a85DecodeStep
  rw [if_neg h3, ha, if_pos hb]
  rfl

/-- A successful step moves the position inside the group by one per digit. -/
theorem a85DecodeStep_count (s s' : A85State) (b : Byte) (o : List Bytes) (h : A85Inv s)
    (hs : a85DecodeStep s b = .ok (s', o)) :
    s'.count = (s.count + Spec.a85DigitCount [b]) % 5 := by
  have key : ∀ b : Byte, (b = 122 → ¬ Spec.IsA85Digit b) ∧ (a85IsSpace b = true → ¬ Spec.IsA85Digit b) ∧
      (¬ (schar b < 33 ∨ schar b > 117) → Spec.IsA85Digit b) := by
    apply forall_byte
    decide +kernel
  obtain ⟨k1, k2, k3⟩ := key b
  unfold A85Inv at h
  unfold a85DecodeStep at hs
  have hcnt : ∀ p : Prop, (p ↔ Spec.IsA85Digit b) → [Decidable p] →
      Spec.a85DigitCount [b] = if p then 1 else 0 := by
    intro p hp _
    unfold Spec.a85DigitCount
    by_cases hq : p
    · have := hp.mp hq; simp [hq, this]
    · have : ¬ Spec.IsA85Digit b := fun h => hq (hp.mpr h)
      simp [hq, this]
  split at hs
  · next hb =>
    rw [hcnt False (by simpa using k1 hb)]
    split at hs
    · simp [raise] at hs
    · simp only [Except.ok.injEq, Prod.mk.injEq] at hs
      rw [← hs.1]; simp; omega
  · split at hs
    · next hb =>
      rw [hcnt False (by simpa using k2 hb)]
      simp only [Except.ok.injEq, Prod.mk.injEq] at hs
      rw [← hs.1]; simp; omega
    · split at hs
      · simp [raise] at hs
      · next hb =>
        rw [hcnt True (by simpa using k3 hb)]
        obtain ⟨p, hp⟩ := powers85_some s.count h
        rw [hp] at hs
        simp only at hs
        split at hs
        · next h5 =>
          simp only [Except.ok.injEq, Prod.mk.injEq] at hs
          rw [← hs.1]; simp; omega
        · next h5 =>
          simp only [Except.ok.injEq, Prod.mk.injEq] at hs
          rw [← hs.1]; simp; omega

theorem a85DigitCount_append (a b : Bytes) :
    Spec.a85DigitCount (a ++ b) = Spec.a85DigitCount a + Spec.a85DigitCount b := by
  simp [Spec.a85DigitCount]

theorem a85DecodeBlock_bad (s : A85State) (pre post : Bytes) (c : Byte) (hs : A85Inv s)
    (hpre : ∀ b ∈ pre, b ≠ 126) (hc : c ≠ 126)
    (hbad : ∀ s' : A85State, A85Inv s' → s'.count = (s.count + Spec.a85DigitCount pre) % 5 →
      a85DecodeStep s' c = raise .ValueOutOfRange) :
    a85DecodeBlock s (pre ++ c :: post) = raise .ValueOutOfRange := by
  induction pre generalizing s with
  | nil =>
    simp only [List.nil_append]
    unfold a85DecodeBlock
    rw [if_neg hc, hbad s hs (by unfold A85Inv at hs; simp [Spec.a85DigitCount]; omega)]
  | cons b pre ih =>
    simp only [List.cons_append]
    unfold a85DecodeBlock
    rw [if_neg (hpre b (by simp))]
    rcases a85DecodeStep_cases s b hs with he | ⟨s', o, he, hi⟩
    · rw [he]
    · have hcount := a85DecodeStep_count s s' b o hs he
      rw [he]
      simp only
      rw [ih s' hi (fun x hx => hpre x (by simp [hx])) ?_]
      intro s'' hi'' hc''
      apply hbad s'' hi''
      have : b :: pre = [b] ++ pre := rfl
      rw [this, a85DigitCount_append]
      omega

theorem a85DecodeBlock_count (s s' : A85State) (bs : Bytes) (o : List Bytes) (h : A85Inv s)
    (hb : ∀ b ∈ bs, b ≠ 126) (hs : a85DecodeBlock s bs = .ok (s', o)) :
    s'.count = (s.count + Spec.a85DigitCount bs) % 5 := by
  induction bs generalizing s o with
  | nil =>
    simp only [a85DecodeBlock, Except.ok.injEq, Prod.mk.injEq] at hs
    unfold A85Inv at h
    rw [← hs.1]; simp [Spec.a85DigitCount]; omega
  | cons b bs ih =>
    unfold a85DecodeBlock at hs
    rw [if_neg (hb b (by simp))] at hs
    rcases a85DecodeStep_cases s b h with he | ⟨s1, o1, he, hi⟩
    · rw [he] at hs; simp [raise] at hs
    · have hcount := a85DecodeStep_count s s1 b o1 h he
      rw [he] at hs
      simp only at hs
      cases hr : a85DecodeBlock s1 bs with
      | error e => rw [hr] at hs; simp at hs
      | ok p =>
        obtain ⟨s2, o2⟩ := p
        rw [hr] at hs
        simp only [Except.ok.injEq, Prod.mk.injEq] at hs
        have := ih s1 o2 hi (fun x hx => hb x (by simp [hx])) (by rw [hr, hs.1])
        have e : b :: bs = [b] ++ bs := rfl
        rw [e, a85DigitCount_append]
        omega

/-- Rejection across blocks. -/
theorem a85Dec_blocks_bad (s : A85State) (bs : List Bytes) (pre post : Bytes) (c : Byte) (hs : A85Inv s)
    (hbs : bs.flatten = pre ++ c :: post)
    (hpre : ∀ b ∈ pre, b ≠ 126) (hc : c ≠ 126)
    (hbad : ∀ s' : A85State, A85Inv s' → s'.count = (s.count + Spec.a85DigitCount pre) % 5 →
      a85DecodeStep s' c = raise .ValueOutOfRange) :
    a85Dec.blocks s bs = raise .ValueOutOfRange := by
  induction bs generalizing s pre with
  | nil => simp at hbs
  | cons b bs ih =>
    rw [List.flatten_cons, List.append_eq_append_iff] at hbs
    unfold blocks
    have hblk : a85Dec.block s b = a85DecodeBlock s b := rfl
    rw [hblk]
    rcases hbs with ⟨a', h1, h2⟩ | ⟨c', h1, h2⟩
    · subst h1
      rcases a85DecodeBlock_cases s b hs with he | ⟨s', o, he, hi⟩
      · rw [he]
      · have hcount := a85DecodeBlock_count s s' b o hs (fun x hx => hpre x (by simp [hx])) he
        rw [he]
        simp only
        rw [ih s' a' hi h2 (fun x hx => hpre x (by simp [hx]))]
        intro s'' hi'' hc''
        apply hbad s'' hi''
        rw [a85DigitCount_append]
        omega
    · cases c' with
      | nil =>
        rw [List.append_nil] at h1
        subst h1
        simp only [List.nil_append] at h2
        rcases a85DecodeBlock_cases s b hs with he | ⟨s', o, he, hi⟩
        · rw [he]
        · have hcount := a85DecodeBlock_count s s' b o hs hpre he
          rw [he]
          simp only
          rw [ih s' [] hi (by rw [← h2]; rfl) (by simp)]
          intro s'' hi'' hc''
          apply hbad s'' hi''
          simp only [Spec.a85DigitCount, List.filter_nil, List.length_nil] at hc''
          simp only [Spec.a85DigitCount] at hcount ⊢
          omega
      | cons x xs =>
        simp only [List.cons_append, List.cons.injEq] at h2
        obtain ⟨rfl, h2⟩ := h2
        subst h1
        rw [a85DecodeBlock_bad s pre xs c hs hpre hc hbad]

/-! ### ASCIIHex decoder against the specification -/

theorem hex_step_white (s : HexState) (b : Byte) (h : Spec.IsWhite b) :
    hexDecoder.step s b = .ok (s, []) := by
  have key : ∀ b : Byte, Spec.IsWhite b → isWhitespace b = true := by
    apply forall_byte; decide +kernel
  show Except.ok (hexDecodeStep s b) = _
  simp [hexDecodeStep, key b h]

theorem hex_step_digit (s : HexState) (b : Byte) (v : Nat) (h : Spec.hexVal b = some v) :
    v < 16 ∧ hexDecoder.step s b =
      if s.low then .ok (⟨UInt8.ofNat v, false⟩, [])
      else .ok (⟨(s.decodedByte <<< 4) ||| UInt8.ofNat v, true⟩,
        [[(s.decodedByte <<< 4) ||| UInt8.ofNat v]]) := by
  have key : ∀ b : Byte, Spec.hexVal b ≠ none → isWhitespace b = false ∧
      (Spec.hexVal b).getD 0 < 16 ∧
      hexValueOrZero b = UInt8.ofNat ((Spec.hexVal b).getD 0) ∧
      hexValueOrZero b &&& 0x0F = UInt8.ofNat ((Spec.hexVal b).getD 0) := by
    apply forall_byte; decide +kernel
  obtain ⟨h1, h2, h3, h4⟩ := key b (by rw [h]; simp)
  rw [h] at h2 h3 h4
  simp only [Option.getD_some] at h2 h3 h4
  refine ⟨h2, ?_⟩
  show Except.ok (hexDecodeStep s b) = _
  simp only [hexDecodeStep, h1, h4]
  rw [h3]
  cases s.low <;> rfl

theorem nibbles_byte (u v : Nat) (hu : u < 16) (hv : v < 16) :
    (UInt8.ofNat u <<< 4) ||| UInt8.ofNat v = UInt8.ofNat (16 * u + v) := by
  have key : ∀ a b : Fin 16, (UInt8.ofNat a.val <<< 4) ||| UInt8.ofNat b.val
      = UInt8.ofNat (16 * a.val + b.val) := by decide +kernel
  exact key ⟨u, hu⟩ ⟨v, hv⟩

theorem hex_loop_spec (t : Bytes) (ht : ∀ b ∈ t, b ≠ 62) (ds : List Nat)
    (hds : Spec.hexDigitsOf t = some ds) :
    (∀ d, ∃ s o, hexDecoder.loop ⟨d, true⟩ t = .ok (s, o) ∧
      (ds.length % 2 = 0 → s.low = true ∧ o.flatten = Spec.pairUp ds)) ∧
    (∀ v, v < 16 → ∃ s o, hexDecoder.loop ⟨UInt8.ofNat v, false⟩ t = .ok (s, o) ∧
      (ds.length % 2 = 1 → s.low = true ∧ o.flatten = Spec.pairUp (v :: ds))) := by
  induction t generalizing ds with
  | nil =>
    simp only [Spec.hexDigitsOf, Option.some.injEq] at hds
    subst hds
    exact ⟨fun d => ⟨_, _, rfl, fun _ => ⟨rfl, rfl⟩⟩, fun v _ => ⟨_, _, rfl, by simp⟩⟩
  | cons b t ih =>
    have hb : b.toNat ≠ 62 := by
      intro h; exact ht b (by simp) (UInt8.toNat.inj h)
    unfold Spec.hexDigitsOf at hds
    rw [if_neg hb] at hds
    by_cases hw : Spec.IsWhite b
    · rw [if_pos hw] at hds
      obtain ⟨i1, i2⟩ := ih (fun x hx => ht x (by simp [hx])) ds hds
      constructor
      · intro d
        obtain ⟨s, o, h1, h2⟩ := i1 d
        refine ⟨s, o, ?_, h2⟩
        simp only [Stepper.loop]
        rw [hex_step_white _ b hw]
        simp only
        rw [h1]; rfl
      · intro v hv
        obtain ⟨s, o, h1, h2⟩ := i2 v hv
        refine ⟨s, o, ?_, h2⟩
        simp only [Stepper.loop]
        rw [hex_step_white _ b hw]
        simp only
        rw [h1]; rfl
    · rw [if_neg hw] at hds
      cases hv : Spec.hexVal b with
      | none => simp [hv] at hds
      | some u =>
        cases hr : Spec.hexDigitsOf t with
        | none => simp [hv, hr] at hds
        | some r =>
          simp only [hv, hr, Option.some.injEq] at hds
          subst hds
          obtain ⟨i1, i2⟩ := ih (fun x hx => ht x (by simp [hx])) r hr
          constructor
          · intro d
            obtain ⟨hu, hs⟩ := hex_step_digit ⟨d, true⟩ b u hv
            obtain ⟨s, o, h1, h2⟩ := i2 u hu
            refine ⟨s, o, ?_, fun hl => h2 (by simp at hl; omega)⟩
            simp only [Stepper.loop]
            rw [hs]
            simp only [if_true]
            rw [h1]; rfl
          · intro v hv'
            obtain ⟨hu, hs⟩ := hex_step_digit ⟨UInt8.ofNat v, false⟩ b u hv
            rw [nibbles_byte v u hv' hu] at hs
            obtain ⟨s, o, h1, h2⟩ := i1 (UInt8.ofNat (16 * v + u))
            refine ⟨s, [[UInt8.ofNat (16 * v + u)]] ++ o, ?_, fun hl => ?_⟩
            · simp only [Stepper.loop]
              rw [hs]
              simp only [Bool.false_eq_true, if_false]
              rw [h1]
            · obtain ⟨h3, h4⟩ := h2 (by simp at hl; omega)
              refine ⟨h3, ?_⟩
              simp only [List.flatten_append, List.flatten_cons, List.flatten_nil, List.append_nil, h4]
              rfl


end Pdfmm
