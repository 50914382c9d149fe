import Verif.Syntax.TokProgress
/-
What the lexer returns on the texts the writer produces, and the correspondence between a reader
state with queued tokens and the text it stands for.
-/
namespace Pdfmm

/-- A text after which a literal token ends without a comment being swallowed: nothing, white space,
a delimiter that is a token of its own, or `<`/`>` with something after it. -/
def StartsOk (r : Bytes) : Prop :=
  r = [] ∨ ∃ c t, r = c :: t ∧ (isWhitespace c = true ∨ isTokenDelimiter c = true ∨
    ((c = 60 ∨ c = 62) ∧ t ≠ []))

theorem StartsOk.cons_ws {c : Byte} {t : Bytes} (h : isWhitespace c = true) : StartsOk (c :: t) :=
  Or.inr ⟨c, t, rfl, Or.inl h⟩

theorem StartsOk.cons_delim {c : Byte} {t : Bytes} (h : isTokenDelimiter c = true) :
    StartsOk (c :: t) := Or.inr ⟨c, t, rfl, Or.inr (Or.inl h)⟩

theorem StartsOk.cons_angle {c d : Byte} {t : Bytes} (h : c = 60 ∨ c = 62) :
    StartsOk (c :: d :: t) := Or.inr ⟨c, d :: t, rfl, Or.inr (Or.inr ⟨h, by simp⟩)⟩

theorem startsOk_char {c : Byte} {t : Bytes} (h : StartsOk (c :: t)) :
    c ≠ 37 ∧ (isWhitespace c = true ∨ isDelimiter c = true) ∧ isDigitB c = false := by
  rcases h with h | ⟨c', t', h, h2⟩
  · cases h
  · cases h
    have key : ∀ c : Byte, (isWhitespace c = true ∨ isTokenDelimiter c = true ∨ c = 60 ∨ c = 62) →
        c ≠ 37 ∧ (isWhitespace c = true ∨ isDelimiter c = true) ∧ isDigitB c = false :=
      forall_byte (P := fun c => (isWhitespace c = true ∨ isTokenDelimiter c = true ∨ c = 60 ∨ c = 62) →
        c ≠ 37 ∧ (isWhitespace c = true ∨ isDelimiter c = true) ∧ isDigitB c = false)
        (by decide +kernel)
    apply key
    rcases h2 with h2 | h2 | h2
    · exact Or.inl h2
    · exact Or.inr (Or.inl h2)
    · exact Or.inr (Or.inr h2.1)

/-- A character that can stand inside a literal token. -/
def litChar (c : Byte) : Bool := !isWhitespace c && !isDelimiter c

theorem litChar_facts {c : Byte} (h : litChar c = true) :
    isWhitespace c = false ∧ isDelimiter c = false ∧ c ≠ 37 ∧ c ≠ 60 ∧ c ≠ 62 ∧
      isTokenDelimiter c = false := by
  revert h
  exact forall_byte (P := fun c => litChar c = true → isWhitespace c = false ∧
    isDelimiter c = false ∧ c ≠ 37 ∧ c ≠ 60 ∧ c ≠ 62 ∧ isTokenDelimiter c = false)
    (by decide +kernel) c

theorem lexLoop_literal (cap : Nat) (w rest acc : Bytes) (hw : ∀ c ∈ w, litChar c = true)
    (hne : acc ++ w ≠ []) (hlen : acc.length + w.length ≤ cap) (hr : StartsOk rest) :
    lexLoop cap false (w ++ rest) acc = some (⟨acc ++ w, .literal⟩, rest) := by
  induction w generalizing acc with
  | nil =>
    simp at hne
    cases rest with
    | nil => simp [lexLoop, hne]
    | cons c r =>
      obtain ⟨_, h2, _⟩ := startsOk_char hr
      simp only [List.nil_append, List.append_nil]
      rw [lexLoop]
      split
      · rfl
      · simp [hne, h2]
  | cons x xs ih =>
    obtain ⟨h1, h2, h3, h4, h5, h6⟩ := litChar_facts (hw x List.mem_cons_self)
    simp only [List.length_cons] at hlen
    simp only [List.cons_append]
    rw [lexLoop, if_neg (by omega), if_neg (by simp [h1]), if_neg h3, if_neg (by simp [h4, h5]),
      if_neg (by simp [h1, h2]), if_neg (by simp [h6])]
    rw [ih (acc ++ [x]) (fun c hc => hw c (List.mem_cons_of_mem _ hc)) (by simp) (by simp; omega)]
    simp

theorem lex_literal {cap : Nat} {w rest : Bytes} (hw : ∀ c ∈ w, litChar c = true) (hne : w ≠ [])
    (hlen : w.length ≤ cap) (hr : StartsOk rest) :
    lex cap (w ++ rest) = some (⟨w, .literal⟩, rest) := by
  have := lexLoop_literal cap w rest [] hw (by simpa using hne) (by simpa using hlen) hr
  simpa [lex] using this

theorem lex_ws {cap : Nat} (hcap : 2 ≤ cap) {c : Byte} {r : Bytes} (h : isWhitespace c = true) :
    lex cap (c :: r) = lex cap r := by
  unfold lex
  rw [lexLoop, if_neg (by simp; omega), if_pos (by simp [h])]

theorem tokenDelim_facts {c : Byte} (h : isTokenDelimiter c = true) :
    isWhitespace c = false ∧ c ≠ 37 ∧ c ≠ 60 ∧ c ≠ 62 := by
  revert h
  exact forall_byte (P := fun c => isTokenDelimiter c = true → isWhitespace c = false ∧ c ≠ 37 ∧
    c ≠ 60 ∧ c ≠ 62) (by decide +kernel) c

theorem lex_delim {cap : Nat} (hcap : 2 ≤ cap) {c : Byte} {r : Bytes}
    (h : isTokenDelimiter c = true) : lex cap (c :: r) = some (⟨[c], tokDelimType c⟩, r) := by
  obtain ⟨h1, h2, h3, h4⟩ := tokenDelim_facts h
  unfold lex
  rw [lexLoop, if_neg (by simp; omega), if_neg (by simp [h1]), if_neg h2, if_neg (by simp [h3, h4]),
    if_neg (by simp), if_pos h]
  rfl

theorem lex_dangle {cap : Nat} (hcap : 2 ≤ cap) {c : Byte} {r : Bytes} (h : c = 60 ∨ c = 62) :
    lex cap (c :: c :: r) = some (⟨[c, c], if c = 60 then .dAngleL else .dAngleR⟩, r) := by
  unfold lex
  rw [lexLoop, if_neg (by simp; omega), if_neg (by rcases h with h | h <;> subst h <;> decide),
    if_neg (by rcases h with h | h <;> subst h <;> decide), if_pos ⟨rfl, h⟩]
  simp [lexAngle]

theorem lex_angle {cap : Nat} (hcap : 2 ≤ cap) {c d : Byte} {r : Bytes} (h : c = 60 ∨ c = 62)
    (hd : d ≠ c) :
    lex cap (c :: d :: r) = some (⟨[c], if c = 60 then .angleL else .angleR⟩, d :: r) := by
  unfold lex
  rw [lexLoop, if_neg (by simp; omega), if_neg (by rcases h with h | h <;> subst h <;> decide),
    if_neg (by rcases h with h | h <;> subst h <;> decide), if_pos ⟨rfl, h⟩]
  simp [lexAngle, hd]

/-! ### States with queued tokens -/

/-- The state stands for the text `t`, nothing queued. -/
def Rep0 (s : PS) (t : Bytes) : Prop := s.queue = [] ∧ s.inp = t

/-- The state stands for the text `t`, with at most one token already lexed (or with the white space
and comments at the end of the input already skipped). -/
def Rep1 (cap : Nat) (s : PS) (t : Bytes) : Prop :=
  Rep0 s t ∨ (Rep0 s [] ∧ lex cap t = none) ∨ ∃ a, s.queue = [a] ∧ lex cap t = some (a, s.inp)

/-- The state stands for the text `t`, with at most two tokens already lexed, the first of two being
a literal. -/
def Rep2 (cap : Nat) (s : PS) (t : Bytes) : Prop :=
  Rep1 cap s t ∨ ∃ a b t1, s.queue = [a, b] ∧ a.type = .literal ∧ lex cap t = some (a, t1) ∧
    lex cap t1 = some (b, s.inp)

theorem Rep2_fresh (cap : Nat) (t : Bytes) (d : Nat) : Rep2 cap ⟨[], t, d⟩ t :=
  Or.inl (Or.inl ⟨rfl, rfl⟩)

theorem Rep0.toRep2 {cap : Nat} {s : PS} {t : Bytes} (h : Rep0 s t) : Rep2 cap s t :=
  Or.inl (Or.inl h)

theorem Rep0.depth {s : PS} {t : Bytes} (h : Rep0 s t) (d : Nat) : Rep0 { s with depth := d } t := h
theorem Rep1.depth {cap : Nat} {s : PS} {t : Bytes} (h : Rep1 cap s t) (d : Nat) :
    Rep1 cap { s with depth := d } t := h
theorem Rep2.depth {cap : Nat} {s : PS} {t : Bytes} (h : Rep2 cap s t) (d : Nat) :
    Rep2 cap { s with depth := d } t := h

theorem take_tok {cap : Nat} (hcap : 2 ≤ cap) {t t1 : Bytes} {a : Tok}
    (hl : lex cap t = some (a, t1)) : (⟨a.text.take cap, a.type⟩ : Tok) = a := by
  rw [List.take_of_length_le (lex_progress hcap hl).2.2]

theorem tryReadToken_rep1 {cap : Nat} (hcap : 2 ≤ cap) {s : PS} {t t1 : Bytes} {a : Tok}
    (h : Rep1 cap s t) (hl : lex cap t = some (a, t1)) :
    ∃ s1, tryReadToken cap s = (some a, s1) ∧ s1.depth = s.depth ∧ Rep0 s1 t1 := by
  rcases h with ⟨h1, h2⟩ | ⟨_, h⟩ | ⟨a', h1, h2⟩
  · refine ⟨{ s with inp := t1 }, ?_, rfl, ⟨h1, rfl⟩⟩
    unfold tryReadToken
    rw [h1]; simp only; rw [h2, hl]
  · rw [hl] at h; cases h
  · rw [hl] at h2; simp at h2
    refine ⟨{ s with queue := [] }, ?_, rfl, ⟨rfl, h2.2.symm⟩⟩
    unfold tryReadToken
    rw [h1]; simp only; rw [← h2.1, take_tok hcap hl]

/-- Reading a token from a state that stands for `t` returns what the lexer returns on `t`. -/
theorem tryReadToken_rep {cap : Nat} (hcap : 2 ≤ cap) {s : PS} {t t1 : Bytes} {a : Tok}
    (h : Rep2 cap s t) (hl : lex cap t = some (a, t1)) :
    ∃ s1, tryReadToken cap s = (some a, s1) ∧ s1.depth = s.depth ∧ Rep1 cap s1 t1 ∧
      (a.type ≠ .literal → Rep0 s1 t1) := by
  rcases h with h | ⟨a', b, t', h1, h2, h3, h4⟩
  · obtain ⟨s1, h1, h2, h3⟩ := tryReadToken_rep1 hcap h hl
    exact ⟨s1, h1, h2, Or.inl h3, fun _ => h3⟩
  · rw [hl] at h3; simp at h3
    refine ⟨{ s with queue := [b] }, ?_, rfl, Or.inr (Or.inr ⟨b, rfl, ?_⟩), ?_⟩
    · unfold tryReadToken
      rw [h1]; simp only; rw [← h3.1, take_tok hcap hl]
    · rw [h3.2]; exact h4
    · intro hne; rw [h3.1] at hne; exact absurd h2 hne

theorem lex_nil (cap : Nat) : lex cap [] = none := by simp [lex, lexLoop]

theorem tryReadToken_rep_none {cap : Nat} {s : PS} {t : Bytes} (h : Rep2 cap s t)
    (hl : lex cap t = none) :
    ∃ s1, tryReadToken cap s = (none, s1) ∧ s1.depth = s.depth ∧ Rep0 s1 [] := by
  rcases h with (⟨h1, h2⟩ | ⟨⟨h1, h2⟩, _⟩ | ⟨a', h1, h2⟩) | ⟨a', b, t', h1, h2, h3, h4⟩
  · refine ⟨{ s with inp := [] }, ?_, rfl, h1, rfl⟩
    unfold tryReadToken
    rw [h1]; simp only; rw [h2, hl]
  · refine ⟨{ s with inp := [] }, ?_, rfl, h1, rfl⟩
    unfold tryReadToken
    rw [h1]; simp only; rw [h2, lex_nil]
  · rw [hl] at h2; cases h2
  · rw [hl] at h3; cases h3

/-- The text after a number does not make it a reference, and does not run out inside the
look-ahead. -/
def NoRef (cap : Nat) (t : Bytes) : Prop :=
  ∀ a t1, lex cap t = some (a, t1) → a.type = .literal → ∀ g, fromCharsInt a.text = some g →
    ∃ b t2, lex cap t1 = some (b, t2) ∧ ¬ (b.type = .literal ∧ b.text = [82])

theorem enqueue_rep1 {cap : Nat} {s : PS} {t t1 : Bytes} {a : Tok} (h : Rep0 s t1)
    (hl : lex cap t = some (a, t1)) : Rep2 cap (enqueue a s) t := by
  refine Or.inl (Or.inr (Or.inr ⟨a, ?_, ?_⟩))
  · simp [enqueue, h.1]
  · simp [enqueue, h.2, hl]

/-- The look-ahead leaves a state standing for the same text, and answers "number". -/
theorem lookRef_num {cap : Nat} (hcap : 2 ≤ cap) {s : PS} {t : Bytes} (n : Int)
    (h : Rep1 cap s t) (hn : NoRef cap t) :
    ∃ s', lookRef cap n s = (.val (.num n), s') ∧ s'.depth = s.depth ∧ Rep2 cap s' t := by
  unfold lookRef
  cases hl : lex cap t with
  | none =>
    obtain ⟨s1, h1, h2, h3⟩ := tryReadToken_rep_none (Or.inl h) hl
    rw [h1]
    exact ⟨s1, rfl, h2, Or.inl (Or.inr (Or.inl ⟨h3, hl⟩))⟩
  | some p =>
    obtain ⟨a, t1⟩ := p
    obtain ⟨s1, h1, h2, h3⟩ := tryReadToken_rep1 hcap h hl
    rw [h1]
    simp only
    split
    · exact ⟨_, rfl, h2, enqueue_rep1 h3 hl⟩
    · rename_i hlit
      cases hg : fromCharsInt a.text with
      | none => exact ⟨_, rfl, h2, enqueue_rep1 h3 hl⟩
      | some g =>
        obtain ⟨b, t2, hb, hnr⟩ := hn a t1 hl (by simpa using hlit) g hg
        obtain ⟨s2, k1, k2, k3⟩ := tryReadToken_rep1 hcap (Or.inl h3) hb
        simp only
        rw [k1]
        simp only
        rw [if_neg hnr]
        refine ⟨_, rfl, by simp [enqueue, k2, h2], Or.inr ⟨a, b, t1, ?_, by simpa using hlit, hl, ?_⟩⟩
        · simp [enqueue, k3.1]
        · simp [enqueue, k3.2, hb]

/-- The look-ahead recognises a reference. -/
theorem lookRef_ref {cap : Nat} (hcap : 2 ≤ cap) {s : PS} {t t1 t2 : Bytes} {a : Tok} (n g : Int)
    (h : Rep1 cap s t) (ha : lex cap t = some (a, t1)) (hal : a.type = .literal)
    (hg : fromCharsInt a.text = some g) (hb : lex cap t1 = some (⟨[82], .literal⟩, t2)) :
    ∃ s', lookRef cap n s = (.val (.ref (truncTo 32 n) (truncTo 16 g)), s') ∧ s'.depth = s.depth ∧
      Rep2 cap s' t2 := by
  unfold lookRef
  obtain ⟨s1, h1, h2, h3⟩ := tryReadToken_rep1 hcap h ha
  obtain ⟨s2, k1, k2, k3⟩ := tryReadToken_rep1 hcap (Or.inl h3) hb
  rw [h1]
  simp only [hal, ne_eq, not_true, if_false, hg]
  rw [k1]
  simp only [and_self, if_true]
  exact ⟨s2, rfl, by omega, k3.toRep2⟩

end Pdfmm
