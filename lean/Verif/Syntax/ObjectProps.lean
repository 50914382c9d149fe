import Verif.Syntax.RoundTrip
/-
C15, C18, C19: what the writer writes, the reader reads back.
-/
namespace Pdfmm
open Spec

/-! ### Names (C15) and integers (C18) in context -/

/-- White space or a delimiter, as PDF writes between tokens: the text after a name or number. -/
def Spec.EndsToken (r : Bytes) : Prop :=
  r = [] ∨ ∃ c t, r = c :: t ∧ (isWhitespace c = true ∨ c = 47 ∨ c = 91 ∨ c = 93 ∨ c = 123 ∨ c = 125 ∨
    c = 40 ∨ c = 41 ∨ ((c = 60 ∨ c = 62) ∧ t ≠ []))

theorem Spec.EndsToken.startsOk {r : Bytes} (h : EndsToken r) : StartsOk r := by
  rcases h with h | ⟨c, t, h, hc⟩
  · exact Or.inl h
  · refine Or.inr ⟨c, t, h, ?_⟩
    rcases hc with hc | hc | hc | hc | hc | hc | hc | hc | hc
    · exact Or.inl hc
    all_goals first | exact Or.inr (Or.inr hc) | (subst hc; exact Or.inr (Or.inl (by decide)))

/-- C15. A name without NUL, written as it appears in a file, is read back as the same name, whatever
white space or delimiter follows it, and what follows is still to be read.  The empty name is
included. -/
theorem C15_name_tokenization (cfg : Cfg) (hcap : 20 ≤ cfg.cap) (n rest : Bytes) (depth : Nat)
    (hnul : 0 ∉ n) (hlen : (escapeNameBody n).length ≤ cfg.cap) (hrest : EndsToken rest)
    (hd : depth < cfg.maxDepth) :
    ∃ t s', writeName n = .ok t ∧
      tryReadVariant cfg ⟨[], t ++ rest, depth⟩ = (.ok (some (.name n)), s') ∧ s'.depth = depth ∧
      Rep2 cfg.cap s' rest := by
  refine ⟨47 :: escapeNameBody n, ?_⟩
  have hw : writeName n = .ok (47 :: escapeNameBody n) := by
    simp [writeName, escapeName, hnul]
  obtain ⟨t, s1, k1, k2, _, _, k4⟩ := readsBack_name hcap ⟨false, false⟩ hlen
    ⟨[], 47 :: escapeNameBody n ++ rest, depth⟩ _ rest hrest.startsOk (by rw [text]) (Rep2_fresh _ _ _)
  obtain ⟨d, s2, s3, m1, m2, m3, m4⟩ := k4 (depth + 1) (2 * s1.weight + 2)
  have k2' : s1.depth = depth := k2
  refine ⟨{ s3 with depth := s3.depth - 1 }, hw, ?_, by show s3.depth - 1 = depth; omega, m4.depth _⟩
  unfold tryReadVariant
  rw [k1]; dsimp only
  unfold readTok
  apply guarded_ok (by omega)
  unfold P.andThen
  rw [k2', m1]; dsimp only; rw [m2]

/-- Non-vacuity: the name `A B` before `>>`. -/
example : (0 : Byte) ∉ ([65, 32, 66] : Bytes) ∧ EndsToken [62, 62] ∧
    writeName [65, 32, 66] = .ok [47, 65, 35, 50, 48, 66] :=
  ⟨by decide, Or.inr ⟨62, [62], rfl, by simp⟩, by decide +kernel⟩

/-- C18. Every 64-bit integer is written in decimal and read back as the same integer, with or
without the leading space, in any context that does not itself continue it into a reference
(`NoRef`: what follows does not start with another integer followed by `R`). -/
theorem C18_integer_roundtrip (cfg : Cfg) (hcap : 20 ≤ cfg.cap) (f : WFlags) (n : Int)
    (h1 : -9223372036854775808 ≤ n) (h2 : n < 9223372036854775808) (rest : Bytes)
    (hrest : EndsToken rest) (hnr : NoRef cfg.cap rest) (depth : Nat) (hd : depth < cfg.maxDepth) :
    ∃ t s', writeVar f (.num n) = .ok t ∧
      tryReadVariant cfg ⟨[], t ++ rest, depth⟩ = (.ok (some (.num n)), s') ∧ s'.depth = depth ∧
      Rep2 cfg.cap s' rest := by
  obtain ⟨t, s1, k1, k2, _, _, k4⟩ := readsBack_num hcap f h1 h2
    ⟨[], text f (.num n) ++ rest, depth⟩ _ rest ⟨hrest.startsOk, fun _ _ => hnr⟩ rfl (Rep2_fresh _ _ _)
  obtain ⟨d, s2, s3, m1, m2, m3, m4⟩ := k4 (depth + 1) (2 * s1.weight + 2)
    (by simp only [gnest]; omega) (by simp [fuelFor])
  have k2' : s1.depth = depth := k2
  refine ⟨text f (.num n), { s3 with depth := s3.depth - 1 }, by simp [writeVar, hasNulName], ?_,
    by show s3.depth - 1 = depth; omega, m4.depth _⟩
  unfold tryReadVariant
  rw [k1]; dsimp only
  unfold readTok
  apply guarded_ok (by omega)
  unfold P.andThen
  rw [k2', m1]; dsimp only; rw [m2]

/-- Non-vacuity: the smallest 64-bit integer before ` 5]`. -/
example : EndsToken [32, 53, 93] ∧ NoRef 4095 [32, 53, 93] ∧
    writeVar ⟨false, false⟩ (.num (-9223372036854775808)) =
      .ok [32, 45, 57, 50, 50, 51, 51, 55, 50, 48, 51, 54, 56, 53, 52, 55, 55, 53, 56, 48, 56] := by
  refine ⟨Or.inr ⟨32, [53, 93], rfl, by decide⟩, ?_, by decide +kernel⟩
  intro a t1 ha hty g hg
  have : lex 4095 [32, 53, 93] = some (⟨[53], .literal⟩, [93]) := by decide +kernel
  rw [this] at ha; cases ha
  exact ⟨⟨[93], .sqR⟩, [], by decide +kernel, by simp⟩

/-! ### Whole values (C19) -/

theorem writable_noNul {cap : Nat} {v : Var} (h : Writable cap v) : hasNulName v = false := by
  induction h with
  | null => rw [hasNulName] <;> simp
  | bool b => rw [hasNulName] <;> simp
  | num n _ _ => rw [hasNulName] <;> simp
  | real neg m sc _ _ _ _ => rw [hasNulName] <;> simp
  | str d x => rw [hasNulName] <;> simp
  | name n h _ => rw [hasNulName]; simpa using h
  | ref o g _ _ => rw [hasNulName] <;> simp
  | arr l _ ih =>
    rw [hasNulName]
    rename_i h0; clear h0
    induction l with
    | nil => rw [hasNulNameArr]
    | cons v l ih' =>
      rw [hasNulNameArr, ih v List.mem_cons_self, ih' (fun v h => ih v (List.mem_cons_of_mem _ h))]
      rfl
  | dict l _ hk _ ih =>
    rw [hasNulName]
    rename_i h0 h1; clear h0 h1
    induction l with
    | nil => rw [hasNulNameKVs]
    | cons p l ih' =>
      have := (hk p List.mem_cons_self).1
      rw [hasNulNameKVs, ih p List.mem_cons_self,
        ih' (fun v h => hk v (List.mem_cons_of_mem _ h)) (fun v h => ih v (List.mem_cons_of_mem _ h))]
      simpa using this

theorem weight_arr (cap : Nat) (hcap : 2 ≤ cap) (X : Bytes) (d : Nat) :
    (tryReadToken cap ⟨[], 91 :: X, d⟩).2.weight = X.length := by
  unfold tryReadToken
  rw [lex_delim hcap (by decide)]; simp [PS.weight]

theorem weight_dict (cap : Nat) (hcap : 2 ≤ cap) (X : Bytes) (d : Nat) :
    (tryReadToken cap ⟨[], 60 :: 60 :: X, d⟩).2.weight = X.length := by
  unfold tryReadToken
  rw [lex_dangle hcap (Or.inl rfl)]; simp [PS.weight]

/-- C19, in context: a value written by the library and followed by anything that ends it is read
back equal, and reading goes on after it. -/
theorem C19_write_parse_context (cfg : Cfg) (hcap : 20 ≤ cfg.cap) (hr : cfg.readRefs = true)
    (f : WFlags) (hf : f.clean = true ∨ f.noInline = false) (v : Var) (hv : Writable cfg.cap v)
    (rest : Bytes) (hrest : EndsToken rest) (hnr : NoRef cfg.cap rest) (depth : Nat)
    (hd : depth + gnest v < cfg.maxDepth) :
    ∃ t s', writeVar f v = .ok t ∧
      tryReadVariant cfg ⟨[], t ++ rest, depth⟩ = (.ok (some v), s') ∧ s'.depth = depth ∧
      Rep2 cfg.cap s' rest := by
  obtain ⟨t, s1, k1, k2, _, _, k4⟩ := readsBack_all hcap hr f hf v hv
    ⟨[], text f v ++ rest, depth⟩ _ rest ⟨hrest.startsOk, fun _ _ => hnr⟩ rfl (Rep2_fresh _ _ _)
  have hfu : fuelFor f v ≤ 2 * s1.weight + 2 := by
    have hs1 : s1 = (tryReadToken cfg.cap ⟨[], text f v ++ rest, depth⟩).2 := by rw [k1]
    cases v with
    | arr l =>
      rw [hs1]
      rw [fuelFor]
      simp only [text, List.cons_append]
      rw [weight_arr _ (by omega)]; simp; omega
    | dict l =>
      rw [hs1]
      rw [fuelFor]
      simp only [text, List.cons_append, List.nil_append]
      rw [weight_dict _ (by omega)]; simp; omega
    | _ => simp [fuelFor]
  obtain ⟨d, s2, s3, m1, m2, m3, m4⟩ := k4 (depth + 1) (2 * s1.weight + 2) (by omega) hfu
  have k2' : s1.depth = depth := k2
  refine ⟨text f v, { s3 with depth := s3.depth - 1 }, by simp [writeVar, writable_noNul hv], ?_,
    by show s3.depth - 1 = depth; omega, m4.depth _⟩
  unfold tryReadVariant
  rw [k1]; dsimp only
  unfold readTok
  apply guarded_ok (by omega)
  unfold P.andThen
  rw [k2', m1]; dsimp only; rw [m2]

theorem noRef_nil (cap : Nat) : NoRef cap [] := by
  intro a t1 h; rw [lex_nil] at h; cases h

/-- C19. Writing a value and reading the text back gives an equal value and consumes the whole text,
for every value nested at most 255 deep, and in compact and in clean mode, with or without `NoInlineLiteral`
in the latter (`C19_noInline_false` shows what `NoInlineLiteral` alone does). -/
theorem C19_write_parse (f : WFlags) (hf : f.clean = true ∨ f.noInline = false) (v : Var)
    (hv : Writable 4095 v) (hd : nest v < 256) :
    ∃ t s', writeVar f v = .ok t ∧ parse {} t = (.ok (some v), s') ∧ s'.depth = 0 ∧
      (tryReadToken 4095 s').1 = none := by
  obtain ⟨t, s', h1, h2, h3, h4⟩ := C19_write_parse_context {} (by decide) rfl f hf v hv []
    (Or.inl rfl) (noRef_nil _) 0 (by have := gnest_le v; show 0 + gnest v < 256; omega)
  refine ⟨t, s', h1, ?_, h3, ?_⟩
  · rw [List.append_nil] at h2; exact h2
  · obtain ⟨s1, k, _⟩ := tryReadToken_rep_none h4 (lex_nil _)
    rw [k]

/-- Non-vacuity: a dictionary with `/Type`, a nested array, a reference, a hex `/Contents` and a name
that needs escaping. -/
example : Writable 4095 (.dict [([65, 32], .arr [.num (-5), .ref 12 0, .null]),
      ([67, 111, 110, 116, 101, 110, 116, 115], .str [0, 255] true),
      ([84, 121, 112, 101], .name [35, 40])]) ∧
    (writeVar ⟨false, false⟩ (.dict [([65, 32], .arr [.num (-5), .ref 12 0]),
      ([84, 121, 112, 101], .name [35, 40])])) = .ok
        [60, 60, 47, 84, 121, 112, 101, 47, 35, 50, 51, 35, 50, 56, 47, 65, 35, 50, 48, 91, 32, 45, 53,
          32, 49, 50, 32, 48, 32, 82, 93, 62, 62] := by
  refine ⟨?_, by decide +kernel⟩
  refine .dict _ (by decide +kernel) ?_ ?_
  · intro p hp
    simp only [List.mem_cons, List.not_mem_nil, or_false] at hp
    rcases hp with h | h | h <;> subst h <;> decide +kernel
  · intro p hp
    simp only [List.mem_cons, List.not_mem_nil, or_false] at hp
    rcases hp with h | h | h <;> subst h
    · refine .arr _ ?_
      intro v hv
      simp only [List.mem_cons, List.not_mem_nil, or_false] at hv
      rcases hv with h | h | h <;> subst h
      · exact .num _ (by decide) (by decide)
      · exact .ref _ _ (by decide) (by decide)
      · exact .null
    · exact .str _ _
    · exact .name _ (by decide) (by decide)

/-- The remaining combination: `NoInlineLiteral` without `Clean` runs array elements together.
`[1 2]` is written `[12]` and read back as `[12]`. -/
theorem C19_noInline_false :
    ¬ ∀ (v : Var), Writable 4095 v → nest v < 256 →
      ∃ t, writeVar ⟨false, true⟩ v = .ok t ∧ (parse {} t).1 = .ok (some v) := by
  intro h
  obtain ⟨t, h1, h2⟩ := h (.arr [.num 1, .num 2])
    (.arr _ (by
      intro v hv
      simp only [List.mem_cons, List.not_mem_nil, or_false] at hv
      rcases hv with h | h <;> subst h <;> exact .num _ (by decide) (by decide)))
    (by decide)
  have e : writeVar ⟨false, true⟩ (.arr [.num 1, .num 2]) = .ok [91, 49, 50, 93] := by decide +kernel
  rw [e] at h1; cases h1
  have : (match (parse {} [91, 49, 50, 93]).1 with | .ok (some (.arr [.num 12])) => true | _ => false)
      = true := by decide +kernel
  rw [h2] at this
  simp at this

/-- Names with NUL cannot be written at all. -/
theorem C19_nul_name_rejected (f : WFlags) (n : Bytes) (h : 0 ∈ n) :
    writeVar f (.name n) = raise .InvalidName := by
  unfold writeVar
  rw [if_pos]
  rw [hasNulName]; simpa using h


/-! ### `ToString` (C67) -/

/-- The flags chosen by `PdfVariant::ToString`, `src/pdfmm/base/PdfVariant.cpp:216-235`. -/
def toStringFlags : Var → WFlags
  | .null => ⟨false, true⟩
  | .bool _ => ⟨false, true⟩
  | .num _ => ⟨false, true⟩
  | .real _ _ _ => ⟨false, true⟩
  | .ref _ _ => ⟨false, true⟩
  | _ => ⟨false, false⟩

/-- `PdfVariant::ToString`, `src/pdfmm/base/PdfVariant.cpp:209-235`. -/
def toStringVar (v : Var) : Res Bytes := writeVar (toStringFlags v) v

theorem toString_readsBack {cfg : Cfg} (hcap : 20 ≤ cfg.cap) (hr : cfg.readRefs = true) (v : Var)
    (hv : Writable cfg.cap v) : ReadsBack cfg (toStringFlags v) v := by
  cases v with
  | null => exact readsBack_word hcap _ _ _ (by rw [text]) (by decide) (by decide) (by decide) (fun _ => rfl)
  | bool b =>
    cases b with
    | true => exact readsBack_word hcap _ _ _ (by rw [text]) (by decide) (by decide) (by decide) (fun _ => rfl)
    | false => exact readsBack_word hcap _ _ _ (by rw [text]) (by decide) (by decide) (by decide) (fun _ => rfl)
  | num n => cases hv with | num _ h1 h2 => exact readsBack_num hcap _ h1 h2
  | real neg m sc =>
    cases hv with
    | real _ _ _ h1 h6 h0 hm =>
      exact readsBack_word hcap _ _ _ (text_real _ neg m sc h1 h6 h0) (realText_lit _ _ _) (realText_ne _ _ _)
        (realText_length _ _ _ h6 hm) (determine_real cfg neg m sc h1)
  | ref o g => cases hv with | ref _ _ ho hg => exact readsBack_ref hcap hr _ ho hg
  | _ => exact readsBack_all hcap hr _ (Or.inr rfl) _ hv

/-- C67. `ToString` followed by reading gives the same value back, for every value C19 speaks of. -/
theorem C67_toString_roundtrip (v : Var) (hv : Writable 4095 v) (hd : nest v < 256) :
    ∃ t s', toStringVar v = .ok t ∧ parse {} t = (.ok (some v), s') ∧ s'.depth = 0 ∧
      (tryReadToken 4095 s').1 = none := by
  obtain ⟨t, s1, k1, k2, _, _, k4⟩ := toString_readsBack (cfg := {}) (by decide) rfl v hv
    ⟨[], text (toStringFlags v) v ++ [], 0⟩ _ [] ⟨Or.inl rfl, fun _ _ => noRef_nil _⟩ rfl (Rep2_fresh _ _ _)
  have hfu : fuelFor (toStringFlags v) v ≤ 2 * s1.weight + 2 := by
    have hs1 : s1 = (tryReadToken ({} : Cfg).cap ⟨[], text (toStringFlags v) v ++ [], 0⟩).2 := by rw [k1]
    cases v with
    | arr l =>
      rw [hs1]
      rw [fuelFor]
      simp only [text, List.cons_append]
      rw [weight_arr _ (by decide)]; simp; omega
    | dict l =>
      rw [hs1]
      rw [fuelFor]
      simp only [text, List.cons_append, List.nil_append]
      rw [weight_dict _ (by decide)]; simp; omega
    | _ => simp [fuelFor]
  obtain ⟨d, s2, s3, m1, m2, m3, m4⟩ := k4 1 (2 * s1.weight + 2)
    (by have := gnest_le v; show 1 + gnest v ≤ 256; omega) hfu
  have k2' : s1.depth = 0 := k2
  refine ⟨text (toStringFlags v) v, { s3 with depth := s3.depth - 1 },
    by simp [toStringVar, writeVar, writable_noNul hv], ?_, by show s3.depth - 1 = 0; omega, ?_⟩
  · rw [List.append_nil] at k1
    unfold parse tryReadVariant
    rw [k1]; dsimp only
    unfold readTok
    apply guarded_ok
    · rw [k2']; decide
    · unfold P.andThen
      rw [k2', m1]; dsimp only; rw [m2]
  · obtain ⟨s1, k, _⟩ := tryReadToken_rep_none (m4.depth (s3.depth - 1)) (lex_nil _)
    show (tryReadToken ({} : Cfg).cap _).1 = none
    rw [k]

/-- Non-vacuity, and the contrast with `C19_noInline_false`: the array is written with spaces. -/
example : toStringVar (.arr [.num 1, .num 2]) = .ok [91, 32, 49, 32, 50, 93] ∧
    toStringVar (.ref 7 0) = .ok [55, 32, 48, 32, 82] := by decide +kernel

end Pdfmm
