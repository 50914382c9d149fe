import Verif.Contents.ReaderEnds
import Verif.Fonts.CMapTokens
import Verif.Syntax.ObjectProps
set_option autoImplicit false
/-
What a content stream says is what the reader delivers.  Properties C122 and C124.
-/
namespace Pdfmm
open Spec

/-- The values that operators take: null, booleans, 64-bit integers, reals with at most six digits after the point, strings, names, and arrays
and dictionaries of such values. -/
inductive Spec.Operand : Var → Prop
  | null : Operand .null
  | bool (b : Bool) : Operand (.bool b)
  | num (n : Int) : -9223372036854775808 ≤ n → n < 9223372036854775808 → Operand (.num n)
  | real (neg : Bool) (m s : Nat) : 1 ≤ s → s ≤ 6 → m % 10 ≠ 0 → m < 10 ^ 15 → Operand (.real neg m s)
  | str (d : Bytes) (hex : Bool) : Operand (.str d hex)
  | name (n : Bytes) : 0 ∉ n → (escapeNameBody n).length ≤ 4095 → Operand (.name n)
  | arr (l : List Var) : (∀ v ∈ l, Operand v) → Operand (.arr l)
  | dict (l : List (Bytes × Var)) : SMap.Sorted l → (∀ p ∈ l, 0 ∉ p.1 ∧ (escapeNameBody p.1).length ≤ 4095) → (∀ p ∈ l, Operand p.2) →
      Operand (.dict l)

theorem Spec.Operand.writable {v : Var} (h : Operand v) : Writable 4095 v := by
  induction h with
  | null => exact .null
  | bool b => exact .bool b
  | num n h1 h2 => exact .num n h1 h2
  | real neg m s h1 h2 h3 h4 => exact .real neg m s h1 h2 h3 h4
  | str d hex => exact .str d hex
  | name n h1 h2 => exact .name n h1 h2
  | arr l _ ih => exact .arr l ih
  | dict l hs hk _ ih => exact .dict l hs hk ih

theorem psCap : psCfg.cap = 4095 := rfl

theorem Spec.Operand.readsBack {v : Var} (h : Operand v) (f : WFlags) (hf : f.Sep) : ReadsBack psCfg f v := by
  have hcap : 20 ≤ psCfg.cap := by decide
  induction h with
  | null => exact readsBack_word hcap f _ _ (by rw [text]) (by decide) (by decide) (by decide) (fun _ => rfl)
  | bool b =>
    cases b with
    | true => exact readsBack_word hcap f _ _ (by rw [text]) (by decide) (by decide) (by decide) (fun _ => rfl)
    | false => exact readsBack_word hcap f _ _ (by rw [text]) (by decide) (by decide) (by decide) (fun _ => rfl)
  | num n h1 h2 => exact readsBack_num hcap f h1 h2
  | real neg m sc h1 h6 h0 hm =>
    exact readsBack_word hcap f _ _ (text_real f neg m sc h1 h6 h0) (realText_lit _ _ _) (realText_ne _ _ _)
      (realText_length _ _ _ h6 hm) (determine_real psCfg neg m sc h1)
  | str d hex => exact readsBack_str hcap f d hex
  | name n _ h =>
    intro s T rest hfo hT h'
    obtain ⟨t, s1, k1, k2, k3, k4, k5⟩ := readsBack_name hcap f h s T rest hfo.1 hT h'
    exact ⟨t, s1, k1, k2, k3, k4, fun e fuel _ _ => k5 e fuel⟩
  | arr l h ih => exact readsBack_arr hcap f hf l (fun v hv => ⟨(h v hv).writable, ih v hv⟩)
  | dict l hs hk h ih => exact readsBack_dict hcap f hf l hs (fun p hp => ⟨(hk p hp).2, (h p hp).writable, ih p hp⟩)

theorem rep1_of_q1 {s : PS} {t : Bytes} (h : Rep2 psCfg.cap s t) (hq : Q1 s) : Rep1 psCfg.cap s t := by
  rcases h with h | ⟨a, b, t1, h, _⟩
  · exact h
  · have := hq.2; rw [h] at this; simp at this

theorem weight_nil {s : PS} {t : Bytes} (h : Rep0 s t) : s.weight = t.length := by
  simp [PS.weight, h.1, h.2]

theorem determine_brace {t : Tok} {s s' : PS} {d : Det} (h : determine psCfg t s = (.ok d, s')) : t.type ≠ .braceL ∧ t.type ≠ .braceR := by
  refine ⟨?_, ?_⟩ <;>
  · intro ht
    simp [determine, ht, raise] at h

/-- What one operand looks like to the tokenizer. -/
theorem operand_token {f : WFlags} (hf : f.Sep) {v : Var} (hv : Operand v) {s : PS} {T rest : Bytes} (hs : Rep1 psCfg.cap s T)
    (hr : StartsOk rest) (hT : lex psCfg.cap T = lex psCfg.cap (text f v ++ rest)) :
    ∃ t s1, tryReadToken psCfg.cap s = (some t, s1) ∧ s1.depth = s.depth ∧
      ∀ e, e + gnest v ≤ 256 → ∃ d s2 s3, determine psCfg t { s1 with depth := e } = (.ok d, s2) ∧
        readDT psCfg (2 * s1.weight + 2) d s2 = (.ok (some v), s3) ∧ s3.depth = e ∧ Rep2 psCfg.cap s3 rest := by
  obtain ⟨t, s1, k1, k2, _, _, k4⟩ := hv.readsBack f hf s T rest ⟨hr, fun h => by cases h⟩ hT (Or.inl hs)
  refine ⟨t, s1, k1, k2, ?_⟩
  intro e he
  refine k4 e _ he ?_
  have hcap2 : 2 ≤ psCfg.cap := by decide
  cases v with
  | arr l =>
    have hl : lex psCfg.cap T = some (⟨[91], tokDelimType 91⟩, f.cl [32] ++ (textArr f 1 l ++ 93 :: rest)) := by
      rw [hT]
      have e : text f (.arr l) ++ rest = 91 :: (f.cl [32] ++ (textArr f 1 l ++ 93 :: rest)) := by rw [text]; simp
      rw [e]; exact lex_delim hcap2 (by decide)
    obtain ⟨s1', j1, _, j3⟩ := tryReadToken_rep1 hcap2 hs hl
    rw [k1] at j1
    simp only [Prod.mk.injEq] at j1
    rw [j1.2, weight_nil j3, fuelFor, text]
    simp; omega
  | dict l =>
    have hl : lex psCfg.cap T = some (⟨[60, 60], .dAngleL⟩, f.cl [10] ++ (entries f (ordered l) ++ 62 :: 62 :: rest)) := by
      rw [hT]
      have e : text f (.dict l) ++ rest = 60 :: 60 :: (f.cl [10] ++ (entries f (ordered l) ++ 62 :: 62 :: rest)) := by
        rw [text, dictBody_entries]; simp
      rw [e]; exact lex_dangle hcap2 (Or.inl rfl)
    obtain ⟨s1', j1, _, j3⟩ := tryReadToken_rep1 hcap2 hs hl
    rw [k1] at j1
    simp only [Prod.mk.injEq] at j1
    rw [j1.2, weight_nil j3, fuelFor, text, dictBody_entries]
    simp; omega
  | _ => simp [fuelFor]

theorem psNext_operand {f : WFlags} (hf : f.Sep) {v : Var} (hv : Operand v) (hn : gnest v ≤ 256) {s : PS} {T rest : Bytes}
    (hs : Rep1 psCfg.cap s T) (hq : Q1 s) (hd : s.depth = 0)
    (hr : StartsOk rest) (hT : lex psCfg.cap T = lex psCfg.cap (text f v ++ rest)) :
    ∃ s', psNext s = .ok (some (.value v), s') ∧ Rep1 psCfg.cap s' rest ∧ Q1 s' ∧ s'.depth = 0 := by
  obtain ⟨t, s1, k1, k2, k3⟩ := operand_token hf hv hs hr hT
  obtain ⟨d, s2, s3, m1, m2, m3, m4⟩ := k3 0 (by omega)
  have hs1 : ({ s1 with depth := 0 } : PS) = s1 := by rw [hd] at k2; rw [← k2]
  rw [hs1] at m1
  obtain ⟨b1, b2⟩ := determine_brace m1
  have h : psNext s = .ok (some (.value v), s3) := by
    rw [psNext, k1]
    simp only
    rw [if_neg b1, if_neg b2]
    simp only [P.andThen]
    rw [m1]
    simp only
    rw [m2]
  have hq3 := ((psNext_q1 hq).2.2 _ _ h).2.1
  exact ⟨s3, h, rep1_of_q1 m4 hq3, hq3, m3⟩

theorem readVariant_operand {f : WFlags} (hf : f.Sep) {v : Var} (hv : Operand v) (hn : gnest v < 256) {s : PS} {T rest : Bytes}
    (hs : Rep1 psCfg.cap s T) (hq : Q1 s) (hd : s.depth = 0)
    (hr : StartsOk rest) (hT : lex psCfg.cap T = lex psCfg.cap (text f v ++ rest)) :
    ∃ s', tryReadVariant psCfg s = (.ok (some v), s') ∧ Rep1 psCfg.cap s' rest ∧ Q1 s' ∧ s'.depth = 0 := by
  obtain ⟨t, s1, k1, k2, k3⟩ := operand_token hf hv hs hr hT
  obtain ⟨d, s2, s3, m1, m2, m3, m4⟩ := k3 1 (by omega)
  have h : tryReadVariant psCfg s = (.ok (some v), { s3 with depth := s3.depth - 1 }) := by
    unfold tryReadVariant
    rw [k1]; dsimp only
    unfold readTok
    rw [hd] at k2
    apply guarded_ok (by rw [k2]; decide)
    unfold P.andThen
    rw [k2, m1]; dsimp only; rw [m2]
  have hq3 := (readVariant_q1 hq).2.1 (some v) (by rw [h])
  rw [h] at hq3
  exact ⟨_, h, rep1_of_q1 (m4.depth _) hq3.2, hq3.2, by show s3.depth - 1 = 0; omega⟩

theorem psNext_keyword {w : Bytes} (hw : IsWord w) {s : PS} {T rest : Bytes} (hs : Rep1 psCfg.cap s T)
    (hr : StartsOk rest) (hT : lex psCfg.cap T = lex psCfg.cap (w ++ rest)) :
    ∃ s', psNext s = .ok (some (.keyword w), s') ∧ Rep0 s' rest ∧ s'.depth = s.depth := by
  obtain ⟨h1, h2, h3, h4, h5, h6, h7⟩ := hw
  obtain ⟨s1, k1, k2, k3⟩ := tryReadToken_rep1 (by decide) hs (hT.trans (lex_literal h1 h2 h3 hr))
  refine ⟨s1, ?_, k3, k2⟩
  rw [psNext, k1]
  simp only [reduceCtorEq, if_false, P.andThen, determine]
  rw [if_neg h4, if_neg h5, if_neg h6, h7]
  simp only [readDT]

theorem opName_word (op : PdfOp) : IsWord (opName op) := by cases op <;> decide +kernel

/-! ### Fuel does not matter -/

theorem readImgDict_mono (f : Nat) (c : Content) (st : RState) (h : readImgDict f c st ≠ .error .diverge) :
    readImgDict (f + 1) c st = readImgDict f c st := by
  induction f generalizing c st with
  | zero => exact absurd rfl h
  | succ f ih =>
    rw [readImgDict] at h
    rw [readImgDict.eq_2 c st (f + 1), readImgDict.eq_2 c st f]
    cases hn : st.next with
    | error e => rfl
    | ok p =>
      obtain ⟨o, st1⟩ := p
      rw [hn] at h
      cases o with
      | none => rfl
      | some t =>
        cases t with
        | keyword k =>
          simp only at h ⊢
          split at h
          · rename_i hk; rw [if_pos hk, if_pos hk]
          · rename_i hk; rw [if_neg hk, if_neg hk]; exact ih _ _ h
        | procEnter => exact ih _ _ h
        | procExit => exact ih _ _ h
        | value v =>
          cases v
          case name n =>
            simp only at h ⊢
            cases hv : st1.nextVariant with
            | error e => rfl
            | ok p =>
              obtain ⟨o, st2⟩ := p
              rw [hv] at h
              cases o with
              | none => rfl
              | some v => exact ih _ _ h
          all_goals exact ih _ _ h

theorem readContentLoop_mono (env : CEnv) (a : CArgs) (f : Nat) (c : Content) (st : RState)
    (h : readContentLoop env a f c st ≠ .error .diverge) :
    readContentLoop env a (f + 1) c st = readContentLoop env a f c st := by
  induction f generalizing c st with
  | zero => exact absurd rfl h
  | succ f ih =>
    rw [readContentLoop] at h
    rw [readContentLoop.eq_2 env a c st (f + 1), readContentLoop.eq_2 env a c st f]
    cases hn : st.next with
    | error e => rfl
    | ok p =>
      obtain ⟨o, st1⟩ := p
      rw [hn] at h
      cases o with
      | none => rfl
      | some t =>
        cases t with
        | keyword k => rfl
        | procEnter => rfl
        | procExit => rfl
        | value v => exact ih _ _ h

theorem readImgDict_mono' (f k : Nat) (c : Content) (st : RState) (h : readImgDict f c st ≠ .error .diverge) :
    readImgDict (f + k) c st = readImgDict f c st := by
  induction k with
  | zero => rfl
  | succ k ih => rw [← Nat.add_assoc, readImgDict_mono _ _ _ (by rw [ih]; exact h), ih]

theorem readContentLoop_mono' (env : CEnv) (a : CArgs) (f k : Nat) (c : Content) (st : RState)
    (h : readContentLoop env a f c st ≠ .error .diverge) :
    readContentLoop env a (f + k) c st = readContentLoop env a f c st := by
  induction k with
  | zero => rfl
  | succ k ih => rw [← Nat.add_assoc, readContentLoop_mono _ _ _ _ _ (by rw [ih]; exact h), ih]

/-! ### Texts -/

/-- The data of an inline image that can be told from what follows it: `EI` and white space do not occur in it, and it does not end with
`E` or `I`. -/
def Spec.ImageData (d : Bytes) : Prop :=
  (∀ a w b, d = a ++ 69 :: 73 :: w :: b → isWhitespace w = false) ∧ d.getLast? ≠ some 69 ∧ d.getLast? ≠ some 73

/-- The pieces of a content stream. -/
inductive Spec.Piece
  | op (o : PdfOp) (args : List Var)
  | image (dict : List (Bytes × Var)) (data : Bytes)

/-- The operands of an operator, each followed by a blank. -/
def Spec.operandsText (f : WFlags) : List Var → Bytes
  | [] => []
  | v :: l => text f v ++ 32 :: Spec.operandsText f l

/-- The entries of the dictionary of an inline image, one on each line. -/
def Spec.imageDictText (f : WFlags) : List (Bytes × Var) → Bytes
  | [] => []
  | p :: l => text f (.name p.1) ++ 32 :: (text f p.2 ++ 10 :: Spec.imageDictText f l)

/-- The text of a piece: operands and operator, or `BI`, dictionary, `ID`, data, `EI`. -/
def Spec.Piece.text (f : WFlags) : Spec.Piece → Bytes
  | .op o args => operandsText f args ++ (opName o ++ [10])
  | .image dict data => opName .opBI ++ 10 :: (imageDictText f dict ++ (opName .opID ++ 32 :: (data ++ (opName .opEI ++ [10]))))

/-- The text of a content stream. -/
def Spec.contentText (f : WFlags) : List Spec.Piece → Bytes
  | [] => []
  | p :: l => p.text f ++ Spec.contentText f l

/-- The pieces the property speaks of.  `BI` only comes with an image; `Do` is another matter when the reader has a canvas. -/
def Spec.Piece.Ok (canvas : Option Nat) : Spec.Piece → Prop
  | .op o args => o ≠ .opBI ∧ (canvas = none ∨ o ≠ .opDo) ∧ ∀ v ∈ args, Operand v ∧ nest v ≤ 255
  | .image dict data => SMap.Sorted dict ∧ (∀ p ∈ dict, 0 ∉ p.1 ∧ (escapeNameBody p.1).length ≤ 4095 ∧ Operand p.2 ∧ nest p.2 ≤ 255) ∧
      Spec.ImageData data

/-- What the reader has to deliver for a piece. -/
def Spec.Piece.contents : Spec.Piece → List Content
  | .op o args => [{ type := .operator, op := some o, keyword := opName o, stack := args, warnings := countWarn o args.length {} }]
  | .image dict data => [{ type := .imageDictionary, imgDict := dict }, { type := .imageData, imgData := data }]

/-! ### Operators -/

/-- The content when the operator has been read. -/
def opContent (o : PdfOp) (args : List Var) (c : Content) : Content :=
  { c with keyword := opName o, op := some o, type := .operator, stack := c.stack ++ args, warnings := countWarn o (c.stack ++ args).length c.warnings }

/-- The reader on one input. -/
def oneInput (cv ct : Option Nat) (t : Bytes) (q : List Tok) : RState := ⟨[⟨cv, ct, t⟩], q, false⟩

theorem next_of {cv ct : Option Nat} {t : Bytes} {q : List Tok} {o : Option PsTok} {s' : PS} (h : psNext ⟨q, t, 0⟩ = .ok (o, s')) :
    (oneInput cv ct t q).next = .ok (o, oneInput cv ct s'.inp s'.queue) := by
  unfold RState.next oneInput
  simp only
  rw [h]

theorem nextVariant_of {cv ct : Option Nat} {t : Bytes} {q : List Tok} {v : Var} {s' : PS}
    (h : tryReadVariant psCfg ⟨q, t, 0⟩ = (.ok (some v), s')) :
    (oneInput cv ct t q).nextVariant = .ok (some v, oneInput cv ct s'.inp s'.queue) := by
  unfold RState.nextVariant oneInput
  simp only
  rw [h]

theorem loop_operands {env : CEnv} {a : CArgs} {f : WFlags} (hf : f.Sep) (o : PdfOp) (args : List Var)
    (hargs : ∀ v ∈ args, Operand v ∧ nest v ≤ 255) (rest : Bytes) (hr : StartsOk rest) (cv ct : Option Nat) (k : Nat) (c : Content) (t T : Bytes)
    (q : List Tok) (hs : Rep1 psCfg.cap ⟨q, t, 0⟩ T) (hq : Q1 ⟨q, t, 0⟩)
    (hT : lex psCfg.cap T = lex psCfg.cap (operandsText f args ++ (opName o ++ rest))) :
    readContentLoop env a (k + 1 + args.length) c (oneInput cv ct t q) =
      tryHandleOperator env a o (opContent o args c) (oneInput cv ct rest []) := by
  induction args generalizing c t T q with
  | nil =>
    rw [operandsText, List.nil_append] at hT
    obtain ⟨s', h1, h2, _⟩ := psNext_keyword (opName_word o) hs hr hT
    simp only [List.length_nil, Nat.add_zero]
    rw [readContentLoop, next_of h1]
    simp only
    rw [opOfName_name]
    simp only
    rw [h2.1, h2.2]
    simp [opContent]
  | cons v l ih =>
    have hT' : lex psCfg.cap T = lex psCfg.cap (text f v ++ (32 :: (operandsText f l ++ (opName o ++ rest)))) := by
      rw [hT, operandsText]; simp
    obtain ⟨hv1, hv2⟩ := hargs v List.mem_cons_self
    obtain ⟨s', h1, h2, h3, h4⟩ := psNext_operand hf hv1 (by have := gnest_le v; omega) hs hq rfl (StartsOk.cons_ws (by decide)) hT'
    rw [show k + 1 + (v :: l).length = (k + 1 + l.length) + 1 by simp; omega, readContentLoop, next_of h1]
    simp only
    have hs' : s' = ⟨s'.queue, s'.inp, 0⟩ := by rw [← h4]
    rw [hs'] at h2 h3
    have := ih (fun v h => hargs v (List.mem_cons_of_mem _ h)) { c with stack := c.stack ++ [v] } s'.inp _ s'.queue h2 h3
      (lex_ws (by decide) (by decide))
    rw [this]
    simp [opContent]

theorem readNext_operator {env : CEnv} {a : CArgs} (hb : ∀ x, env.body x ≠ .error .diverge) {f : WFlags} (hf : f.Sep) (o : PdfOp)
    (args : List Var) (hargs : ∀ v ∈ args, Operand v ∧ nest v ≤ 255) (rest : Bytes) (hr : StartsOk rest) (cv ct : Option Nat) (c : Content) (T : Bytes)
    (hT : lex psCfg.cap T = lex psCfg.cap (operandsText f args ++ (opName o ++ rest))) :
    tryReadNextContent env a c (oneInput cv ct T []) =
      tryHandleOperator env a o (opContent o args c) (oneInput cv ct rest []) := by
  have hq : Q1 ⟨[], T, 0⟩ := q1_nil rfl
  have hw : (oneInput cv ct T []).weight = (topPS (oneInput cv ct T []).queue ⟨cv, ct, T⟩).weight := rfl
  have hd := (readContentLoop_ok (env := env) (a := a) hb (i := ⟨cv, ct, T⟩) (r := []) ((oneInput cv ct T []).weight + 1) c (oneInput cv ct T []) rfl hq rfl
    (by rw [hw]; omega)).1
  unfold tryReadNextContent
  rw [← readContentLoop_mono' env a _ (args.length) c _ hd]
  exact loop_operands hf o args hargs rest hr cv ct _ c T T [] (Or.inl ⟨rfl, rfl⟩) hq hT

/-! ### Inline images -/

theorem loop_imageDict {f : WFlags} (hf : f.Sep) (l : List (Bytes × Var))
    (hl : ∀ p ∈ l, 0 ∉ p.1 ∧ (escapeNameBody p.1).length ≤ 4095 ∧ Operand p.2 ∧ nest p.2 ≤ 255) (rest : Bytes) (hr : StartsOk rest)
    (cv ct : Option Nat) (k : Nat) (c : Content) (t T : Bytes)
    (q : List Tok) (hs : Rep1 psCfg.cap ⟨q, t, 0⟩ T) (hq : Q1 ⟨q, t, 0⟩)
    (hT : lex psCfg.cap T = lex psCfg.cap (imageDictText f l ++ (opName .opID ++ rest))) :
    readImgDict (k + 1 + l.length) c (oneInput cv ct t q) =
      .ok (true, { c with imgDict := l.foldl (fun d e => SMap.insert e.1 e.2 d) c.imgDict }, oneInput cv ct rest []) := by
  induction l generalizing c t T q with
  | nil =>
    rw [imageDictText, List.nil_append] at hT
    obtain ⟨s', h1, h2, _⟩ := psNext_keyword (opName_word .opID) hs hr hT
    simp only [List.length_nil, Nat.add_zero, List.foldl_nil]
    rw [readImgDict, next_of h1]
    simp only
    rw [if_pos (by decide), h2.1, h2.2]
  | cons p l ih =>
    obtain ⟨n, v⟩ := p
    obtain ⟨hn1, hn2, hv1, hv2⟩ := hl (n, v) List.mem_cons_self
    have hT' : lex psCfg.cap T = lex psCfg.cap (text f (.name n) ++ (32 :: (text f v ++ (10 :: (imageDictText f l ++ (opName .opID ++ rest)))))) := by
      rw [hT, imageDictText]; simp
    obtain ⟨s', h1, h2, h3, h4⟩ := psNext_operand hf (.name n hn1 hn2) (by simp [gnest]) hs hq rfl (StartsOk.cons_ws (by decide)) hT'
    have hs' : s' = ⟨s'.queue, s'.inp, 0⟩ := by rw [← h4]
    rw [hs'] at h2 h3
    obtain ⟨s'', g1, g2, g3, g4⟩ := readVariant_operand hf hv1 (by have := gnest_le v; simp only at hv2; show gnest v < 256; omega) h2 h3 rfl (StartsOk.cons_ws (by decide))
      (lex_ws (r := text f v ++ (10 :: (imageDictText f l ++ (opName .opID ++ rest)))) (by decide) (by decide))
    have hs'' : s'' = ⟨s''.queue, s''.inp, 0⟩ := by rw [← g4]
    rw [hs''] at g2 g3
    rw [show k + 1 + ((n, v) :: l).length = (k + 1 + l.length) + 1 by simp; omega, readImgDict, next_of h1]
    simp only
    rw [nextVariant_of g1]
    simp only
    have := ih (fun v h => hl v (List.mem_cons_of_mem _ h)) { c with imgDict := SMap.insert n v c.imgDict } s''.inp _ s''.queue g2 g3
      (lex_ws (by decide) (by decide))
    rw [this]
    simp

theorem imgDict_read {f : WFlags} (hf : f.Sep) (l : List (Bytes × Var))
    (hl : ∀ p ∈ l, 0 ∉ p.1 ∧ (escapeNameBody p.1).length ≤ 4095 ∧ Operand p.2 ∧ nest p.2 ≤ 255) (rest : Bytes) (hr : StartsOk rest)
    (cv ct : Option Nat) (c : Content) (T : Bytes)
    (hT : lex psCfg.cap T = lex psCfg.cap (imageDictText f l ++ (opName .opID ++ rest))) :
    readImgDict ((oneInput cv ct T []).weight + 1) c (oneInput cv ct T []) =
      .ok (true, { c with imgDict := l.foldl (fun d e => SMap.insert e.1 e.2 d) c.imgDict }, oneInput cv ct rest []) := by
  have hq : Q1 ⟨[], T, 0⟩ := q1_nil rfl
  have hw : (oneInput cv ct T []).weight = (topPS (oneInput cv ct T []).queue ⟨cv, ct, T⟩).weight := rfl
  have hd := (readImgDict_ok (i := ⟨cv, ct, T⟩) (r := []) ((oneInput cv ct T []).weight + 1) c (oneInput cv ct T []) rfl hq (by rw [hw]; omega)).1
  rw [← readImgDict_mono' _ l.length c _ hd]
  exact loop_imageDict hf l hl rest hr cv ct _ c T T [] (Or.inl ⟨rfl, rfl⟩) hq hT

theorem foldl_insert_sorted (acc l : List (Bytes × Var)) (h : SMap.Sorted (acc ++ l)) :
    l.foldl (fun d e => SMap.insert e.1 e.2 d) acc = acc ++ l := by
  induction l generalizing acc with
  | nil => simp
  | cons p l ih =>
    rw [List.foldl_cons]
    have h' : SMap.Sorted (acc ++ [p] ++ l) := by simpa using h
    have hins : SMap.insert p.1 p.2 acc = acc ++ [p] := by
      apply SMap.insert_last
      intro x hx
      exact (SMap.sorted_append.1 h).2.2 x hx p List.mem_cons_self
    rw [hins, ih _ h']
    simp

theorem eiLoop_data (st : EISt) (pre rem rest : Bytes) (w : Byte) (hw : isWhitespace w = true)
    (h1 : ∀ a w b, pre ++ rem = a ++ 69 :: 73 :: w :: b → isWhitespace w = false)
    (h2 : (pre ++ rem).getLast? ≠ some 69) (h3 : (pre ++ rem).getLast? ≠ some 73)
    (hI : st = .readI → ∃ p, pre = p ++ [69]) (hW : st = .readWs → ∃ p, pre = p ++ [69, 73]) :
    eiLoop st (rem ++ 69 :: 73 :: w :: rest) pre = some (pre ++ rem, rest) := by
  induction rem generalizing st pre with
  | nil =>
    simp only [List.append_nil] at h2 h3
    cases st with
    | readI => obtain ⟨p, hp⟩ := hI rfl; rw [hp] at h2; simp at h2
    | readWs => obtain ⟨p, hp⟩ := hW rfl; rw [hp] at h3; simp at h3
    | readE =>
      simp only [List.nil_append, eiLoop, if_true, hw, List.append_nil]
      simp
  | cons c rem ih =>
    have e : pre ++ c :: rem = pre ++ [c] ++ rem := by simp
    rw [e] at h1 h2 h3 ⊢
    rw [List.cons_append]
    cases st with
    | readE =>
      rw [eiLoop]
      refine ih _ _ h1 h2 h3 ?_ ?_
      · intro h
        split at h
        · rename_i hc; exact ⟨pre, by rw [hc]⟩
        · simp at h
      · intro h; split at h <;> simp at h
    | readI =>
      rw [eiLoop]
      obtain ⟨p, hp⟩ := hI rfl
      refine ih _ _ h1 h2 h3 ?_ ?_
      · intro h; split at h <;> simp at h
      · intro h
        split at h
        · rename_i hc; exact ⟨p, by rw [hc, hp]; simp⟩
        · simp at h
    | readWs =>
      rw [eiLoop]
      obtain ⟨p, hp⟩ := hW rfl
      have := h1 p c rem (by rw [hp]; simp)
      rw [this]
      simp only [Bool.false_eq_true, if_false]
      exact ih _ _ h1 h2 h3 (by simp) (by simp)

theorem imgData_read (c0 : Byte) (d rest : Bytes) (hd : Spec.ImageData d) : tryReadImgData (c0 :: (d ++ (opName .opEI ++ 10 :: rest))) = some (d, rest) := by
  rw [tryReadImgData]
  exact eiLoop_data .readE [] d rest 10 (by decide) hd.1 hd.2.1 hd.2.2 (by simp) (by simp)

/-! ### The whole stream -/

theorem tryReadNext_plain (env : CEnv) (a : CArgs) (c : Content) (cv ct : Option Nat) (T : Bytes) (q : List Tok) :
    tryReadNext env a c (oneInput cv ct T q) = readPlain env a c.reset ⟨[⟨cv, ct, T⟩], q, false⟩ := rfl

theorem step_op {env : CEnv} {a : CArgs} (ha : a.throwOnWarnings = false) (hb : ∀ x, env.body x ≠ .error .diverge)
    {f : WFlags} (hf : f.Sep) (o : PdfOp) (args : List Var) (cv ct : Option Nat) (hok : (Spec.Piece.op o args).Ok cv) (rest : Bytes) (c : Content)
    (T : Bytes) (hT : lex psCfg.cap T = lex psCfg.cap ((Spec.Piece.op o args).text f ++ rest)) :
    tryReadNext env a c (oneInput cv ct T []) =
      .ok (true, { type := .operator, op := some o, keyword := opName o, stack := args, warnings := countWarn o args.length {} },
        oneInput cv ct (10 :: rest) []) := by
  obtain ⟨h1, h2, h3⟩ := hok
  have hT' : lex psCfg.cap T = lex psCfg.cap (operandsText f args ++ (opName o ++ (10 :: rest))) := by
    rw [hT, Spec.Piece.text]; simp
  rw [tryReadNext_plain]
  try simp only [oneInput]
  rw [readPlain]
  have := readNext_operator (a := a) hb hf o args h3 (10 :: rest) (StartsOk.cons_ws (by decide)) cv ct c.reset T hT'
  simp only [oneInput] at this
  rw [this]
  have hh : tryHandleOperator env a o (opContent o args c.reset) ⟨[⟨cv, ct, 10 :: rest⟩], [], false⟩ =
      .ok (true, opContent o args c.reset, ⟨[⟨cv, ct, 10 :: rest⟩], [], false⟩) := by
    unfold tryHandleOperator
    by_cases hdo : o = .opDo
    · rw [if_pos hdo]
      rcases h2 with h2 | h2
      · simp only [h2]
      · exact absurd hdo h2
    · rw [if_neg hdo, if_neg h1]
  rw [hh]
  simp only [handleContent, handleWarnings, ha, Bool.false_eq_true, if_false]
  simp [opContent, Content.clear, Content.reset]

theorem step_image {env : CEnv} {a : CArgs} (ha : a.throwOnWarnings = false) (hb : ∀ x, env.body x ≠ .error .diverge)
    {f : WFlags} (hf : f.Sep) (dict : List (Bytes × Var)) (data : Bytes) (cv ct : Option Nat) (hok : (Spec.Piece.image dict data).Ok cv) (rest : Bytes)
    (c : Content) (hc : c.imgDict = [])
    (T : Bytes) (hT : lex psCfg.cap T = lex psCfg.cap ((Spec.Piece.image dict data).text f ++ rest)) :
    tryReadNext env a c (oneInput cv ct T []) =
      .ok (true, { type := .imageDictionary, imgDict := dict }, ⟨[⟨cv, ct, 32 :: (data ++ (opName .opEI ++ (10 :: rest)))⟩], [], true⟩) := by
  obtain ⟨h1, h2, h3⟩ := hok
  obtain ⟨R, hR⟩ : ∃ R, R = imageDictText f dict ++ (opName .opID ++ 32 :: (data ++ (opName .opEI ++ (10 :: rest)))) := ⟨_, rfl⟩
  have hT' : lex psCfg.cap T = lex psCfg.cap (operandsText f [] ++ (opName .opBI ++ (10 :: R))) := by
    rw [hT, Spec.Piece.text, operandsText, hR]; simp
  rw [tryReadNext_plain]
  try simp only [oneInput]
  rw [readPlain]
  have := readNext_operator (a := a) hb hf .opBI [] (by simp) (10 :: R) (StartsOk.cons_ws (by decide)) cv ct c.reset T hT'
  simp only [oneInput] at this
  rw [this]
  have hd := imgDict_read hf dict h2 (32 :: (data ++ (opName .opEI ++ (10 :: rest)))) (StartsOk.cons_ws (by decide)) cv ct
    (opContent .opBI [] c.reset) (10 :: R) (by rw [lex_ws (by decide) (by decide), hR])
  rw [tryHandleOperator, if_neg (by decide), if_pos rfl]
  simp only [oneInput] at hd
  rw [hd]
  have hfold : dict.foldl (fun d e => SMap.insert e.1 e.2 d) (opContent .opBI [] c.reset).imgDict = dict := by
    have : (opContent .opBI [] c.reset).imgDict = [] := hc
    rw [this, foldl_insert_sorted [] dict (by simpa using h1)]; simp
  rw [hfold]
  simp only [handleContent, handleWarnings, ha, Bool.false_eq_true, if_false]
  simp [opContent, Content.clear, Content.reset, countWarn, opCount]

theorem step_data {env : CEnv} {a : CArgs} (hh : a.handler = none) (data : Bytes) (hd : Spec.ImageData data) (cv ct : Option Nat) (rest : Bytes) (c : Content) :
    tryReadNext env a c ⟨[⟨cv, ct, 32 :: (data ++ (opName .opEI ++ (10 :: rest)))⟩], [], true⟩ =
      .ok (true, { type := .imageData, imgData := data }, oneInput cv ct rest []) := by
  rw [tryReadNext]
  simp only [if_true, hh, imgData_read 32 data rest hd, oneInput]
  simp [Content.clear, Content.reset]

theorem step_end {env : CEnv} {a : CArgs} (cv ct : Option Nat) (c : Content) (T : Bytes) (hT : lex psCfg.cap T = none) :
    ∃ c' st', tryReadNext env a c (oneInput cv ct T []) = .ok (false, c', st') := by
  have hp : psNext ⟨[], T, 0⟩ = .ok (none, ⟨[], [], 0⟩) := by
    rw [psNext]
    simp only [tryReadToken]
    rw [hT]
  rw [tryReadNext_plain]
  try simp only [oneInput]
  rw [readPlain, tryReadNextContent, readContentLoop]
  have := next_of (cv := cv) (ct := ct) hp
  simp only [oneInput] at this
  rw [this]
  exact ⟨_, _, rfl⟩

theorem readContents_text {env : CEnv} {a : CArgs} (ha : a.throwOnWarnings = false) (hh : a.handler = none) (hb : ∀ x, env.body x ≠ .error .diverge)
    {f : WFlags} (hf : f.Sep) (cv ct : Option Nat) (l : List Spec.Piece) (hl : ∀ p ∈ l, p.Ok cv) (n : Nat) (c : Content) (hc : c.imgDict = [])
    (T : Bytes) (hT : lex psCfg.cap T = lex psCfg.cap (contentText f l)) (hn : (l.flatMap (·.contents)).length < n) :
    readAllContent env a n c (oneInput cv ct T []) = .ok (l.flatMap (·.contents)) := by
  induction l generalizing n c T with
  | nil =>
    obtain ⟨n, rfl⟩ : ∃ m, n = m + 1 := ⟨n - 1, by omega⟩
    rw [contentText, lex_nil] at hT
    obtain ⟨c', st', h⟩ := step_end (env := env) (a := a) cv ct c T hT
    rw [readAllContent, h]
    rfl
  | cons p l ih =>
    have hp := hl p List.mem_cons_self
    have hl' := fun q hq => hl q (List.mem_cons_of_mem _ hq)
    cases p with
    | op o args =>
      obtain ⟨n, rfl⟩ : ∃ m, n = m + 1 := ⟨n - 1, by omega⟩
      rw [readAllContent, step_op ha hb hf o args cv ct hp (contentText f l) c T hT]
      simp only
      have hlen : (Spec.Piece.op o args).contents.length = 1 := rfl
      rw [List.flatMap_cons, List.length_append, hlen] at hn
      rw [List.flatMap_cons, ih hl' n _ rfl _ (lex_ws (by decide) (by decide)) (by omega)]
      rfl
    | image dict data =>
      have hlen : (Spec.Piece.image dict data).contents.length = 2 := rfl
      rw [List.flatMap_cons, List.length_append, hlen] at hn
      obtain ⟨n, rfl⟩ : ∃ m, n = m + 2 := ⟨n - 2, by omega⟩
      rw [readAllContent, step_image ha hb hf dict data cv ct hp (contentText f l) c hc T hT]
      simp only
      rw [readAllContent, step_data hh data hp.2.2 cv ct (contentText f l)]
      simp only
      rw [List.flatMap_cons, ih hl' n _ rfl _ rfl (by omega)]
      rfl

/-- C122.  Take any sequence of pieces: operators with operands, and inline images with a dictionary and data.  Write them one after the
other as a content stream, with any of the two ways of writing values.  The reader then delivers exactly these pieces, in order: each
operator with its name, its operands in order and the warnings about their number, each image as its dictionary and then its data; and it
then answers that the stream has ended. -/
theorem C122_reader_delivers (env : CEnv) (a : CArgs) (ha : a.throwOnWarnings = false) (hh : a.handler = none)
    (hbody : ∀ x, env.body x ≠ .error .diverge) (f : WFlags) (hf : f.clean = true ∨ f.noInline = false) (canvas contents : Option Nat)
    (l : List Spec.Piece) (hl : ∀ p ∈ l, p.Ok canvas) (n : Nat) (hn : (l.flatMap (·.contents)).length < n) :
    readAllContent env a n {} ⟨[⟨canvas, contents, contentText f l⟩], [], false⟩ = .ok (l.flatMap (·.contents)) :=
  readContents_text ha hh hbody hf canvas contents l hl n {} rfl _ rfl hn

/-- Non-vacuity: a rectangle, a string with a parenthesis, an array of kerned strings, and an image. -/
example : (∀ p ∈ [Spec.Piece.op .opre [.num 1, .num (-2), .real false 35 1, .num 4], .op .opTJ [.arr [.str [65, 41] false, .num 3]],
      .image [([72], .num 1), ([87], .num 2)] [1, 69, 73, 65, 10], .op .opQ []], p.Ok none) ∧
    contentText ⟨false, false⟩ [.op .opre [.num 1, .num (-2), .real false 35 1, .num 4], .image [([72], .num 1)] [1, 10], .op .opQ []] =
      asciiB " 1  -2  3.5  4 re\nBI\n/H  1\nID " ++ [1, 10] ++ asciiB "EI\nQ\n" := by
  refine ⟨?_, by decide +kernel⟩
  intro p hp
  simp only [List.mem_cons, List.not_mem_nil, or_false] at hp
  rcases hp with h | h | h | h <;> subst h
  · refine ⟨by decide, Or.inl rfl, ?_⟩
    intro v hv
    simp only [List.mem_cons, List.not_mem_nil, or_false] at hv
    rcases hv with h | h | h | h <;> subst h
    · exact ⟨.num _ (by decide) (by decide), by decide⟩
    · exact ⟨.num _ (by decide) (by decide), by decide⟩
    · exact ⟨.real _ _ _ (by decide) (by decide) (by decide) (by decide), by decide⟩
    · exact ⟨.num _ (by decide) (by decide), by decide⟩
  · refine ⟨by decide, Or.inl rfl, ?_⟩
    intro v hv
    simp only [List.mem_cons, List.not_mem_nil, or_false] at hv
    subst hv
    refine ⟨.arr _ ?_, by decide⟩
    intro v hv
    simp only [List.mem_cons, List.not_mem_nil, or_false] at hv
    rcases hv with h | h <;> subst h
    · exact .str _ _
    · exact .num _ (by decide) (by decide)
  · refine ⟨by decide +kernel, ?_, ?_, by decide, by decide⟩
    · intro p hp
      simp only [List.mem_cons, List.not_mem_nil, or_false] at hp
      rcases hp with h | h <;> subst h <;> exact ⟨by decide, by decide, .num _ (by decide) (by decide), by decide⟩
    · intro a w b h
      match a, h with
      | [], h => simp at h
      | [x], h => simp at h; rw [← h.2.1]; decide
      | [x, y], h => simp at h
      | [x, y, z], h => simp at h
      | x :: y :: z :: u :: r, h => have := congrArg List.length h; simp at this; omega
  · exact ⟨by decide, Or.inl rfl, by simp⟩

end Pdfmm
