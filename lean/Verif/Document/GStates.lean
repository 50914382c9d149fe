import Verif.Document.Annots
/-
C186: graphics state dictionaries: what a reader of the file takes from one, against the calls made on it.
-/
set_option autoImplicit false
namespace Pdfmm

/-- The calls on a `PdfExtGState`, `src/pdfmm/base/PdfExtGState.h:37-80`.  Numbers are taken as the values they are stored as. -/
inductive GsCall
  | fillOpacity (v : Var)
  | strokeOpacity (v : Var)
  | blend (n : Bytes)
  | over (b : Bool)
  | fillOver (b : Bool)
  | strokeOver (b : Bool)
  | nonZero (b : Bool)
  | intent (n : Bytes)
  | frequency (v : Var)

/-- The halftone dictionary, `src/pdfmm/base/PdfExtGState.cpp:77-81`. -/
def halftone (v : Var) : FDict :=
  SMap.insert (litBytes "SpotFunction") (.name (litBytes "SimpleDot")) <| SMap.insert (litBytes "Angle") (.real false 45 0) <|
    SMap.insert (litBytes "Frequency") v <| SMap.insert (litBytes "HalftoneType") (.num 1) []

/-- The dictionary after a call, `src/pdfmm/base/PdfExtGState.cpp:35-84`. -/
def gsCall (d : FDict) : GsCall → FDict
  | .fillOpacity v => SMap.insert (litBytes "ca") v d
  | .strokeOpacity v => SMap.insert (litBytes "CA") v d
  | .blend n => SMap.insert (litBytes "BM") (.name n) d
  | .over b => SMap.insert (litBytes "OP") (.bool b) d
  | .fillOver b => SMap.insert (litBytes "op") (.bool b) d
  | .strokeOver b => SMap.insert (litBytes "OP") (.bool b) d
  | .nonZero b => SMap.insert (litBytes "OPM") (.num (if b then 1 else 0)) d
  | .intent n => SMap.insert (litBytes "RI") (.name n) d
  | .frequency v => SMap.insert (litBytes "HT") (.dict (halftone v)) d

/-- A new `PdfExtGState`, `src/pdfmm/base/PdfExtGState.cpp:18-33`, after some calls. -/
def gsRun (cs : List GsCall) : FDict := cs.foldl gsCall [(litBytes "Type", .name (litBytes "ExtGState"))]

namespace Spec

/-- The parameters of a graphics state, each with its value when it is given. -/
structure GsParams where
  fillOpacity : Option Var
  strokeOpacity : Option Var
  blend : Option Bytes
  fillOver : Bool
  strokeOver : Bool
  nonZero : Bool
  intent : Option Bytes
  frequency : Option Var

/-- What the program asked for. -/
def gsTold (p : GsParams) : GsCall → GsParams
  | .fillOpacity v => { p with fillOpacity := some v }
  | .strokeOpacity v => { p with strokeOpacity := some v }
  | .blend n => { p with blend := some n }
  | .over b => { p with fillOver := b, strokeOver := b }
  | .fillOver b => { p with fillOver := b }
  | .strokeOver b => { p with strokeOver := b }
  | .nonZero b => { p with nonZero := b }
  | .intent n => { p with intent := some n }
  | .frequency v => { p with frequency := some v }

def gsAsked (cs : List GsCall) : GsParams := cs.foldl gsTold ⟨none, none, none, false, false, false, none, none⟩

def flagAt (k : Bytes) (d : FDict) : Option Bool :=
  match SMap.find? k d with
  | some (.bool b) => some b
  | _ => none

def nameAt (k : Bytes) (d : FDict) : Option Bytes :=
  match SMap.find? k d with
  | some (.name n) => some n
  | _ => none

def freqAt (d : FDict) : Option Var :=
  match SMap.find? (litBytes "HT") d with
  | some (.dict h) => SMap.find? (litBytes "Frequency") h
  | _ => none

/-- What a reader of the file takes (ISO 32000-1, table 58): /OP is the overprint of strokes, and of fills too unless there is an /op. -/
def gsRead (d : FDict) : GsParams :=
  ⟨SMap.find? (litBytes "ca") d, SMap.find? (litBytes "CA") d, nameAt (litBytes "BM") d,
    (flagAt (litBytes "op") d).getD ((flagAt (litBytes "OP") d).getD false), (flagAt (litBytes "OP") d).getD false,
    (match SMap.find? (litBytes "OPM") d with | some (.num 1) => true | _ => false), nameAt (litBytes "RI") d, freqAt d⟩

/-- Overprinting is set for both only before it is set for fills, and for strokes alone only after. -/
def GsOrder : Bool → List GsCall → Prop
  | _, [] => True
  | s, .over _ :: cs => s = false ∧ GsOrder s cs
  | _, .fillOver _ :: cs => GsOrder true cs
  | s, .strokeOver _ :: cs => s = true ∧ GsOrder s cs
  | s, _ :: cs => GsOrder s cs

/-- No call of a program sets the overprint of fills, alone or with that of strokes. -/
def GsNoFill (cs : List GsCall) : Prop := ∀ c ∈ cs, (∀ b, c ≠ .fillOver b) ∧ ∀ b, c ≠ .over b

end Spec

open Spec in
theorem gs_step (d : FDict) (p : GsParams) (s : Bool) (c : GsCall) (cs : List GsCall) (h : gsRead d = p) (hs : (flagAt (litBytes "op") d).isSome = s)
    (ho : GsOrder s (c :: cs)) : gsRead (gsCall d c) = gsTold p c ∧ ∃ s', (flagAt (litBytes "op") (gsCall d c)).isSome = s' ∧ GsOrder s' cs := by
  subst h
  have k1 : ∀ (a b : Bytes) (v : Var), a ≠ b → SMap.find? a (SMap.insert b v d) = SMap.find? a d := fun a b v hab => SMap.find_insert_ne v d hab
  have k2 : ∀ (a : Bytes) (v : Var), SMap.find? a (SMap.insert a v d) = some v := fun a v => SMap.find_insert_self a v d
  cases c with
  | fillOpacity v =>
    refine ⟨?_, s, ?_, ho⟩
    · simp only [gsRead, gsCall, gsTold, flagAt, nameAt, freqAt, k2, k1 (litBytes "CA") (litBytes "ca") v (by decide), k1 (litBytes "BM") (litBytes "ca") v (by decide),
        k1 (litBytes "op") (litBytes "ca") v (by decide), k1 (litBytes "OP") (litBytes "ca") v (by decide), k1 (litBytes "OPM") (litBytes "ca") v (by decide),
        k1 (litBytes "RI") (litBytes "ca") v (by decide), k1 (litBytes "HT") (litBytes "ca") v (by decide)]
    · simp only [gsCall, flagAt, k1 (litBytes "op") (litBytes "ca") v (by decide)]; exact hs
  | strokeOpacity v =>
    refine ⟨?_, s, ?_, ho⟩
    · simp only [gsRead, gsCall, gsTold, flagAt, nameAt, freqAt, k2, k1 (litBytes "ca") (litBytes "CA") v (by decide), k1 (litBytes "BM") (litBytes "CA") v (by decide),
        k1 (litBytes "op") (litBytes "CA") v (by decide), k1 (litBytes "OP") (litBytes "CA") v (by decide), k1 (litBytes "OPM") (litBytes "CA") v (by decide),
        k1 (litBytes "RI") (litBytes "CA") v (by decide), k1 (litBytes "HT") (litBytes "CA") v (by decide)]
    · simp only [gsCall, flagAt, k1 (litBytes "op") (litBytes "CA") v (by decide)]; exact hs
  | blend n =>
    refine ⟨?_, s, ?_, ho⟩
    · simp only [gsRead, gsCall, gsTold, flagAt, nameAt, freqAt, k2, k1 (litBytes "ca") (litBytes "BM") _ (by decide), k1 (litBytes "CA") (litBytes "BM") _ (by decide),
        k1 (litBytes "op") (litBytes "BM") _ (by decide), k1 (litBytes "OP") (litBytes "BM") _ (by decide), k1 (litBytes "OPM") (litBytes "BM") _ (by decide),
        k1 (litBytes "RI") (litBytes "BM") _ (by decide), k1 (litBytes "HT") (litBytes "BM") _ (by decide)]
    · simp only [gsCall, flagAt, k1 (litBytes "op") (litBytes "BM") _ (by decide)]; exact hs
  | over b =>
    have h0 : s = false := ho.1
    have hn : flagAt (litBytes "op") d = none := by
      cases hq : flagAt (litBytes "op") d with
      | none => rfl
      | some b' => rw [hq, h0] at hs; simp at hs
    have hn' : flagAt (litBytes "op") (SMap.insert (litBytes "OP") (.bool b) d) = none := by
      unfold flagAt at hn ⊢; rw [k1 (litBytes "op") (litBytes "OP") _ (by decide)]; exact hn
    have hy : flagAt (litBytes "OP") (SMap.insert (litBytes "OP") (.bool b) d) = some b := by unfold flagAt; rw [k2]
    refine ⟨?_, s, ?_, ho.2⟩
    · simp only [gsRead, gsCall, gsTold, hn', hy, nameAt, freqAt, k1 (litBytes "ca") (litBytes "OP") _ (by decide), k1 (litBytes "CA") (litBytes "OP") _ (by decide),
        k1 (litBytes "BM") (litBytes "OP") _ (by decide), k1 (litBytes "OPM") (litBytes "OP") _ (by decide), k1 (litBytes "RI") (litBytes "OP") _ (by decide),
        k1 (litBytes "HT") (litBytes "OP") _ (by decide), Option.getD_some, Option.getD_none]
    · simp only [gsCall, hn', h0]; rfl
  | fillOver b =>
    have hy : flagAt (litBytes "op") (SMap.insert (litBytes "op") (.bool b) d) = some b := by unfold flagAt; rw [k2]
    have hn : flagAt (litBytes "OP") (SMap.insert (litBytes "op") (.bool b) d) = flagAt (litBytes "OP") d := by
      unfold flagAt; rw [k1 (litBytes "OP") (litBytes "op") _ (by decide)]
    refine ⟨?_, true, ?_, ho⟩
    · simp only [gsRead, gsCall, gsTold, hy, hn, nameAt, freqAt, k1 (litBytes "ca") (litBytes "op") _ (by decide), k1 (litBytes "CA") (litBytes "op") _ (by decide),
        k1 (litBytes "BM") (litBytes "op") _ (by decide), k1 (litBytes "OPM") (litBytes "op") _ (by decide), k1 (litBytes "RI") (litBytes "op") _ (by decide),
        k1 (litBytes "HT") (litBytes "op") _ (by decide), Option.getD_some]
    · simp only [gsCall, hy]; rfl
  | strokeOver b =>
    have h0 : s = true := ho.1
    obtain ⟨b', hb'⟩ : ∃ b', flagAt (litBytes "op") d = some b' := by
      rw [h0] at hs; exact Option.isSome_iff_exists.1 hs
    have hn' : flagAt (litBytes "op") (SMap.insert (litBytes "OP") (.bool b) d) = some b' := by
      unfold flagAt at hb' ⊢; rw [k1 (litBytes "op") (litBytes "OP") _ (by decide)]; exact hb'
    have hy : flagAt (litBytes "OP") (SMap.insert (litBytes "OP") (.bool b) d) = some b := by unfold flagAt; rw [k2]
    refine ⟨?_, s, ?_, ho.2⟩
    · simp only [gsRead, gsCall, gsTold, hn', hb', hy, nameAt, freqAt, k1 (litBytes "ca") (litBytes "OP") _ (by decide), k1 (litBytes "CA") (litBytes "OP") _ (by decide),
        k1 (litBytes "BM") (litBytes "OP") _ (by decide), k1 (litBytes "OPM") (litBytes "OP") _ (by decide), k1 (litBytes "RI") (litBytes "OP") _ (by decide),
        k1 (litBytes "HT") (litBytes "OP") _ (by decide), Option.getD_some]
    · simp only [gsCall, hn', h0]; rfl
  | nonZero b =>
    refine ⟨?_, s, ?_, ho⟩
    · simp only [gsRead, gsCall, gsTold, flagAt, nameAt, freqAt, k2, k1 (litBytes "ca") (litBytes "OPM") _ (by decide), k1 (litBytes "CA") (litBytes "OPM") _ (by decide),
        k1 (litBytes "op") (litBytes "OPM") _ (by decide), k1 (litBytes "OP") (litBytes "OPM") _ (by decide), k1 (litBytes "BM") (litBytes "OPM") _ (by decide),
        k1 (litBytes "RI") (litBytes "OPM") _ (by decide), k1 (litBytes "HT") (litBytes "OPM") _ (by decide)]
      cases b <;> rfl
    · simp only [gsCall, flagAt, k1 (litBytes "op") (litBytes "OPM") _ (by decide)]; exact hs
  | intent n =>
    refine ⟨?_, s, ?_, ho⟩
    · simp only [gsRead, gsCall, gsTold, flagAt, nameAt, freqAt, k2, k1 (litBytes "ca") (litBytes "RI") _ (by decide), k1 (litBytes "CA") (litBytes "RI") _ (by decide),
        k1 (litBytes "op") (litBytes "RI") _ (by decide), k1 (litBytes "OP") (litBytes "RI") _ (by decide), k1 (litBytes "OPM") (litBytes "RI") _ (by decide),
        k1 (litBytes "BM") (litBytes "RI") _ (by decide), k1 (litBytes "HT") (litBytes "RI") _ (by decide)]
    · simp only [gsCall, flagAt, k1 (litBytes "op") (litBytes "RI") _ (by decide)]; exact hs
  | frequency v =>
    have hf : SMap.find? (litBytes "Frequency") (halftone v) = some v := by
      simp only [halftone]
      rw [SMap.find_insert_ne _ _ (by decide), SMap.find_insert_ne _ _ (by decide), SMap.find_insert_self]
    refine ⟨?_, s, ?_, ho⟩
    · simp only [gsRead, gsCall, gsTold, flagAt, nameAt, freqAt, k2, hf, k1 (litBytes "ca") (litBytes "HT") _ (by decide), k1 (litBytes "CA") (litBytes "HT") _ (by decide),
        k1 (litBytes "op") (litBytes "HT") _ (by decide), k1 (litBytes "OP") (litBytes "HT") _ (by decide), k1 (litBytes "OPM") (litBytes "HT") _ (by decide),
        k1 (litBytes "BM") (litBytes "HT") _ (by decide), k1 (litBytes "RI") (litBytes "HT") _ (by decide)]
    · simp only [gsCall, flagAt, k1 (litBytes "op") (litBytes "HT") _ (by decide)]; exact hs

theorem gs_fold (cs : List GsCall) (d : FDict) (p : Spec.GsParams) (s : Bool) (h : Spec.gsRead d = p) (hs : (Spec.flagAt (litBytes "op") d).isSome = s)
    (ho : Spec.GsOrder s cs) : Spec.gsRead (cs.foldl gsCall d) = cs.foldl Spec.gsTold p := by
  induction cs generalizing d p s with
  | nil => exact h
  | cons c cs ih =>
    obtain ⟨h1, s', h2, h3⟩ := gs_step d p s c cs h hs ho
    exact ih _ _ s' h1 h2 h3

/-- **C186, with overprinting in order.** After every program of calls in which overprinting is set for both only before it is set for fills, and for strokes
alone only after, a reader takes exactly the parameters that were asked for. -/
theorem C186_gstate_partial (cs : List GsCall) (h : Spec.GsOrder false cs) : Spec.gsRead (gsRun cs) = Spec.gsAsked cs :=
  gs_fold cs _ _ false rfl rfl h

/-- Not vacuous: all calls, in an order that is allowed. -/
example : Spec.GsOrder false [.over true, .fillOpacity (.num 1), .fillOver false, .strokeOver true, .nonZero true, .frequency (.num 60), .blend (litBytes "Multiply"),
    .strokeOpacity (.num 0), .intent (litBytes "Perceptual")] := by simp [Spec.GsOrder]

/-- **C186, the halftone.** After any calls and then a frequency, the halftone a reader finds is one of type 1 with that frequency, at 45 degrees, of simple dots: the
four entries a halftone of type 1 must have (ISO 32000-1, table 130). -/
theorem C186_halftone (cs : List GsCall) (v : Var) : ∃ h, SMap.find? (litBytes "HT") (gsRun (cs ++ [.frequency v])) = some (.dict h) ∧
    SMap.find? (litBytes "HalftoneType") h = some (.num 1) ∧ SMap.find? (litBytes "Frequency") h = some v ∧
    SMap.find? (litBytes "Angle") h = some (.real false 45 0) ∧ SMap.find? (litBytes "SpotFunction") h = some (.name (litBytes "SimpleDot")) := by
  refine ⟨halftone v, ?_, ?_, ?_, ?_, ?_⟩
  · simp only [gsRun, List.foldl_append, List.foldl_cons, List.foldl_nil, gsCall, SMap.find_insert_self]
  · simp only [halftone]
    rw [SMap.find_insert_ne _ _ (by decide), SMap.find_insert_ne _ _ (by decide), SMap.find_insert_ne _ _ (by decide), SMap.find_insert_self]
  · simp only [halftone]
    rw [SMap.find_insert_ne _ _ (by decide), SMap.find_insert_ne _ _ (by decide), SMap.find_insert_self]
  · simp only [halftone]
    rw [SMap.find_insert_ne _ _ (by decide), SMap.find_insert_self]
  · simp only [halftone, SMap.find_insert_self]

theorem gs_append (cs : List GsCall) (c : GsCall) : gsRun (cs ++ [c]) = gsCall (gsRun cs) c := by simp [gsRun, List.foldl_append]

theorem gsAsked_append (cs : List GsCall) (c : GsCall) : Spec.gsAsked (cs ++ [c]) = Spec.gsTold (Spec.gsAsked cs) c := by
  simp [Spec.gsAsked, List.foldl_append]

/-- The overprint of fills that is in the dictionary is kept by every other call. -/
theorem gs_op (cs : List GsCall) (hc : ∀ c ∈ cs, ∀ b, c ≠ .fillOver b) (d : FDict) : Spec.flagAt (litBytes "op") (cs.foldl gsCall d) = Spec.flagAt (litBytes "op") d := by
  induction cs generalizing d with
  | nil => rfl
  | cons c cs ih =>
    rw [List.foldl_cons, ih (fun x hx => hc x (by simp [hx]))]
    have := hc c (by simp)
    unfold Spec.flagAt
    cases c <;> first | exact absurd rfl (this _) | (simp only [gsCall]; rw [SMap.find_insert_ne _ _ (by decide)])

/-- **C186, overprinting for both.** After any calls, fills set alone, any calls that do not set them alone again, and then overprinting set for both to the other
value: fills stay as they were. -/
theorem C186_both_false (cs cs' : List GsCall) (b : Bool) (hc : ∀ c ∈ cs', ∀ b, c ≠ .fillOver b) :
    (Spec.gsRead (gsRun (cs ++ .fillOver b :: cs' ++ [.over (!b)]))).fillOver = b ∧ (Spec.gsAsked (cs ++ .fillOver b :: cs' ++ [.over (!b)])).fillOver = !b := by
  refine ⟨?_, by rw [gsAsked_append]; rfl⟩
  have h1 : Spec.flagAt (litBytes "op") (gsRun (cs ++ .fillOver b :: cs' ++ [.over (!b)])) = some b := by
    unfold gsRun
    rw [List.append_assoc, List.foldl_append, List.cons_append, List.foldl_cons,
      gs_op _ (fun c h => (List.mem_append.1 h).elim (hc c) (fun h => by simp at h; subst h; simp))]
    simp only [gsCall, Spec.flagAt, SMap.find_insert_self]
  simp only [Spec.gsRead, h1, Option.getD_some]

theorem gs_nofill (cs : List GsCall) (hc : Spec.GsNoFill cs) (p : Spec.GsParams) : (cs.foldl Spec.gsTold p).fillOver = p.fillOver := by
  induction cs generalizing p with
  | nil => rfl
  | cons c cs ih =>
    rw [List.foldl_cons, ih (fun x hx => hc x (by simp [hx]))]
    have := hc c (by simp)
    cases c <;> first | rfl | exact absurd rfl (this.1 _) | exact absurd rfl (this.2 _)

/-- **C186, overprinting for strokes.** After any calls that never set the overprint of fills, overprinting set for strokes alone is set for fills too. -/
theorem C186_stroke_false (cs : List GsCall) (hc : Spec.GsNoFill cs) :
    (Spec.gsRead (gsRun (cs ++ [.strokeOver true]))).fillOver = true ∧ (Spec.gsAsked (cs ++ [.strokeOver true])).fillOver = false := by
  constructor
  · have h1 : Spec.flagAt (litBytes "op") (gsRun (cs ++ [.strokeOver true])) = none := by
      unfold gsRun
      rw [gs_op _ (fun c h => (List.mem_append.1 h).elim (fun h => (hc c h).1) (fun h => by simp at h; subst h; simp))]
      rfl
    have h2 : Spec.flagAt (litBytes "OP") (gsRun (cs ++ [.strokeOver true])) = some true := by
      rw [gs_append]; simp only [gsCall, Spec.flagAt, SMap.find_insert_self]
    simp only [Spec.gsRead, h1, h2, Option.getD_some, Option.getD_none]
  · rw [gsAsked_append]
    exact gs_nofill cs hc _

/-- Not vacuous: histories of other calls before and between. -/
example : Spec.GsNoFill [.fillOpacity (.num 1), .blend (litBytes "Screen")] ∧ ∀ c ∈ [GsCall.strokeOpacity (.num 0), .nonZero true], ∀ b, c ≠ .fillOver b := by
  constructor
  · intro c hc; simp at hc; rcases hc with rfl | rfl <;> simp
  · intro c hc; simp at hc; rcases hc with rfl | rfl <;> simp

end Pdfmm
