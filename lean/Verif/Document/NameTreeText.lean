import Verif.Document.NameTree
/-
Name trees in documents that have been saved and loaded: the keys are strings as they were read, whose texts have not been looked at.
-/
set_option autoImplicit false
namespace Pdfmm
open Spec

variable {V : Type}

/-! ### Model -/

/-- The loop over the names with strings as keys, `src/pdfmm/base/PdfNameTree.cpp:374-391`. -/
def leafGet (key : PStr) : List (PStr × V) → Option V
  | [] => none
  | (k, v) :: r => if k.eq key then some v else leafGet key r

/-- The loop of `AddValue` with strings as keys, `src/pdfmm/base/PdfNameTree.cpp:103-132`.  Simplification: that `GetString` also
leaves the text in the string is not shown, as the loop never comes back to a key. -/
def leafAdd (key : PStr) (v : V) : List (PStr × V) → Res (List (PStr × V))
  | [] => .ok [(key, v)]
  | (k, w) :: r =>
    if k.eq key then .ok ((k, v) :: r)
    else
      match k.getString, key.getString with
      | .ok a, .ok b =>
        if bytesLt b a then .ok ((key, v) :: (k, w) :: r)
        else
          match leafAdd key v r with
          | .error e => .error e
          | .ok r => .ok ((k, w) :: r)
      | .error e, _ => .error e
      | _, .error e => .error e

/-! ### Specification -/

namespace Spec

/-- The string `q` is what is read from a file in which `p` was written. -/
def Reloaded (p q : PStr) : Prop := ∃ w data, p.write = .ok w ∧ ReadAs w data p.hex ∧ q = PStr.ofRaw data p.hex

/-- The names of a leaf after saving and loading. -/
inductive ReloadedNames : List (PStr × V) → List (PStr × V) → Prop
  | nil : ReloadedNames [] []
  | cons {p q : PStr} {v : V} {l m : List (PStr × V)} : Reloaded p q → ReloadedNames l m → ReloadedNames ((p, v) :: l) ((q, v) :: m)

/-- A character written as its ASCII code. -/
def IsPlain (c : Nat) : Prop := c < 0x80 ∧ InPdfDoc c

end Spec

/-! ### C104 -/

theorem ofText_valid {t : Bytes} {p : PStr} (h : PStr.ofText t = .ok p) : p.isValidText = true ∧ p.chars = t ∧ p.hex = false := by
  rw [PStr.ofText] at h
  split at h
  · cases h; rename_i e; rw [e]; exact ⟨rfl, rfl, rfl⟩
  · cases hc : docCheck t with
    | none => rw [hc] at h; cases h
    | some x =>
      obtain ⟨r, a⟩ := x
      rw [hc] at h
      cases r with
      | true =>
        cases h
        refine ⟨?_, rfl, rfl⟩
        cases a <;> rfl
      | false => cases h; exact ⟨rfl, rfl, rfl⟩

theorem eq_valid {q p : PStr} (h : p.isValidText = true) : q.eq p = (q.chars == p.chars) := by
  rw [PStr.eq, if_pos (Or.inr (Or.inr h))]

theorem reloaded_data {p q : PStr} {d : Bytes} (hd : p.data = .ok d) (h : Reloaded p q) : q = PStr.ofRaw d p.hex := by
  obtain ⟨w, data, h1, h2, h3⟩ := h
  rw [PStr.write, hd] at h1
  have e : w = writeString d p.hex := by
    have : Except.ok (writeString d p.hex) = (Except.ok w : Res Bytes) := h1
    cases this; rfl
  rw [e] at h2
  rw [h3, readAs_inj h2 (readAs_write d p.hex)]

theorem reloaded_exists {p : PStr} {d : Bytes} (hd : p.data = .ok d) : Reloaded p (PStr.ofRaw d p.hex) :=
  ⟨writeString d p.hex, d, by rw [PStr.write, hd]; rfl, readAs_write d p.hex, rfl⟩

theorem plain_byte (x : Byte) : docFind (docAt x) = some x → docAt x < 0x80 → x.toNat = docAt x :=
  forall_byte (P := fun x => docFind (docAt x) = some x → docAt x < 0x80 → x.toNat = docAt x) (by decide +kernel) x

/-- The bytes written for a text are its UTF-8 bytes exactly when all characters are plain. -/
theorem data_eq_text (cps : List Nat) (hs : ∀ c ∈ cps, IsScalar c) :
    ∃ p d, PStr.ofText (utf8Encode cps) = .ok p ∧ p.data = .ok d ∧ (d = utf8Encode cps ↔ ∀ c ∈ cps, IsPlain c) := by
  by_cases hin : ∀ c ∈ cps, InPdfDoc c
  · obtain ⟨p, b, h1, h2, h3, h4, h5, h6⟩ := ofText_doc cps hs hin
    refine ⟨p, b, h1, h2, ?_⟩
    have e1 : (fromDoc b).1 = utf8Encode cps := by rw [fromDoc_text, h4]
    have e2 := fromDoc_flag_iff b
    rw [e1, fromDoc_flag, List.all_eq_true] at e2
    constructor
    · intro e c hc
      refine ⟨?_, hin c hc⟩
      rw [← h4] at hc
      obtain ⟨x, hx, rfl⟩ := List.mem_map.1 hc
      have := e2.2 e.symm x hx
      simp only [Bool.and_eq_true, decide_eq_true_eq] at this
      rw [docAt_spec] at this
      exact this.1
    · intro h
      refine (e2.1 ?_).symm
      intro x hx
      have hm : docAt x ∈ cps := by
        rw [← h4, docAt_spec]
        exact List.mem_map.2 ⟨x, hx, rfl⟩
      have h7 := (h _ hm).1
      simp only [Bool.and_eq_true, decide_eq_true_eq]
      exact ⟨h7, plain_byte x (h6 x hx) h7⟩
  · obtain ⟨c, hc⟩ := Classical.not_forall.1 hin
    obtain ⟨hc1, hc2⟩ := Classical.not_imp.1 hc
    obtain ⟨p, h1, h2, h3⟩ := ofText_unicode cps hs ⟨c, hc1, hc2⟩
    refine ⟨p, _, h1, h3, ?_⟩
    constructor
    · intro e
      exfalso
      have e' : be16 (0xFEFF :: cps.flatMap utf16Append) = 0xFE :: 0xFF :: be16 (cps.flatMap utf16Append) := be16_cons _ _
      rw [e'] at e
      cases cps with
      | nil => cases hc1
      | cons a r =>
        rw [utf8Encode_cons] at e
        have hl := utf8Append_spec a (scalar_le (hs a List.mem_cons_self))
        cases ha : utf8Append a with
        | nil =>
          have := utf8Append_length a
          rw [ha] at this; simp at this
        | cons x y =>
          rw [ha] at e hl
          have hx : x = 0xFE := (List.cons.inj e).1.symm
          have hsc := scalar_le (hs a List.mem_cons_self)
          rw [hx] at hl
          have h0 : (utf8Of a).head? = some 254 := by rw [← hl]; rfl
          rw [utf8Of] at h0
          split at h0
          · simp at h0; omega
          · split at h0
            · simp at h0; omega
            · split at h0
              · simp at h0; omega
              · simp at h0; omega
    · intro h
      exact absurd (h c hc1).2 hc2

/-- C104, the part that holds: when all keys of a leaf have plain characters only, the value found for a key after saving and loading is
the one it had before, and none for other plain keys. -/
theorem C104_reloaded_keys_partial (texts : List (List Nat × V)) (hs : ∀ e ∈ texts, ∀ c ∈ e.1, IsPlain c) (key : List Nat)
    (hk : ∀ c ∈ key, IsPlain c) :
    ∃ names p, texts.mapM (fun e => (PStr.ofText (utf8Encode e.1)).map fun p => (p, e.2)) = .ok names ∧ PStr.ofText (utf8Encode key) = .ok p ∧
      ∀ loaded, ReloadedNames names loaded → leafGet p loaded = (texts.find? fun e => e.1 = key).map (·.2) := by
  have sc : ∀ {l : List Nat}, (∀ c ∈ l, IsPlain c) → ∀ c ∈ l, IsScalar c := by
    intro l h c hc
    have := (h c hc).1
    exact Or.inl (by omega)
  obtain ⟨p, d, h1, h2, h3⟩ := data_eq_text key (sc hk)
  obtain ⟨v1, v2, _⟩ := ofText_valid h1
  induction texts with
  | nil =>
    refine ⟨[], p, rfl, h1, ?_⟩
    intro loaded hl
    cases hl
    rfl
  | cons e r ih =>
    obtain ⟨names, p', g1, g2, g3⟩ := ih (fun x hx => hs x (List.mem_cons_of_mem _ hx))
    rw [h1] at g2; cases g2
    obtain ⟨t, v⟩ := e
    have ht := hs _ (List.mem_cons_self (a := (t, v)) (l := r))
    obtain ⟨q, dq, q1, q2, q3⟩ := data_eq_text t (sc ht)
    refine ⟨(q, v) :: names, p, ?_, h1, ?_⟩
    · rw [List.mapM_cons]
      simp only
      rw [q1, g1]
      rfl
    · intro loaded hl
      cases hl with
      | cons a b =>
        rename_i q' m
        rw [leafGet, eq_valid v1, v2, reloaded_data q2 a, PStr.ofRaw, q3.2 ht, List.find?_cons, g3 m b]
        by_cases e : t = key
        · subst e; simp
        · have hne : utf8Encode t ≠ utf8Encode key := by
            intro he
            apply e
            have h1 := utf8_decode_encode t (sc ht)
            have h2 := utf8_decode_encode key (sc hk)
            rw [he] at h1
            rw [h1] at h2
            exact Option.some.inj h2
          rw [if_neg (by simpa using hne)]
          simp [e]

/-- A key with any other character is not found after saving and loading, and adding a value for it again gives the key twice. -/
theorem C104_other_keys_false (cps : List Nat) (hs : ∀ c ∈ cps, IsScalar c) (hx : ∃ c ∈ cps, ¬ IsPlain c) (v w : V) :
    ∃ p q, PStr.ofText (utf8Encode cps) = .ok p ∧ Reloaded p q ∧ ∀ q, Reloaded p q →
      leafGet p [(q, v)] = none ∧
      (q.getString = .ok (utf8Encode cps) → leafAdd p w [(q, v)] = .ok [(q, v), (p, w)]) := by
  obtain ⟨p, d, h1, h2, h3⟩ := data_eq_text cps hs
  obtain ⟨v1, v2, v3⟩ := ofText_valid h1
  refine ⟨p, PStr.ofRaw d p.hex, h1, reloaded_exists h2, ?_⟩
  intro q hq
  have hq := reloaded_data h2 hq
  have hne : q.eq p = false := by
    rw [eq_valid v1, v2, hq, PStr.ofRaw]
    rw [beq_eq_false_iff_ne]
    intro e
    obtain ⟨c, hc, hc2⟩ := hx
    exact hc2 (h3.1 e c hc)
  refine ⟨?_, ?_⟩
  · rw [leafGet, hne]; rfl
  · intro hg
    have hp : p.getString = .ok (utf8Encode cps) := by
      rw [PStr.getString, PStr.eval]
      cases hst : p.state with
      | raw => rw [PStr.isValidText, hst] at v1; simp at v1
      | ascii => simp only; rw [← v2]; rfl
      | pdfDoc => simp only; rw [← v2]; rfl
      | unicode => simp only; rw [← v2]; rfl
    rw [leafAdd, hne, hg, hp]
    simp only [Bool.false_eq_true, if_false]
    have : bytesLt (utf8Encode cps) (utf8Encode cps) = false := StrictOrd.irrefl (K := List UInt8) _
    rw [this]
    rfl

/-- Worse, one key is taken for another: the bytes of “Ã©” in PDFDocEncoding are those of “é” in UTF-8. -/
theorem C104_wrong_key_false (v : V) : ∃ p q k, PStr.ofText (utf8Encode [0xC3, 0xA9]) = .ok p ∧ Reloaded p q ∧ PStr.ofText (utf8Encode [0xE9]) = .ok k ∧
    leafGet k [(q, v)] = some v := by
  refine ⟨⟨.pdfDoc, [0xC3, 0x83, 0xC2, 0xA9], false⟩, PStr.ofRaw [0xC3, 0xA9] false, ⟨.pdfDoc, [0xC3, 0xA9], false⟩, by decide +kernel,
    reloaded_exists (p := ⟨.pdfDoc, [0xC3, 0x83, 0xC2, 0xA9], false⟩) (by decide +kernel), by decide +kernel, ?_⟩
  rw [leafGet, if_pos (by decide +kernel)]

example : ∃ names p, [([0x41, 0x42], 1), ([0x43], 2)].mapM (fun e : List Nat × Nat => (PStr.ofText (utf8Encode e.1)).map fun p => (p, e.2)) = .ok names ∧
    PStr.ofText (utf8Encode [0x43]) = .ok p ∧ ∀ loaded, ReloadedNames names loaded → leafGet p loaded = some 2 :=
  C104_reloaded_keys_partial [([0x41, 0x42], 1), ([0x43], 2)] (by
    intro e he c hc
    simp only [List.mem_cons, List.not_mem_nil, or_false] at he
    rcases he with rfl | rfl
    · simp only [List.mem_cons, List.not_mem_nil, or_false] at hc
      rcases hc with rfl | rfl
      · exact ⟨by omega, 0x41, by decide⟩
      · exact ⟨by omega, 0x42, by decide⟩
    · simp only [List.mem_cons, List.not_mem_nil, or_false] at hc
      rcases hc with rfl
      exact ⟨by omega, 0x43, by decide⟩) [0x43] (by
    intro c hc
    simp only [List.mem_cons, List.not_mem_nil, or_false] at hc
    rcases hc with rfl
    exact ⟨by omega, 0x43, by decide⟩)

example (v w : Nat) : ∃ p q, PStr.ofText (utf8Encode [0x41, 0x3B1]) = .ok p ∧ Reloaded p q ∧ ∀ q, Reloaded p q → leafGet p [(q, v)] = none ∧
    (q.getString = .ok (utf8Encode [0x41, 0x3B1]) → leafAdd p w [(q, v)] = .ok [(q, v), (p, w)]) :=
  C104_other_keys_false [0x41, 0x3B1] (by simp [IsScalar]) ⟨0x3B1, by simp, fun h => by have := h.1; omega⟩ v w

end Pdfmm
