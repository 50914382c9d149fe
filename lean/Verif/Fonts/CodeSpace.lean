import Verif.Fonts.CharMap
/-
Reading and writing strings with a code map: the limits of a map, and the conversions of a font's encoding between
encoded strings and text.
-/
set_option autoImplicit false
namespace Pdfmm
open Spec

/-! ### Model -/

/-- `PdfCharCode::AppendTo`, `src/pdfmm/base/PdfEncodingCommon.cpp:38-42`, for a code of `n` bytes.  Codes of more than four
bytes shift by more bits than an `unsigned` has, which is undefined: theorems ask for at most four. -/
def codeBytes (code : Nat) : Nat → Bytes
  | 0 => []
  | n + 1 => UInt8.ofNat (code / 256 ^ n % 256) :: codeBytes code n

/-- `tryGetNextCodePoints`, `src/pdfmm/base/PdfEncodingMap.cpp:202-238`: the loop, with the code read so far and the number of
its next byte.  The counter is eight bits wide in the code, which shows only for codes of 255 bytes. -/
def scanCode (mn mx : Nat) (look : CharCode → Option (List Nat)) : Nat → Nat → Bytes → Option (List Nat × Bytes)
  | _, _, [] => .none
  | code, i, b :: r =>
    if i > mx then .none
    else if i < mn then scanCode mn mx look ((code * 256 + b.toNat) % 4294967296) (i + 1) r
    else
      match look ⟨(code * 256 + b.toNat) % 4294967296, i⟩ with
      | some cps => some (cps, r)
      | .none => scanCode mn mx look ((code * 256 + b.toNat) % 4294967296) (i + 1) r

/-- The loop of `fetchFallbackCharCode`, `src/pdfmm/base/PdfEncoding.cpp:526-542`. -/
def fetchRest (mn : Nat) : Nat → Nat → Bytes → CharCode × Bytes
  | code, i, [] => (⟨code, i⟩, [])
  | code, i, b :: r =>
    if i = mn then (⟨code, i⟩, b :: r)
    else fetchRest mn ((code * 256 + b.toNat) % 4294967296) ((i + 1) % 256) r

/-- The code points that are written, `src/pdfmm/base/PdfEncoding.cpp:208-216`. -/
def keepPoint (cp : Nat) : Bool := cp ≠ 0 && cpValid cp

/-- What is appended for some code points, `src/pdfmm/base/PdfEncoding.cpp:205-216`. -/
def keptText (cps : List Nat) : Bytes := utf8Encode (cps.filter keepPoint)

/-- `tryConvertEncodedToUtf8`, `src/pdfmm/base/PdfEncoding.cpp:184-220`: the result and the text.  The number bounds the rounds. -/
def toUtf8 (l : CodeLimits) (look : CharCode → Option (List Nat)) : Nat → Bytes → Res (Bool × Bytes)
  | _, [] => .ok (true, [])
  | 0, _ :: _ => .error .diverge
  | n + 1, b :: r =>
    match scanCode l.minSize l.maxSize look 0 1 (b :: r) with
    | some (cps, rest) =>
      match toUtf8 l look n rest with
      | .error e => .error e
      | .ok (ok, t) => .ok (ok, keptText cps ++ t)
    | .none =>
      match toUtf8 l look n (fetchRest l.minSize b.toNat 1 r).2 with
      | .error e => .error e
      | .ok (_, t) => .ok (false, keptText [(fetchRest l.minSize b.toNat 1 r).1.code] ++ t)

/-- The loop of `TryConvertToEncoded` for a font loaded from a document, `src/pdfmm/base/PdfEncoding.cpp:94-114`, with a map
that supports ligatures (`TryGetNextCharCode`, `src/pdfmm/base/PdfEncodingMap.cpp:38-62`).  `none` is the result false. -/
def toEncoded (t : CPTree) : Nat → Bytes → Res (Option Bytes)
  | _, [] => .ok (some [])
  | 0, _ :: _ => .error .diverge
  | n + 1, b :: r =>
    match CPTree.next ((b :: r).length + 1) t (b :: r) with
    | .error e => .error e
    | .ok (.none, _) => .ok .none
    | .ok (some c, rest) =>
      match toEncoded t n rest with
      | .error e => .error e
      | .ok .none => .ok .none
      | .ok (some e) => .ok (some (codeBytes c.code c.size ++ e))

/-- `PdfCMapEncoding`, `src/pdfmm/base/PdfCMapEncoding.h:17-42`: a map and its own limits. -/
structure CMapEnc where
  map : CodeMap
  limits : CodeLimits

/-- `PdfEncoding::TryConvertToUtf8` through a CMap, `src/pdfmm/base/PdfEncoding.cpp:73-76`. -/
def CMapEnc.decode (e : CMapEnc) (s : Bytes) : Res (Bool × Bytes) := toUtf8 e.limits e.map.codePoints s.length s

/-- `PdfEncoding::TryConvertToEncoded` through a CMap, `src/pdfmm/base/PdfEncoding.cpp:87-114`. -/
def CMapEnc.encode (e : CMapEnc) (order : List (CharCode × List Nat)) (text : Bytes) : Res (Option Bytes) :=
  toEncoded (e.map.revise order).tree text.length text

/-- `PdfCharCodeMap::move`, `src/pdfmm/base/PdfCharCodeMap.cpp:45-52`, with `utls::move`,
`src/pdfmm/private/PdfDeclarationsPrivate.h:330-335`: the new map and what is left of the old one. -/
def CodeMap.move (z : Nat) (m : CodeMap) : CodeMap × CodeMap := (m, ⟨[], .init z, .nil, false⟩)

/-- `PdfCMapEncoding::PdfCMapEncoding(PdfCharCodeMap&&)`, `src/pdfmm/base/PdfCMapEncoding.cpp:41-45`: the limits are a reference
into the map given, and are copied after the base class has moved the map away. -/
def CMapEnc.ofMap (z : Nat) (m : CodeMap) : CMapEnc := ⟨(m.move z).1, (m.move z).2.limits⟩

/-! ### Specification -/

namespace Spec

/-- The codes can be written in their number of bytes, which is one to four. -/
def ProperCodes (ps : List (CharCode × List Nat)) : Prop :=
  ∀ x ∈ ps, 1 ≤ x.1.size ∧ x.1.size ≤ 4 ∧ x.1.code < 256 ^ x.1.size

/-- No beginning of a code, read as a number, is the value of a code: only beginnings at least as long as the shortest
code count. -/
def NoBeginning (ps : List (CharCode × List Nat)) : Prop :=
  ∀ x ∈ ps, ∀ y ∈ ps, ∀ w ∈ ps, ∀ i, w.1.size ≤ i → i < x.1.size → x.1.code / 256 ^ (x.1.size - i) ≠ y.1.code

/-- Text that a document can hold: scalar values other than zero. -/
def IsText (cps : List Nat) : Prop := ∀ cp ∈ cps, IsScalar cp ∧ cp ≠ 0

end Spec

/-! ### Limits -/

/-- What the limits of a map say about the codes pushed. -/
structure LimitsOf (z : Nat) (ps : List (CharCode × List Nat)) (l : CodeLimits) : Prop where
  min_le : ∀ x ∈ ps, l.minSize ≤ x.1.size
  le_max : ∀ x ∈ ps, x.1.size ≤ l.maxSize
  min_is : ps ≠ [] → ∃ x ∈ ps, x.1.size = l.minSize
  max_is : ps ≠ [] → ∃ x ∈ ps, x.1.size = l.maxSize
  first_le : ∀ x ∈ ps, l.first.code ≤ x.1.code
  le_last : ∀ x ∈ ps, x.1.code ≤ l.last.code
  first_is : (∃ x ∈ ps, x.1 = l.first) ∨ ((∀ x ∈ ps, x.1.code = 4294967295) ∧ l.first = ⟨4294967295, 4⟩)
  last_is : (∃ x ∈ ps, x.1 = l.last) ∨ ((∀ x ∈ ps, x.1.code = 0) ∧ l.last = ⟨0, z⟩)
  empty : ps = [] → l.minSize = 255 ∧ l.maxSize = 0

theorem CodeMap.reach_limits {z : Nat} {ps : List (CharCode × List Nat)} {m : CodeMap} (h : CodeMap.Reach z ps m)
    (hsz : ∀ x ∈ ps, x.1.size ≤ 255 ∧ x.1.code ≤ 4294967295) : LimitsOf z ps m.limits := by
  induction h with
  | init => refine ⟨by simp, by simp, by simp, by simp, by simp, by simp, Or.inr ?_, Or.inr ?_, fun _ => ⟨rfl, rfl⟩⟩
            · exact ⟨by simp, rfl⟩
            · exact ⟨by simp, rfl⟩
  | @lookup ps m order _ hp ih =>
    have := ih hsz
    rw [CodeMap.revise]; split <;> exact this
  | @push ps m m' c cps _ hpush ih =>
    have ih := ih (fun x hx => hsz x (List.mem_append_left _ hx))
    have hc := hsz (c, cps) (by simp)
    simp only at hc
    rw [CodeMap.push] at hpush
    split at hpush
    · simp at hpush
    · split at hpush
      · simp at hpush
      · rename_i hpos
        simp only [Except.ok.injEq] at hpush
        subst hpush
        simp only [CodeLimits.push]
        have hmem : ∀ x, x ∈ ps ++ [(c, cps)] ↔ x ∈ ps ∨ x = (c, cps) := by simp
        have mnle : ∀ x ∈ ps ++ [(c, cps)], (if c.size < m.limits.minSize then c.size else m.limits.minSize) ≤ x.1.size := by
          intro x hx
          rcases (hmem x).1 hx with hx | rfl
          · have := ih.min_le x hx; split <;> omega
          · split <;> simp only <;> omega
        have lemx : ∀ x ∈ ps ++ [(c, cps)], x.1.size ≤ (if c.size > m.limits.maxSize then c.size else m.limits.maxSize) := by
          intro x hx
          rcases (hmem x).1 hx with hx | rfl
          · have := ih.le_max x hx; split <;> omega
          · split <;> simp only <;> omega
        refine ⟨mnle, lemx, ?_, ?_, ?_, ?_, ?_, ?_, by simp⟩
        · intro _
          dsimp only
          split
          · exact ⟨(c, cps), by simp, rfl⟩
          · by_cases hps : ps = []
            · refine ⟨(c, cps), by simp, ?_⟩
              have := (ih.empty hps).1
              simp only; omega
            · obtain ⟨x, hx, he⟩ := ih.min_is hps
              exact ⟨x, List.mem_append_left _ hx, he⟩
        · intro _
          dsimp only
          split
          · exact ⟨(c, cps), by simp, rfl⟩
          · by_cases hps : ps = []
            · have := (ih.empty hps).2
              exfalso; omega
            · obtain ⟨x, hx, he⟩ := ih.max_is hps
              exact ⟨x, List.mem_append_left _ hx, he⟩
        · intro x hx
          dsimp only
          rcases (hmem x).1 hx with hx | rfl
          · have := ih.first_le x hx
            split <;> omega
          · split <;> simp only <;> omega
        · intro x hx
          dsimp only
          rcases (hmem x).1 hx with hx | rfl
          · have := ih.le_last x hx
            split <;> omega
          · split <;> simp only <;> omega
        · dsimp only
          split
          · exact Or.inl ⟨(c, cps), by simp, rfl⟩
          · rename_i hlt
            rcases ih.first_is with ⟨x, hx, he⟩ | ⟨h1, h2⟩
            · exact Or.inl ⟨x, List.mem_append_left _ hx, he⟩
            · right
              refine ⟨?_, h2⟩
              intro x hx
              rcases (hmem x).1 hx with hx | rfl
              · exact h1 x hx
              · rw [h2] at hlt; simp only at *; omega
        · dsimp only
          split
          · exact Or.inl ⟨(c, cps), by simp, rfl⟩
          · rename_i hlt
            rcases ih.last_is with ⟨x, hx, he⟩ | ⟨h1, h2⟩
            · exact Or.inl ⟨x, List.mem_append_left _ hx, he⟩
            · right
              refine ⟨?_, h2⟩
              intro x hx
              rcases (hmem x).1 hx with hx | rfl
              · exact h1 x hx
              · rw [h2] at hlt; simp only at *; omega

/-- **C93**, partial.  After any history the limits of a map are the smallest and the biggest size and the smallest and the biggest
code pushed; the last code is one that was pushed unless all codes are zero. -/
theorem C93_limits_partial {z : Nat} {ps : List (CharCode × List Nat)} {m : CodeMap} (h : CodeMap.Reach z ps m)
    (hsz : ∀ x ∈ ps, x.1.size ≤ 255 ∧ x.1.code < 4294967295) (hne : ∃ x ∈ ps, 0 < x.1.code) :
    (∃ x ∈ ps, x.1.size = m.limits.minSize) ∧ (∀ x ∈ ps, m.limits.minSize ≤ x.1.size) ∧
    (∃ x ∈ ps, x.1.size = m.limits.maxSize) ∧ (∀ x ∈ ps, x.1.size ≤ m.limits.maxSize) ∧
    (∃ x ∈ ps, x.1 = m.limits.first) ∧ (∀ x ∈ ps, m.limits.first.code ≤ x.1.code) ∧
    (∃ x ∈ ps, x.1 = m.limits.last) ∧ (∀ x ∈ ps, x.1.code ≤ m.limits.last.code) := by
  obtain ⟨y, hy, hy0⟩ := hne
  have hn : ps ≠ [] := by intro e; rw [e] at hy; simp at hy
  have l := CodeMap.reach_limits h (fun x hx => ⟨(hsz x hx).1, Nat.le_of_lt (hsz x hx).2⟩)
  refine ⟨l.min_is hn, l.min_le, l.max_is hn, l.le_max, ?_, l.first_le, ?_, l.le_last⟩
  · rcases l.first_is with h | ⟨h, _⟩
    · exact h
    · have := h y hy; have := (hsz y hy).2; omega
  · rcases l.last_is with h | ⟨h, _⟩
    · exact h
    · have := h y hy; omega

/-- **C93** is false: after pushing nothing but the code zero, whatever its size, the last code of the limits has a size which is no
code's but the value of a conversion the language leaves undefined. -/
theorem C93_zero_code_false {z : Nat} {ps : List (CharCode × List Nat)} {m : CodeMap} (h : CodeMap.Reach z ps m)
    (hsz : ∀ x ∈ ps, x.1.size ≤ 255 ∧ x.1.code = 0 ∧ x.1.size ≠ z) : m.limits.last = ⟨0, z⟩ := by
  have l := CodeMap.reach_limits h (fun x hx => ⟨(hsz x hx).1, by rw [(hsz x hx).2.1]; omega⟩)
  rcases l.last_is with ⟨x, hx, he⟩ | ⟨_, h⟩
  · exfalso
    -- the last code would have been stored by a push of a code above zero
    have key : m.limits.last = ⟨0, z⟩ := by
      clear l he hx x
      induction h with
      | init => rfl
      | @lookup ps m order _ hp ih => have := ih hsz; rw [CodeMap.revise]; split <;> exact this
      | @push ps m m' c cps _ hpush ih =>
        have ih := ih (fun x hx => hsz x (List.mem_append_left _ hx))
        have hc := (hsz (c, cps) (by simp)).2.1
        simp only at hc
        rw [CodeMap.push] at hpush
        split at hpush
        · simp at hpush
        · split at hpush
          · simp at hpush
          · simp only [Except.ok.injEq] at hpush
            subst hpush
            simp only [CodeLimits.push]
            rw [ih, hc]
            rfl
    have := (hsz x hx).2.2
    rw [he, key] at this
    exact this rfl
  · exact h

/-! ### Lookup by code -/

/-- **C92**, partial.  When no two codes pushed have the same value, a code pushed is looked up with the code points last pushed for it. -/
theorem C92_code_points_partial {z : Nat} {ps : List (CharCode × List Nat)} {m : CodeMap} (h : CodeMap.Reach z ps m)
    (h1 : OneSize ps) (c : CharCode) (hc : ∀ x ∈ ps, x.1.code = c.code → x.1 = c) (cps : List Nat) :
    m.codePoints c = some cps ↔ Maps ps c cps := by
  have inv := CodeMap.reach_inv h
  rw [CodeMap.codePoints, ← inv.maps h1, mem_pairs inv.sorted]
  cases hf : SMap.find? c.code m.units with
  | none => simp
  | some y =>
    obtain ⟨x, hx, hx2⟩ := inv.from_ps c.code y.1 y.2 hf
    have := hc x hx (by rw [hx2])
    rw [hx2] at this
    have hs : y.1 = c.size := by rw [← this]
    constructor
    · intro hh; simp only [Option.map_some, Option.some.injEq] at hh; rw [← hs, ← hh]
    · intro hh; simp only [Option.some.injEq] at hh; rw [hh]; rfl

/-- **C92** is false: when a code has been pushed, every code of the same value and another size is found, with the code points last pushed
for a code of that value. -/
theorem C92_other_size_false {z : Nat} {ps : List (CharCode × List Nat)} {m m' : CodeMap} (h : CodeMap.Reach z ps m)
    (c : CharCode) (cps : List Nat) (hp : m.push c cps = .ok m') (s : Nat) :
    m'.codePoints ⟨c.code, s⟩ = some cps := by
  rw [CodeMap.push] at hp
  split at hp
  · simp at hp
  · split at hp
    · simp at hp
    · simp only [Except.ok.injEq] at hp
      subst hp
      simp only [CodeMap.codePoints]
      rw [setUnit_find, if_pos rfl]
      rfl

/-! ### Encoding and decoding -/

theorem scan_code (mn mx : Nat) (look : CharCode → Option (List Nat)) (code size : Nat) (cps : List Nat) (rest : Bytes)
    (h32 : code < 4294967296) (hmn : mn ≤ size) (hmx : size ≤ mx) (hlook : look ⟨code, size⟩ = some cps)
    (hno : ∀ i, mn ≤ i → i < size → look ⟨code / 256 ^ (size - i), i⟩ = .none) :
    ∀ k i, i + k = size + 1 → 1 ≤ i → 0 < k →
      scanCode mn mx look (code / 256 ^ k) i (codeBytes code k ++ rest) = some (cps, rest) := by
  intro k
  induction k with
  | zero => intro i _ _ h; omega
  | succ k ih =>
    intro i hi h1 _
    have hstep : code / 256 ^ (k + 1) * 256 + code / 256 ^ k % 256 = code / 256 ^ k := by
      rw [show code / 256 ^ (k + 1) = code / 256 ^ k / 256 by
        rw [Nat.pow_succ, ← Nat.div_div_eq_div_mul]]
      omega
    have hlt : code / 256 ^ k < 4294967296 := Nat.lt_of_le_of_lt (Nat.div_le_self _ _) h32
    have hb : (UInt8.ofNat (code / 256 ^ k % 256)).toNat = code / 256 ^ k % 256 :=
      toNat_ofNat_lt (by omega)
    rw [codeBytes, List.cons_append, scanCode, hb, hstep, Nat.mod_eq_of_lt hlt, if_neg (by omega)]
    by_cases hk : k = 0
    · subst hk
      have hie : i = size := by omega
      rw [hie, if_neg (by omega), Nat.pow_zero, Nat.div_one, hlook]
      rfl
    · by_cases him : i < mn
      · rw [if_pos him]
        exact ih (i + 1) (by omega) (by omega) (by omega)
      · rw [if_neg him, show k = size - i by omega, hno i (by omega) (by omega)]
        simp only
        rw [← show k = size - i by omega]
        exact ih (i + 1) (by omega) (by omega) (by omega)

theorem filter_text {cps : List Nat} (h : IsText cps) : cps.filter keepPoint = cps := by
  rw [List.filter_eq_self]
  intro cp hcp
  obtain ⟨h1, h2⟩ := h cp hcp
  rw [keepPoint, (cpValid_iff cp).2 h1]
  simpa using h2

theorem codeBytes_length (code n : Nat) : (codeBytes code n).length = n := by
  induction n with
  | zero => rfl
  | succ n ih => simp [codeBytes, ih]

/-- One round of the conversion to text. -/
theorem toUtf8_round (l : CodeLimits) (look : CharCode → Option (List Nat)) (n : Nat) (s rest : Bytes) (cps : List Nat)
    (hs : s ≠ []) (h : scanCode l.minSize l.maxSize look 0 1 s = some (cps, rest)) :
    toUtf8 l look (n + 1) s =
      match toUtf8 l look n rest with
      | .error e => .error e
      | .ok (ok, t) => .ok (ok, keptText cps ++ t) := by
  cases s with
  | nil => exact absurd rfl hs
  | cons b r => rw [toUtf8, h]

theorem encode_decode_aux {z : Nat} {ps : List (CharCode × List Nat)} {m : CodeMap} (h : CodeMap.Reach z ps m) (h1 : OneSize ps)
    (h2 : ProperCodes ps) (h3 : NoBeginning ps) {order : List (CharCode × List Nat)} (ho : order.Perm m.pairs)
    (n : Nat) : ∀ (cps : List Nat), IsText cps → ∀ (e : Bytes), (utf8Encode cps).length ≤ n →
      toEncoded (m.revise order).tree n (utf8Encode cps) = .ok (some e) →
      ∀ k, e.length ≤ k → toUtf8 m.limits m.codePoints k e = .ok (true, utf8Encode cps) := by
  obtain ⟨o, hp, ht, hsp⟩ := CodeMap.codeOf_eq h ho
  have inv := CodeMap.reach_inv h
  have hm := inv.maps h1
  have hlim := CodeMap.reach_limits h (fun x hx => by
    obtain ⟨a, b, c⟩ := h2 x hx
    have : (256 : Nat) ^ x.1.size ≤ 256 ^ 4 := Nat.pow_le_pow_right (by omega) b
    simp only [Nat.reducePow] at this
    omega)
  have hval : ∀ q, ((m.revise order).tree.val q).size ≠ 0 → Maps ps ((m.revise order).tree.val q) q := by
    intro q
    have hv : (m.revise order).tree.val q = (lastCode o q).getD CharCode.none := by
      rw [ht]; exact CPTree.val_build o q (fun x hx => (inv.good x (hp.mem_iff.1 hx)).1)
    rw [hv]
    cases hl : lastCode o q with
    | none => exact fun hh => absurd rfl hh
    | some c => exact fun _ => (hm c q).1 (hp.mem_iff.1 (lastCode_mem hl))
  induction n with
  | zero =>
    intro cps htx e hlen henc k hk
    have hnil : utf8Encode cps = [] := List.eq_nil_of_length_eq_zero (by omega)
    rw [hnil, toEncoded] at henc
    simp only [Except.ok.injEq, Option.some.injEq] at henc
    subst henc
    rw [hnil]; cases k <;> rfl
  | succ n ih =>
    intro cps htx e hlen henc k hk
    cases hcs : utf8Encode cps with
    | nil =>
      rw [hcs, toEncoded] at henc
      simp only [Except.ok.injEq, Option.some.injEq] at henc
      subst henc
      cases k <;> rfl
    | cons b r =>
      have hne : cps ≠ [] := by rintro rfl; simp [utf8Encode] at hcs
      have hcl : cps.length ≤ (utf8Encode cps).length + 1 := by
        have : ∀ l : List Nat, l.length ≤ (utf8Encode l).length := by
          intro l
          induction l with
          | nil => simp
          | cons a b ih =>
            have : utf8Encode (a :: b) = utf8Append a ++ utf8Encode b := rfl
            rw [this, List.length_append, List.length_cons]
            have := utf8Append_length a
            omega
        have := this cps
        omega
      rw [hcs, toEncoded, ← hcs] at henc
      rcases CPTree.next_longest ((utf8Encode cps).length + 1) (m.revise order).tree cps (fun c hc => (htx c hc).1) hne hcl with
        ⟨p, r', c, g1, g2, g3, g4, g5, _⟩ | ⟨r', g1, _⟩
      · rw [g5] at henc
        simp only at henc
        split at henc
        · simp at henc
        · simp at henc
        · rename_i e' he'
          simp only [Except.ok.injEq, Option.some.injEq] at henc
          have hM : Maps ps c p := g3 ▸ hval p (g3 ▸ g4)
          obtain ⟨A, B, hAB, _⟩ := hM
          have hcmem : (c, p) ∈ ps := by rw [hAB]; simp
          obtain ⟨c1, c2, c3⟩ := h2 _ hcmem
          simp only at c1 c2 c3
          have hpe : 0 < (utf8Encode p).length := by
            cases p with
            | nil => exact absurd rfl g2
            | cons a p =>
              have : utf8Encode (a :: p) = utf8Append a ++ utf8Encode p := rfl
              rw [this, List.length_append]
              have := utf8Append_length a
              omega
          have hr'len : (utf8Encode r').length ≤ n := by
            have := congrArg (fun l => (utf8Encode l).length) g1
            simp only [utf8Encode_append, List.length_append] at this
            omega
          have hp' : IsText p := fun x hx => htx x (by rw [g1]; exact List.mem_append_left _ hx)
          have hr' : IsText r' := fun x hx => htx x (by rw [g1]; exact List.mem_append_right _ hx)
          have hlook : m.codePoints ⟨c.code, c.size⟩ = some p := by
            rw [CodeMap.codePoints]
            rw [(mem_pairs inv.sorted c p).1 ((hm c p).2 (g3 ▸ hval p (g3 ▸ g4)))]
            rfl
          have hno : ∀ i, m.limits.minSize ≤ i → i < c.size → m.codePoints ⟨c.code / 256 ^ (c.size - i), i⟩ = .none := by
            intro i hi1 hi2
            obtain ⟨w, hw, hw2⟩ := hlim.min_is (by intro e; rw [e] at hcmem; simp at hcmem)
            rw [CodeMap.codePoints]
            cases hf : SMap.find? (c.code / 256 ^ (c.size - i)) m.units with
            | none => rfl
            | some y =>
              obtain ⟨x, hx, hx2⟩ := inv.from_ps _ y.1 y.2 hf
              exact absurd (by rw [hx2]) (h3 _ hcmem x hx w hw i (by omega) hi2)
          have h32 : c.code < 4294967296 := by
            have : (256 : Nat) ^ c.size ≤ 256 ^ 4 := Nat.pow_le_pow_right (by omega) c2
            simp only [Nat.reducePow] at this
            omega
          have hscan := scan_code m.limits.minSize m.limits.maxSize m.codePoints c.code c.size p e' h32
            (hlim.min_le _ hcmem) (hlim.le_max _ hcmem) hlook hno c.size 1 (by omega) (by omega) (by omega)
          rw [Nat.div_eq_of_lt c3] at hscan
          rw [← henc, List.length_append, codeBytes_length] at hk
          cases k with
          | zero => exfalso; omega
          | succ k =>
            rw [← henc, toUtf8_round _ _ _ _ e' p (by
              intro hh; have := congrArg List.length hh
              rw [List.length_append, codeBytes_length] at this; simp only [List.length_nil] at this; omega) hscan,
              ih r' hr' e' hr'len he' k (by omega)]
            simp only
            rw [keptText, filter_text hp', ← utf8Encode_append, ← g1, hcs]
      · rw [g1] at henc
        simp at henc

/-- **C94**, partial.  For a map whose codes can be told apart while they are read, a text that was encoded with the map is decoded to the same
text, whatever history and shuffle the map went through. -/
theorem C94_encode_decode_partial {z : Nat} {ps : List (CharCode × List Nat)} {m : CodeMap} (h : CodeMap.Reach z ps m) (h1 : OneSize ps)
    (h2 : ProperCodes ps) (h3 : NoBeginning ps) {order : List (CharCode × List Nat)} (ho : order.Perm m.pairs)
    (cps : List Nat) (ht : IsText cps) (e : Bytes)
    (he : (CMapEnc.mk m m.limits).encode order (utf8Encode cps) = .ok (some e)) :
    (CMapEnc.mk m m.limits).decode e = .ok (true, utf8Encode cps) :=
  encode_decode_aux h h1 h2 h3 ho _ cps ht e (Nat.le_refl _) he _ (Nat.le_refl _)

/-- Codes of one size can be told apart while they are read. -/
theorem noBeginning_of_size {ps : List (CharCode × List Nat)} {n : Nat} (h : ∀ x ∈ ps, x.1.size = n) : NoBeginning ps := by
  intro x hx y hy w hw i h1 h2
  have := h x hx; have := h w hw; omega

theorem oneSize_of_size {ps : List (CharCode × List Nat)} {n : Nat} (h : ∀ x ∈ ps, x.1.size = n) : OneSize ps := by
  intro x hx y hy he
  have := h x hx; have := h y hy
  rcases x with ⟨⟨a, b⟩, _⟩; rcases y with ⟨⟨c, d⟩, _⟩
  simp only at *
  subst_vars; rfl

/-- **C94** for codes of one size, the usual case. -/
theorem C94_one_size_partial {z n : Nat} {ps : List (CharCode × List Nat)} {m : CodeMap} (h : CodeMap.Reach z ps m)
    (h1 : ∀ x ∈ ps, x.1.size = n) (h2 : ProperCodes ps) {order : List (CharCode × List Nat)} (ho : order.Perm m.pairs)
    (cps : List Nat) (ht : IsText cps) (e : Bytes)
    (he : (CMapEnc.mk m m.limits).encode order (utf8Encode cps) = .ok (some e)) :
    (CMapEnc.mk m m.limits).decode e = .ok (true, utf8Encode cps) :=
  C94_encode_decode_partial h (oneSize_of_size h1) h2 (noBeginning_of_size h1) ho cps ht e he

/-- **C94** is false: in a map with a one byte code, a two byte code whose first byte is the value of some other code of whatever size is
decoded as this other code followed by something else. -/
theorem C94_mixed_sizes_false {z : Nat} {ps : List (CharCode × List Nat)} {m : CodeMap} (h : CodeMap.Reach z ps m) (h1 : OneSize ps)
    (h2 : ProperCodes ps) (hone : ∃ x ∈ ps, x.1.size = 1) (hi lo : Byte) (d : CharCode) (cps : List Nat)
    (hd : Maps ps d cps) (hv : d.code = hi.toNat) :
    scanCode m.limits.minSize m.limits.maxSize m.codePoints 0 1 [hi, lo] = some (cps, [lo]) := by
  have inv := CodeMap.reach_inv h
  have hlim := CodeMap.reach_limits h (fun x hx => by
    obtain ⟨a, b, c⟩ := h2 x hx
    have : (256 : Nat) ^ x.1.size ≤ 256 ^ 4 := Nat.pow_le_pow_right (by omega) b
    simp only [Nat.reducePow] at this
    omega)
  obtain ⟨x, hx, hx1⟩ := hone
  have hmin : m.limits.minSize ≤ 1 := hx1 ▸ hlim.min_le x hx
  have hmax : 1 ≤ m.limits.maxSize := hx1 ▸ hlim.le_max x hx
  have hlt := hi.toNat_lt
  rw [scanCode, if_neg (by omega), if_neg (by omega)]
  have : (0 * 256 + hi.toNat) % 4294967296 = d.code := by rw [hv]; omega
  rw [this, CodeMap.codePoints]
  simp only
  rw [(mem_pairs inv.sorted d cps).1 ((inv.maps h1 d cps).2 hd)]
  rfl

/-- **C96** is false: a CMap encoding made from a map never decodes a code, because its limits are taken from the map after it was moved
away. -/
theorem C96_moved_limits_false (z : Nat) (m : CodeMap) (s : Bytes) :
    (CMapEnc.ofMap z m).limits = .init z ∧
    scanCode (CMapEnc.ofMap z m).limits.minSize (CMapEnc.ofMap z m).limits.maxSize (CMapEnc.ofMap z m).map.codePoints 0 1 s = .none := by
  refine ⟨rfl, ?_⟩
  cases s with
  | nil => rfl
  | cons b r => rw [scanCode, if_pos (show 1 > (CMapEnc.ofMap z m).limits.maxSize from Nat.zero_lt_one)]

theorem fetchRest_length (mn : Nat) (s : Bytes) (code i : Nat) : (fetchRest mn code i s).2.length ≤ s.length := by
  induction s generalizing code i with
  | nil => exact Nat.le_refl _
  | cons b r ih =>
    rw [fetchRest]
    split
    · exact Nat.le_refl _
    · exact Nat.le_trans (ih _ _) (Nat.le_succ _)

theorem scanCode_length (mn mx : Nat) (look : CharCode → Option (List Nat)) (s rest : Bytes) (code i : Nat) (cps : List Nat)
    (h : scanCode mn mx look code i s = some (cps, rest)) : rest.length < s.length := by
  induction s generalizing code i with
  | nil => simp [scanCode] at h
  | cons b r ih =>
    rw [scanCode] at h
    split at h
    · simp at h
    · split at h
      · exact Nat.lt_succ_of_lt (ih _ _ h)
      · split at h
        · simp only [Option.some.injEq, Prod.mk.injEq] at h
          rw [← h.2]; exact Nat.lt_succ_self _
        · exact Nat.lt_succ_of_lt (ih _ _ h)

theorem keptText_valid (cps : List Nat) : ∃ t, keptText cps = utf8Encode t ∧ IsText t := by
  refine ⟨cps.filter keepPoint, rfl, ?_⟩
  intro cp hcp
  have := (List.mem_filter.1 hcp).2
  rw [keepPoint, Bool.and_eq_true] at this
  exact ⟨(cpValid_iff cp).1 this.2, by simpa using this.1⟩

/-- **C95**.  Converting an encoded string to text ends for every map, every limits and every string, and what it writes is valid UTF-8
without zero characters. -/
theorem C95_decode_total (e : CMapEnc) (s : Bytes) :
    ∃ ok t, e.decode s = .ok (ok, utf8Encode t) ∧ IsText t := by
  have key : ∀ n (s : Bytes), s.length ≤ n →
      ∃ ok t, toUtf8 e.limits e.map.codePoints n s = .ok (ok, utf8Encode t) ∧ IsText t := by
    intro n
    induction n with
    | zero =>
      intro s h
      have : s = [] := List.eq_nil_of_length_eq_zero (by omega)
      subst this
      exact ⟨true, [], rfl, by intro cp hcp; simp at hcp⟩
    | succ n ih =>
      intro s h
      cases s with
      | nil => exact ⟨true, [], rfl, by intro cp hcp; simp at hcp⟩
      | cons b r =>
        rw [toUtf8]
        cases hs : scanCode e.limits.minSize e.limits.maxSize e.map.codePoints 0 1 (b :: r) with
        | some x =>
          obtain ⟨cps, rest⟩ := x
          have hl := scanCode_length _ _ _ _ _ _ _ _ hs
          obtain ⟨ok, t, h1, h2⟩ := ih rest (by omega)
          obtain ⟨t', h3, h4⟩ := keptText_valid cps
          simp only
          rw [h1]
          refine ⟨ok, t' ++ t, by simp only; rw [h3, utf8Encode_append], ?_⟩
          intro cp hcp
          rcases List.mem_append.1 hcp with hcp | hcp
          · exact h4 cp hcp
          · exact h2 cp hcp
        | none =>
          have hl := fetchRest_length e.limits.minSize r b.toNat 1
          obtain ⟨ok, t, h1, h2⟩ := ih (fetchRest e.limits.minSize b.toNat 1 r).2 (by
            simp only [List.length_cons] at h; omega)
          obtain ⟨t', h3, h4⟩ := keptText_valid [(fetchRest e.limits.minSize b.toNat 1 r).1.code]
          simp only
          rw [h1]
          refine ⟨false, t' ++ t, by simp only; rw [h3, utf8Encode_append], ?_⟩
          intro cp hcp
          rcases List.mem_append.1 hcp with hcp | hcp
          · exact h4 cp hcp
          · exact h2 cp hcp
  exact key s.length s (Nat.le_refl _)

/-! ### Non-vacuity -/

/-- The text `ffi` through the sample map: the ligature `fi` is one code. -/
example : ∃ m, CodeMap.Reach 1 sampleMap m ∧ (∀ x ∈ sampleMap, x.1.size = 1) ∧ ProperCodes sampleMap ∧
    (CMapEnc.mk m m.limits).encode m.pairs [102, 102, 105] = .ok (some [1, 2]) ∧
    (CMapEnc.mk m m.limits).decode [1, 2] = .ok (true, [102, 102, 105]) := by
  refine ⟨_, reach_pushAll .init rfl, by simp [sampleMap], by simp [ProperCodes, sampleMap], by decide, by decide⟩

/-- Codes of one and two bytes that can be told apart: 01, 0200. -/
example : NoBeginning [(⟨1, 1⟩, [65]), (⟨512, 2⟩, [66])] := by
  intro x hx y hy w hw i h1 h2
  simp only [List.mem_cons, List.not_mem_nil, or_false] at hx hy hw
  rcases hx with rfl | rfl <;> rcases hy with rfl | rfl <;> rcases hw with rfl | rfl <;>
    simp only at h1 h2 ⊢ <;> first | omega | (have : i = 1 := by omega
                                              subst this; decide)

/-- The codes 01, 0002 and 0200: the string 02 00 is read as the code 0002. -/
example : ∃ m, CodeMap.Reach 1 [(⟨1, 1⟩, [65]), (⟨2, 2⟩, [66]), (⟨512, 2⟩, [67])] m ∧
    (CMapEnc.mk m m.limits).encode m.pairs [67] = .ok (some [2, 0]) ∧
    (CMapEnc.mk m m.limits).decode [2, 0] = .ok (false, [66]) := by
  refine ⟨_, reach_pushAll (qs := [(⟨1, 1⟩, [65]), (⟨2, 2⟩, [66]), (⟨512, 2⟩, [67])]) .init rfl, by decide, by decide⟩

end Pdfmm
