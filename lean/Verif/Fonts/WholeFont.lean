import Verif.Fonts.DynamicEncoding
/-
Fonts made without an encoding that are embedded whole: the codes that are given to the characters as texts are encoded, and reading
these texts back.  `src/pdfmm/base/PdfFont.cpp`, `src/pdfmm/base/PdfEncoding.cpp`.  Property C195.
-/
set_option autoImplicit false
namespace Pdfmm
open Spec

/-! ### Model -/

/-- `PdfCharCode(unsigned)`, `src/pdfmm/base/PdfEncodingCommon.cpp:18-21`, for any number.  The size of the code zero comes from the conversion of
an infinite number, `src/pdfmm/private/PdfDeclarationsPrivate.cpp:1064-1067`, which C++ leaves open: it is the first argument. -/
def anyCodeOf (z n : Nat) : CharCode := ⟨n, if n = 0 then z else charCodeSize n⟩

/-- The two maps of a font made without an encoding, `src/pdfmm/base/PdfFont.h:436-437`, with `initBase`,
`src/pdfmm/base/PdfFont.cpp:136-141`. -/
structure WholeFont where
  cids : CodeMap
  points : CodeMap

/-- A new font. -/
def WholeFont.init (z : Nat) : WholeFont := ⟨.init z, .init z⟩

/-- The orders in which the trees of the maps are built, `src/pdfmm/base/PdfCharCodeMap.cpp:223-231`.  A map is built once after each push, so the
order may be taken as a function of the map. -/
abbrev Orders := CodeMap → List (CharCode × List Nat)

/-- `AddCharCodeSafe`, `src/pdfmm/base/PdfFont.cpp:673-691`.  The number of codes is taken to fit in an `unsigned`. -/
def WholeFont.add (z : Nat) (order : Orders) (f : WholeFont) (gid : Nat) (cps : List Nat) : Res (WholeFont × CharCode) :=
  match f.points.codeOf (order f.points) cps with
  | some c => .ok (⟨f.cids, f.points.revise (order f.points)⟩, c)
  | none =>
    (f.cids.push (anyCodeOf z f.points.units.length) [gid]) >>= fun cids =>
    ((f.points.revise (order f.points)).push (anyCodeOf z f.points.units.length) cps) >>= fun points =>
    .ok (⟨cids, points⟩, anyCodeOf z f.points.units.length)

/-- The loop over the glyphs, `src/pdfmm/base/PdfEncoding.cpp:141-154`, with `tryGetCharCode`, `160-173`, of a font that is no subset font. -/
def WholeFont.codes (z : Nat) (order : Orders) : WholeFont → List (Nat × Nat) → Res (WholeFont × Bytes)
  | f, [] => .ok (f, [])
  | f, p :: r =>
    f.add z order p.1 [p.2] >>= fun x =>
    WholeFont.codes z order x.1 r >>= fun y =>
    .ok (y.1, codeBytes x.2.code x.2.size ++ y.2)

/-- `TryConvertToEncoded` for a font that was not loaded, `src/pdfmm/base/PdfEncoding.cpp:87-158`: the font afterwards and, if the result is
true, the encoded text. -/
def WholeFont.encode (z : Nat) (order : Orders) (gid : Nat → Option Nat) (f : WholeFont) (text : List Nat) : Res (WholeFont × Option Bytes) :=
  match glyphsOf gid text with
  | none => .ok (f, none)
  | some ps => f.codes z order ps >>= fun x => .ok (x.1, some x.2)

/-- Texts encoded one after the other. -/
def WholeFont.encodeAll (z : Nat) (order : Orders) (gid : Nat → Option Nat) : WholeFont → List (List Nat) → Res (WholeFont × List (Option Bytes))
  | f, [] => .ok (f, [])
  | f, t :: r =>
    f.encode z order gid t >>= fun x =>
    WholeFont.encodeAll z order gid x.1 r >>= fun y =>
    .ok (y.1, x.2 :: y.2)

/-- `TryConvertToUtf8`, `src/pdfmm/base/PdfEncoding.cpp:73-76`, through the map to Unicode of the font. -/
def WholeFont.decode (f : WholeFont) (s : Bytes) : Res (Bool × Bytes) := toUtf8 f.points.limits f.points.codePoints s.length s

/-- `TryConvertToCIDs`, `src/pdfmm/base/PdfEncoding.cpp:262-265`. -/
def WholeFont.toCids (f : WholeFont) (s : Bytes) : Res (Bool × List Nat) := Pdfmm.toCids f.cids.limits f.cids.codePoints s.length s

/-! ### Specification -/

namespace Spec

/-- The different characters drawn, in the order of their first use. -/
def charsInUse (gid : Nat → Option Nat) (texts : List (List Nat)) : List Nat := firstUses (drawnChars gid texts)

/-- Each order is one of the pairs of the map. -/
def OfPairs (order : CodeMap → List (CharCode × List Nat)) : Prop := ∀ m, (order m).Perm m.pairs

end Spec

/-! ### Proofs -/

/-- A character is noted when it is new. -/
def noteChar (L : List Nat) (c : Nat) : List Nat := if c ∈ L then L else L ++ [c]

/-- The mappings pushed for the characters in use. -/
def charPushes (L : List Nat) : List (CharCode × List Nat) := L.zipIdx.map fun x => (charCodeOf x.2, [x.1])

theorem anyCodeOf_one (n : Nat) : anyCodeOf 1 n = charCodeOf n := by
  rw [anyCodeOf, charCodeOf]
  split
  · rename_i h; subst h; rfl
  · rfl

theorem charPushes_append (L : List Nat) (c : Nat) : charPushes (L ++ [c]) = charPushes L ++ [(charCodeOf L.length, [c])] := by
  simp [charPushes, List.zipIdx_append]

theorem charPushes_mem {L : List Nat} {x : CharCode × List Nat} : x ∈ charPushes L ↔ ∃ (k : Nat) (c : Nat), L[k]? = some c ∧ x = (charCodeOf k, [c]) := by
  rw [charPushes, List.mem_map]
  constructor
  · rintro ⟨⟨p, k⟩, hk, rfl⟩
    rw [List.mem_zipIdx_iff_le_and_getElem?_sub] at hk
    exact ⟨k, p, by simpa using hk.2, rfl⟩
  · rintro ⟨k, p, hk, rfl⟩
    exact ⟨(p, k), by rw [List.mem_zipIdx_iff_le_and_getElem?_sub]; exact ⟨by omega, by simpa using hk⟩, rfl⟩

theorem maps_mem {ps : List (CharCode × List Nat)} {c : CharCode} {cps : List Nat} (h : Maps ps c cps) : (c, cps) ∈ ps := by
  obtain ⟨a, b, rfl, _⟩ := h
  simp

theorem charPushes_maps {L : List Nat} {k c : Nat} (h : L[k]? = some c) : Maps (charPushes L) (charCodeOf k) [c] := by
  obtain ⟨n, hn⟩ : ∃ n, L.length = n := ⟨_, rfl⟩
  induction n generalizing L with
  | zero => rw [List.eq_nil_of_length_eq_zero hn] at h; simp at h
  | succ n ih =>
    obtain ⟨L, d, rfl⟩ : ∃ M d, L = M ++ [d] :=
      ⟨L.dropLast, L.getLast (by intro e; rw [e] at hn; simp at hn), (List.dropLast_concat_getLast _).symm⟩
    rw [List.length_append, List.length_singleton] at hn
    rw [charPushes_append]
    by_cases hk : k < L.length
    · rw [List.getElem?_append_left hk] at h
      obtain ⟨a, b, h1, h2⟩ := ih h (by omega)
      refine ⟨a, b ++ [(charCodeOf L.length, [d])], by rw [h1]; simp, ?_⟩
      intro x hx
      rcases List.mem_append.1 hx with hx | hx
      · exact h2 x hx
      · rw [List.mem_singleton] at hx
        subst hx
        intro e
        have := congrArg CharCode.code e
        simp only [charCodeOf] at this
        omega
    · obtain ⟨hl, _⟩ := List.getElem?_eq_some_iff.1 h
      rw [List.length_append, List.length_singleton] at hl
      obtain rfl : k = L.length := by omega
      rw [List.getElem?_concat_length, Option.some.injEq] at h
      subst h
      exact ⟨charPushes L, [], by simp, by simp⟩

theorem charPushes_oneSize (L : List Nat) : OneSize (charPushes L) := by
  intro x hx y hy e
  obtain ⟨k, c, _, rfl⟩ := charPushes_mem.1 hx
  obtain ⟨k', c', _, rfl⟩ := charPushes_mem.1 hy
  simp only [charCodeOf] at e
  rw [e]

theorem charPushes_unambiguous {L : List Nat} (h : L.Nodup) : Unambiguous (charPushes L) := by
  intro c d cps h1 h2
  obtain ⟨k, x, hk, e1⟩ := charPushes_mem.1 (maps_mem h1)
  obtain ⟨k', x', hk', e2⟩ := charPushes_mem.1 (maps_mem h2)
  simp only [Prod.mk.injEq] at e1 e2
  obtain ⟨rfl, rfl⟩ := e1
  obtain ⟨rfl, e3⟩ := e2
  rw [List.cons.injEq] at e3
  obtain ⟨rfl, _⟩ := e3
  rw [(List.getElem?_inj (List.getElem?_eq_some_iff.1 hk).1 h).1 (hk.trans hk'.symm)]

/-- What holds of a font when `L` are the characters in use. -/
structure WholeInv (G : Nat → Nat) (f : WholeFont) (L : List Nat) : Prop where
  nodup : L.Nodup
  cids : ∀ k : Nat, (SMap.find? k f.cids.units).map (·.2) = (L[k]?).map fun c => [G c]
  points : ∀ k : Nat, (SMap.find? k f.points.units).map (·.2) = (L[k]?).map fun c => [c]
  len : f.points.units.length = L.length
  cmin : f.cids.limits.minSize = if L = [] then 255 else 1
  cmax : L ≠ [] → 1 ≤ f.cids.limits.maxSize
  pmin : f.points.limits.minSize = if L = [] then 255 else 1
  pmax : L ≠ [] → 1 ≤ f.points.limits.maxSize
  reach : CodeMap.Reach 1 (charPushes L) f.points

theorem WholeInv.init (G : Nat → Nat) : WholeInv G (WholeFont.init 1) [] := by
  refine ⟨List.nodup_nil, ?_, ?_, rfl, rfl, by simp, rfl, by simp, CodeMap.Reach.init⟩ <;>
    intro k <;> simp [WholeFont.init, CodeMap.init, SMap.find?]

theorem revise_units (m : CodeMap) (o : List (CharCode × List Nat)) : (m.revise o).units = m.units := by
  rw [CodeMap.revise]; split <;> rfl

theorem revise_limits (m : CodeMap) (o : List (CharCode × List Nat)) : (m.revise o).limits = m.limits := by
  rw [CodeMap.revise]; split <;> rfl

theorem char_push_units {L : List Nat} {us : List (Nat × (Nat × List Nat))} (F : Nat → List Nat) (c : Nat)
    (h : ∀ k : Nat, (SMap.find? k us).map (·.2) = (L[k]?).map F) (k : Nat) :
    (SMap.find? k (setUnit us (charCodeOf L.length) (F c))).map (·.2) = ((L ++ [c])[k]?).map F := by
  rw [setUnit_find]
  by_cases e : k = L.length
  · subst e
    simp [charCodeOf]
  · rw [if_neg (by simpa [charCodeOf] using e), h k]
    by_cases hk : k < L.length
    · rw [List.getElem?_append_left hk]
    · rw [List.getElem?_eq_none (by omega), List.getElem?_eq_none (by simp; omega)]

theorem char_push_min {L : List Nat} {l : CodeLimits} (c : Nat) (h : l.minSize = if L = [] then 255 else 1) :
    (l.push (charCodeOf L.length)).minSize = if L ++ [c] = [] then 255 else 1 := by
  rw [if_neg (by simp)]
  have hp : 1 ≤ (charCodeOf L.length).size := charCodeSize_pos L.length
  simp only [CodeLimits.push]
  by_cases e : L = []
  · subst e
    rw [if_pos rfl] at h
    rw [h]; decide
  · rw [if_neg e] at h
    rw [h, if_neg (by omega)]

theorem char_push_max (l : CodeLimits) (n : Nat) : 1 ≤ (l.push (charCodeOf n)).maxSize := by
  have hp : 1 ≤ (charCodeOf n).size := charCodeSize_pos n
  simp only [CodeLimits.push]
  split <;> omega

/-- One character. -/
theorem WholeInv.add {order : Orders} (ho : OfPairs order) {G : Nat → Nat} {f : WholeFont} {L : List Nat} (i : WholeInv G f L) (c : Nat) :
    ∃ f', f.add 1 order (G c) [c] = .ok (f', charCodeOf ((noteChar L c).idxOf c)) ∧ WholeInv G f' (noteChar L c) := by
  have key := fun d => C56_any_order_partial i.reach (charPushes_oneSize L) (charPushes_unambiguous i.nodup) (ho f.points) [c] d
  have hreach : CodeMap.Reach 1 (charPushes L) (f.points.revise (order f.points)) := CodeMap.Reach.lookup i.reach (ho f.points)
  rw [WholeFont.add]
  by_cases hm : c ∈ L
  · have hk : L[L.idxOf c]? = some c := by
      rw [List.getElem?_eq_getElem (List.idxOf_lt_length_of_mem hm)]; simp
    rw [(key _).2 (charPushes_maps hk), noteChar, if_pos hm]
    refine ⟨_, rfl, i.nodup, i.cids, ?_, ?_, i.cmin, i.cmax, ?_, ?_, hreach⟩
    · simp only [revise_units]; exact i.points
    · simp only [revise_units]; exact i.len
    · simp only [revise_limits]; exact i.pmin
    · simp only [revise_limits]; exact i.pmax
  · have hnone : f.points.codeOf (order f.points) [c] = none := by
      cases hc : f.points.codeOf (order f.points) [c] with
      | none => rfl
      | some d =>
        obtain ⟨k, x, hk, e⟩ := charPushes_mem.1 (maps_mem ((key d).1 hc))
        simp only [Prod.mk.injEq, List.cons.injEq] at e
        obtain ⟨_, rfl, _⟩ := e
        exact absurd (List.mem_of_getElem? hk) hm
    have hs : (charCodeOf L.length).size ≠ 0 := by
      have := charCodeSize_pos L.length
      simp only [charCodeOf]; omega
    have hidx : (L ++ [c]).idxOf c = L.length := by rw [List.idxOf_append, if_neg hm]; simp
    rw [hnone, noteChar, if_neg hm, hidx, i.len, anyCodeOf_one]
    simp only [CodeMap.push]
    rw [if_neg (by simp), if_neg hs, if_neg (by simp), if_neg hs]
    have hnew : SMap.find? L.length f.points.units = none := by
      have := i.points L.length
      rw [List.getElem?_eq_none (Nat.le_refl _), Option.map_none, Option.map_eq_none_iff] at this
      exact this
    refine ⟨_, rfl, ?_, ?_, ?_, ?_, ?_, ?_, ?_, ?_, ?_⟩
    · rw [List.nodup_append]
      exact ⟨i.nodup, by simp, by intro a ha b hb; rw [List.mem_singleton] at hb; subst hb; intro e; subst e; exact hm ha⟩
    · exact char_push_units (fun c => [G c]) c i.cids
    · simp only [revise_units]; exact char_push_units (fun c => [c]) c i.points
    · simp only [revise_units, setUnit]
      have : SMap.find? (charCodeOf L.length).code f.points.units = none := hnew
      rw [this]
      simp only
      rw [insert_length_new _ _ _ this, i.len]; simp
    · exact char_push_min c i.cmin
    · intro _; exact char_push_max _ _
    · simp only [revise_limits]; exact char_push_min c i.pmin
    · intro _; exact char_push_max _ _
    · rw [charPushes_append]
      refine CodeMap.Reach.push hreach ?_
      rw [CodeMap.push, if_neg (by simp), if_neg hs]

/-- The bytes for a character. -/
def charBytes (L : List Nat) (c : Nat) : Bytes := codeBytes (L.idxOf c) (charCodeSize (L.idxOf c))

theorem noteChar_ext (L : List Nat) (c : Nat) : ∃ R, noteChar L c = L ++ R := by
  rw [noteChar]; split
  · exact ⟨[], by simp⟩
  · exact ⟨[c], rfl⟩

theorem noteChars_ext (cs L : List Nat) : ∃ R, cs.foldl noteChar L = L ++ R := by
  induction cs generalizing L with
  | nil => exact ⟨[], by simp⟩
  | cons p r ih =>
    obtain ⟨R, h⟩ := noteChar_ext L p
    obtain ⟨R', h'⟩ := ih (noteChar L p)
    exact ⟨R ++ R', by rw [List.foldl_cons, h', h, List.append_assoc]⟩

theorem noteChar_mem (L : List Nat) (c : Nat) : c ∈ noteChar L c := by
  rw [noteChar]; split
  · assumption
  · simp

theorem noteChars_mem (cs L : List Nat) : ∀ c ∈ cs, c ∈ cs.foldl noteChar L := by
  induction cs generalizing L with
  | nil => simp
  | cons p r ih =>
    intro q hq
    rw [List.foldl_cons]
    rcases List.mem_cons.1 hq with rfl | hq
    · obtain ⟨R, h⟩ := noteChars_ext r (noteChar L q)
      rw [h]
      exact List.mem_append_left _ (noteChar_mem L q)
    · exact ih _ q hq

theorem noteChars_from (cs L : List Nat) : ∀ c ∈ cs.foldl noteChar L, c ∈ L ∨ c ∈ cs := by
  induction cs generalizing L with
  | nil => intro c hc; exact Or.inl hc
  | cons p r ih =>
    intro c hc
    rw [List.foldl_cons] at hc
    rcases ih _ c hc with h | h
    · rw [noteChar] at h
      split at h
      · exact Or.inl h
      · rcases List.mem_append.1 h with h | h
        · exact Or.inl h
        · rw [List.mem_singleton] at h; subst h; exact Or.inr (by simp)
    · exact Or.inr (by simp [h])

theorem charBytes_append {L : List Nat} {c : Nat} (h : c ∈ L) (R : List Nat) : charBytes (L ++ R) c = charBytes L c := by
  rw [charBytes, charBytes, List.idxOf_append, if_pos h]

theorem WholeInv.codes {order : Orders} (ho : OfPairs order) {G : Nat → Nat} {f : WholeFont} {L : List Nat} (i : WholeInv G f L) (cs : List Nat) :
    ∃ f', f.codes 1 order (cs.map fun c => (G c, c)) = .ok (f', cs.flatMap (charBytes (cs.foldl noteChar L))) ∧ WholeInv G f' (cs.foldl noteChar L) := by
  induction cs generalizing f L with
  | nil => exact ⟨f, rfl, i⟩
  | cons p r ih =>
    obtain ⟨f1, h1, i1⟩ := i.add ho p
    obtain ⟨f2, h2, i2⟩ := ih i1
    refine ⟨f2, ?_, i2⟩
    rw [List.map_cons, WholeFont.codes]
    simp only
    rw [h1]
    show (f1.codes 1 order _ >>= _) = _
    rw [h2]
    obtain ⟨R, hR⟩ := noteChars_ext r (noteChar L p)
    rw [List.foldl_cons, List.flatMap_cons]
    show Except.ok _ = Except.ok _
    congr 2
    rw [hR, charBytes_append (noteChar_mem L p)]
    rfl

theorem drawnChars_cons (gid : Nat → Option Nat) (t : List Nat) (r : List (List Nat)) :
    drawnChars gid (t :: r) = (if t.all (fun cp => (gid cp).isSome) then t else []) ++ drawnChars gid r := by
  rw [drawnChars, List.filter_cons]
  split
  · rw [List.flatten_cons]; rfl
  · rw [List.nil_append]; rfl

theorem WholeInv.encodeAll {order : Orders} (ho : OfPairs order) {gid : Nat → Option Nat} {f : WholeFont} {L : List Nat}
    (i : WholeInv (fun c => (gid c).getD 0) f L) (texts : List (List Nat)) :
    ∃ f', f.encodeAll 1 order gid texts = .ok (f', texts.map fun t => if t.all (fun cp => (gid cp).isSome)
        then some (t.flatMap (charBytes ((drawnChars gid texts).foldl noteChar L))) else none) ∧
      WholeInv (fun c => (gid c).getD 0) f' ((drawnChars gid texts).foldl noteChar L) := by
  induction texts generalizing f L with
  | nil => exact ⟨f, rfl, i⟩
  | cons t r ih =>
    rw [WholeFont.encodeAll, WholeFont.encode, glyphsOf_eq, drawnChars_cons]
    by_cases e : t.all (fun cp => (gid cp).isSome)
    · obtain ⟨f1, h1, i1⟩ := i.codes ho t
      obtain ⟨f2, h2, i2⟩ := ih i1
      rw [if_pos e, if_pos e, List.foldl_append]
      refine ⟨f2, ?_, i2⟩
      show ((f.codes 1 order _ >>= _) >>= _) = _
      rw [h1]
      show (f1.encodeAll 1 order gid r >>= _) = _
      rw [h2, List.map_cons, if_pos e]
      show Except.ok _ = Except.ok _
      congr 3
      show some (t.flatMap (charBytes (t.foldl noteChar L))) = _
      congr 1
      obtain ⟨R, hR⟩ := noteChars_ext (drawnChars gid r) (t.foldl noteChar L)
      rw [hR]
      have hm := noteChars_mem t L
      revert hm
      generalize t.foldl noteChar L = M
      intro hm
      clear h1 i1 h2 hR i2 e
      induction t with
      | nil => rfl
      | cons p ps ih' =>
        rw [List.flatMap_cons, List.flatMap_cons, charBytes_append (hm p (by simp)), ih' (fun q hq => hm q (by simp [hq]))]
    · obtain ⟨f2, h2, i2⟩ := ih i
      rw [if_neg e, if_neg e, List.nil_append]
      refine ⟨f2, ?_, i2⟩
      show (f.encodeAll 1 order gid r >>= _) = _
      rw [h2, List.map_cons, if_neg e]
      rfl

theorem charsInUse_eq (gid : Nat → Option Nat) (texts : List (List Nat)) : charsInUse gid texts = (drawnChars gid texts).foldl noteChar [] := rfl

theorem charsInUse_mem {gid : Nat → Option Nat} {texts : List (List Nat)} {c : Nat} : c ∈ charsInUse gid texts ↔ c ∈ drawnChars gid texts := by
  rw [charsInUse_eq]
  constructor
  · intro h
    rcases noteChars_from _ _ c h with h | h
    · simp at h
    · exact h
  · exact noteChars_mem _ _ c

/-- The bytes of one text. -/
theorem whole_at {order : Orders} (ho : OfPairs order) {gid : Nat → Option Nat} {texts : List (List Nat)} {f : WholeFont} {outs : List (Option Bytes)}
    (h : (WholeFont.init 1).encodeAll 1 order gid texts = .ok (f, outs)) {i : Nat} {t : List Nat} {s : Bytes}
    (ht : texts[i]? = some t) (hs : outs[i]? = some (some s)) :
    WholeInv (fun c => (gid c).getD 0) f (charsInUse gid texts) ∧ (∀ cp ∈ t, cp ∈ charsInUse gid texts) ∧
      s = t.flatMap (charBytes (charsInUse gid texts)) := by
  obtain ⟨f', h', inv⟩ := (WholeInv.init fun c => (gid c).getD 0).encodeAll ho (gid := gid) texts
  rw [h] at h'
  simp only [Except.ok.injEq, Prod.mk.injEq] at h'
  obtain ⟨rfl, rfl⟩ := h'
  rw [List.getElem?_map, ht, Option.map_some, Option.some.injEq] at hs
  by_cases e : t.all (fun cp => (gid cp).isSome)
  · rw [if_pos e, Option.some.injEq] at hs
    refine ⟨inv, ?_, hs.symm⟩
    intro cp hcp
    exact charsInUse_mem.2 (List.mem_flatten.2 ⟨t, List.mem_filter.2 ⟨List.mem_of_getElem? ht, e⟩, hcp⟩)
  · rw [if_neg e] at hs; simp at hs

/-- **C195**.  If the size of the code zero comes out as one, every text can be encoded with a font that is embedded whole exactly when the font
has a glyph for each of its characters, whatever was encoded before and in whatever order the maps are searched. -/
theorem C195_encode {order : Orders} (ho : OfPairs order) (gid : Nat → Option Nat) (texts : List (List Nat)) :
    ∃ f outs, (WholeFont.init 1).encodeAll 1 order gid texts = .ok (f, outs) ∧ outs.length = texts.length ∧
      ∀ (i : Nat) (t : List Nat), texts[i]? = some t → ((∃ s, outs[i]? = some (some s)) ↔ ∀ cp ∈ t, ∃ g, gid cp = some g) := by
  obtain ⟨f, h, _⟩ := (WholeInv.init fun c => (gid c).getD 0).encodeAll ho (gid := gid) texts
  refine ⟨f, _, h, by simp, ?_⟩
  intro i t ht
  rw [List.getElem?_map, ht, Option.map_some]
  by_cases e : t.all (fun cp => (gid cp).isSome)
  · rw [if_pos e]
    refine iff_of_true ⟨_, rfl⟩ ?_
    intro cp hcp
    exact Option.isSome_iff_exists.1 ((List.all_eq_true.1 e) cp hcp)
  · rw [if_neg e]
    refine iff_of_false (by simp) ?_
    intro hall
    apply e
    rw [List.all_eq_true]
    intro cp hcp
    exact Option.isSome_iff_exists.2 (hall cp hcp)

/-- **C195**.  The bytes of the texts do not depend on the orders in which the trees are built: the same texts are encoded to the same bytes in every run. -/
theorem C195_same_bytes {order order' : Orders} (ho : OfPairs order) (ho' : OfPairs order') {gid : Nat → Option Nat} {texts : List (List Nat)}
    {f f' : WholeFont} {outs outs' : List (Option Bytes)} (h : (WholeFont.init 1).encodeAll 1 order gid texts = .ok (f, outs))
    (h' : (WholeFont.init 1).encodeAll 1 order' gid texts = .ok (f', outs')) : outs = outs' := by
  obtain ⟨g, hg, _⟩ := (WholeInv.init fun c => (gid c).getD 0).encodeAll ho (gid := gid) texts
  obtain ⟨g', hg', _⟩ := (WholeInv.init fun c => (gid c).getD 0).encodeAll ho' (gid := gid) texts
  rw [h] at hg
  rw [h'] at hg'
  simp only [Except.ok.injEq, Prod.mk.injEq] at hg hg'
  rw [hg.2, hg'.2]

theorem idxOf_at {L : List Nat} {c : Nat} (h : c ∈ L) : L[L.idxOf c]? = some c := by
  rw [List.getElem?_eq_getElem (List.idxOf_lt_length_of_mem h)]; simp

theorem WholeInv.look {G : Nat → Nat} {f : WholeFont} {L : List Nat} (i : WholeInv G f L) {k c : Nat} (size : Nat) (h : L[k]? = some c) :
    f.points.codePoints ⟨k, size⟩ = some [c] ∧ f.cids.codePoints ⟨k, size⟩ = some [G c] := by
  rw [CodeMap.codePoints, CodeMap.codePoints, i.points k, i.cids k, h]
  exact ⟨rfl, rfl⟩

theorem charBytes_one {L : List Nat} {c : Nat} (h : c ∈ L) (hn : L.length ≤ 256) : charBytes L c = [UInt8.ofNat (L.idxOf c)] := by
  have := List.idxOf_lt_length_of_mem h
  rw [charBytes, charCodeSize, if_pos (by omega), codeBytes, codeBytes, Nat.pow_zero, Nat.div_one, Nat.mod_eq_of_lt (by omega)]

/-- **C195**.  While at most 256 different characters are in use, every text encoded so far is read back as it was, also where characters share
a glyph. -/
theorem C195_read_back_partial {order : Orders} (ho : OfPairs order) {gid : Nat → Option Nat} {texts : List (List Nat)} {f : WholeFont}
    {outs : List (Option Bytes)} (h : (WholeFont.init 1).encodeAll 1 order gid texts = .ok (f, outs))
    (hn : (charsInUse gid texts).length ≤ 256) (htext : IsText (drawnChars gid texts))
    {i : Nat} {t : List Nat} {s : Bytes} (ht : texts[i]? = some t) (hs : outs[i]? = some (some s)) :
    f.decode s = .ok (true, utf8Encode t) := by
  obtain ⟨inv, hm, rfl⟩ := whole_at ho h ht hs
  have key : ∀ (t : List Nat) (n : Nat), (∀ cp ∈ t, cp ∈ charsInUse gid texts) → (t.flatMap (charBytes (charsInUse gid texts))).length ≤ n →
      toUtf8 f.points.limits f.points.codePoints n (t.flatMap (charBytes (charsInUse gid texts))) = .ok (true, utf8Encode t) := by
    intro t
    induction t with
    | nil => intro n _ _; rw [List.flatMap_nil, toUtf8]; rfl
    | cons cp r ih =>
      intro n hm hl
      have hcp := hm cp (by simp)
      have hlt := List.idxOf_lt_length_of_mem hcp
      have hb := charBytes_one hcp hn
      have hne : charsInUse gid texts ≠ [] := List.ne_nil_of_mem hcp
      rw [List.flatMap_cons, hb, List.length_append, List.length_singleton] at hl
      obtain ⟨n, rfl⟩ : ∃ k, n = k + 1 := ⟨n - 1, by omega⟩
      rw [List.flatMap_cons, hb, List.singleton_append,
        toUtf8_round _ _ n _ (r.flatMap (charBytes (charsInUse gid texts))) [cp] (by simp)]
      · rw [ih n (fun x hx => hm x (by simp [hx])) (by omega)]
        simp only
        rw [keptText, filter_text, ← utf8Encode_append]
        · rfl
        intro x hx
        rw [List.mem_singleton] at hx
        subst hx
        exact htext _ (charsInUse_mem.1 hcp)
      · refine scan_first _ (by rw [inv.pmin, if_neg hne]) (inv.pmax hne) _ _ _ ?_
        rw [toNat_ofNat_lt (by omega)]
        exact (inv.look 1 (idxOf_at hcp)).1
  exact key t _ hm (Nat.le_refl _)

/-- **C195**.  While at most 256 different characters are in use, the CIDs of every text encoded so far are the glyphs of its characters. -/
theorem C195_cids_partial {order : Orders} (ho : OfPairs order) {gid : Nat → Option Nat} {texts : List (List Nat)} {f : WholeFont}
    {outs : List (Option Bytes)} (h : (WholeFont.init 1).encodeAll 1 order gid texts = .ok (f, outs))
    (hn : (charsInUse gid texts).length ≤ 256)
    {i : Nat} {t : List Nat} {s : Bytes} (ht : texts[i]? = some t) (hs : outs[i]? = some (some s)) :
    ∃ ids, f.toCids s = .ok (true, ids) ∧ ids.map some = t.map gid := by
  obtain ⟨inv, hm, rfl⟩ := whole_at ho h ht hs
  have key : ∀ (t : List Nat) (n : Nat), (∀ cp ∈ t, cp ∈ charsInUse gid texts) → (t.flatMap (charBytes (charsInUse gid texts))).length ≤ n →
      toCids f.cids.limits f.cids.codePoints n (t.flatMap (charBytes (charsInUse gid texts))) = .ok (true, t.map fun c => (gid c).getD 0) := by
    intro t
    induction t with
    | nil => intro n _ _; rw [List.flatMap_nil, Pdfmm.toCids]; rfl
    | cons cp r ih =>
      intro n hm hl
      have hcp := hm cp (by simp)
      have hlt := List.idxOf_lt_length_of_mem hcp
      have hb := charBytes_one hcp hn
      have hne : charsInUse gid texts ≠ [] := List.ne_nil_of_mem hcp
      rw [List.flatMap_cons, hb, List.length_append, List.length_singleton] at hl
      obtain ⟨n, rfl⟩ : ∃ k, n = k + 1 := ⟨n - 1, by omega⟩
      rw [List.flatMap_cons, hb, List.singleton_append, Pdfmm.toCids, scan_first (cps := [(gid cp).getD 0])]
      · simp only
        rw [ih n (fun x hx => hm x (by simp [hx])) (by omega)]
        rfl
      · rw [inv.cmin, if_neg hne]
      · exact inv.cmax hne
      · rw [toNat_ofNat_lt (by omega)]
        exact (inv.look 1 (idxOf_at hcp)).2
  refine ⟨_, key t _ hm (Nat.le_refl _), ?_⟩
  rw [List.map_map]
  apply List.map_congr_left
  intro cp hcp
  exact (drawnChars_some (charsInUse_mem.1 (hm cp hcp))).symm

/-- **C195 is false** from the 257th character on: such a character is read back as a text that begins with another character. -/
theorem C195_many_false {order : Orders} (ho : OfPairs order) {gid : Nat → Option Nat} {texts : List (List Nat)} {f : WholeFont}
    {outs : List (Option Bytes)} (h : (WholeFont.init 1).encodeAll 1 order gid texts = .ok (f, outs)) (htext : IsText (drawnChars gid texts))
    {i cp n : Nat} {s : Bytes} (ht : texts[i]? = some [cp]) (hs : outs[i]? = some (some s))
    (hn : (charsInUse gid texts)[n]? = some cp) (h1 : 256 ≤ n) (h2 : n < 65536) :
    ∃ ok other r, f.decode s = .ok (ok, utf8Encode (other :: r)) ∧ (charsInUse gid texts)[n / 256]? = some other ∧ other ≠ cp ∧
      ∀ ok', f.decode s ≠ .ok (ok', utf8Encode [cp]) := by
  obtain ⟨inv, hm, rfl⟩ := whole_at ho h ht hs
  have hcp := hm cp (by simp)
  have hlen : n < (charsInUse gid texts).length := (List.getElem?_eq_some_iff.1 hn).1
  have hidx : (charsInUse gid texts).idxOf cp = n :=
    (List.getElem?_inj (List.idxOf_lt_length_of_mem hcp) inv.nodup).1 ((idxOf_at hcp).trans hn.symm)
  obtain ⟨other, hother⟩ : ∃ x, (charsInUse gid texts)[n / 256]? = some x := ⟨_, List.getElem?_eq_getElem (by omega)⟩
  have hne : charsInUse gid texts ≠ [] := List.ne_nil_of_mem hcp
  have hb : [cp].flatMap (charBytes (charsInUse gid texts)) = [UInt8.ofNat (n / 256), UInt8.ofNat (n % 256)] := by
    simp only [List.flatMap_cons, List.flatMap_nil, List.append_nil, charBytes, hidx]
    rw [charCodeSize, if_neg (by omega), if_pos h2]
    simp only [codeBytes, Nat.pow_zero, Nat.pow_one, Nat.div_one]
    rw [Nat.mod_eq_of_lt (show n / 256 < 256 by omega)]
  have hscan : scanCode f.points.limits.minSize f.points.limits.maxSize f.points.codePoints 0 1 [UInt8.ofNat (n / 256), UInt8.ofNat (n % 256)] =
      some ([other], [UInt8.ofNat (n % 256)]) := by
    refine scan_first _ (by rw [inv.pmin, if_neg hne]) (inv.pmax hne) _ _ _ ?_
    rw [toNat_ofNat_lt (by omega)]
    exact (inv.look 1 hother).1
  have hdiff : other ≠ cp := by
    intro e
    subst e
    have := (List.getElem?_inj hlen inv.nodup).1 (hn.trans hother.symm)
    omega
  have ho' : IsText [other] := by
    intro x hx
    rw [List.mem_singleton] at hx
    subst hx
    exact htext _ (charsInUse_mem.1 (List.mem_of_getElem? hother))
  obtain ⟨ok, t, d1, d2⟩ := decode_valid f.points.limits f.points 1 [UInt8.ofNat (n % 256)] (by simp)
  have hdec : f.decode [UInt8.ofNat (n / 256), UInt8.ofNat (n % 256)] = .ok (ok, utf8Encode (other :: t)) := by
    rw [WholeFont.decode]
    show toUtf8 _ _ (1 + 1) _ = _
    rw [toUtf8_round _ _ 1 _ _ _ (by simp) hscan, d1]
    simp only
    rw [keptText, filter_text ho', ← utf8Encode_append]
    rfl
  rw [hb]
  refine ⟨ok, other, t, hdec, hother, hdiff, ?_⟩
  intro ok' e
  rw [hdec] at e
  simp only [Except.ok.injEq, Prod.mk.injEq] at e
  have := utf8Encode_inj (a := other :: t) (b := [cp]) (by
    intro x hx
    rcases List.mem_cons.1 hx with rfl | hx
    · exact ho' _ (by simp)
    · exact d2 x hx) (by
    intro x hx
    rw [List.mem_singleton] at hx
    subst hx
    exact htext _ (charsInUse_mem.1 hcp)) e.2
  rw [List.cons.injEq] at this
  exact hdiff this.1

/-- **C195 is false** if the size of the code zero comes out as zero: no text with a character the font has a glyph for can be encoded, the first
one raises an error. -/
theorem C195_zero_false {order : Orders} (ho : OfPairs order) (gid : Nat → Option Nat) (t : List Nat) (ht : t ≠ []) (hg : ∀ cp ∈ t, ∃ g, gid cp = some g) :
    (WholeFont.init 0).encode 0 order gid t = raise .InvalidHandle := by
  cases t with
  | nil => exact absurd rfl ht
  | cons c r =>
    have hall : (c :: r).all (fun cp => (gid cp).isSome) = true := by
      rw [List.all_eq_true]
      intro cp hcp
      exact Option.isSome_iff_exists.2 (hg cp hcp)
    have hnone : (WholeFont.init 0).points.codeOf (order (WholeFont.init 0).points) [c] = none := by
      cases hc : (WholeFont.init 0).points.codeOf (order (WholeFont.init 0).points) [c] with
      | none => rfl
      | some d =>
        have := (C56_any_order_partial (CodeMap.Reach.init (z := 0)) (by intro x hx; simp at hx) (by
          intro c d cps h1; intro _; exact absurd (maps_mem h1) (by simp)) (ho (CodeMap.init 0)) [c] d).1 hc
        exact absurd (maps_mem this) (by simp)
    rw [WholeFont.encode, glyphsOf_eq, if_pos hall, List.map_cons]
    simp only
    rw [WholeFont.codes, WholeFont.add]
    simp only
    rw [hnone]
    rfl

/-! ### Examples -/

example : OfPairs CodeMap.pairs := fun _ => List.Perm.refl _
example : OfPairs fun m => m.pairs.reverse := fun _ => List.reverse_perm _

example : ∃ f outs, (WholeFont.init 1).encodeAll 1 CodeMap.pairs exampleGlyphs [[98, 97], [99], [225, 98]] = .ok (f, outs) ∧
    outs = [some [0, 1], none, some [2, 0]] ∧ (charsInUse exampleGlyphs [[98, 97], [99], [225, 98]]).length ≤ 256 ∧
    IsText (drawnChars exampleGlyphs [[98, 97], [99], [225, 98]]) ∧
    f.decode [2, 0] = .ok (true, utf8Encode [225, 98]) ∧ f.toCids [2, 0] = .ok (true, [7, 5]) := by
  refine ⟨_, _, rfl, by decide +kernel, by decide +kernel, ?_, by decide +kernel, by decide +kernel⟩
  show ∀ cp ∈ [98, 97, 225, 98], IsScalar cp ∧ cp ≠ 0
  simp [IsScalar]

example : ∃ f f' outs, (WholeFont.init 1).encodeAll 1 CodeMap.pairs exampleGlyphs [[98, 97], [225, 98]] = .ok (f, outs) ∧
    (WholeFont.init 1).encodeAll 1 (fun m => m.pairs.reverse) exampleGlyphs [[98, 97], [225, 98]] = .ok (f', outs) ∧ outs = [some [0, 1], some [2, 0]] :=
  ⟨_, _, _, rfl, by rfl, by decide +kernel⟩

/-- Three hundred characters: the text of the one with the code 265 is read back as something else. -/
example : ∃ f outs s, (WholeFont.init 1).encodeAll 1 CodeMap.pairs some [(List.range 300).map (· + 32), [297]] = .ok (f, outs) ∧
    outs[1]? = some (some s) ∧ (charsInUse some [(List.range 300).map (· + 32), [297]])[265]? = some 297 ∧
    f.decode s ≠ .ok (true, utf8Encode [297]) := by
  have ho : OfPairs CodeMap.pairs := fun _ => List.Perm.refl _
  obtain ⟨f, outs, h, _, he⟩ := C195_encode ho some [(List.range 300).map (· + 32), [297]]
  obtain ⟨s, hs⟩ := (he 1 [297] rfl).2 (by intro cp _; exact ⟨cp, rfl⟩)
  have hg : (charsInUse some [(List.range 300).map (· + 32), [297]])[265]? = some 297 := by decide +kernel
  refine ⟨f, outs, s, h, hs, hg, ?_⟩
  obtain ⟨_, _, _, _, _, _, hne⟩ := C195_many_false ho h (by
    intro cp hcp
    have : ∀ cp ∈ drawnChars some [(List.range 300).map (· + 32), [297]], 32 ≤ cp ∧ cp ≤ 400 := by decide +kernel
    have := this cp hcp
    simp only [IsScalar]
    omega) (i := 1) (cp := 297) (n := 265) rfl hs hg (by decide) (by decide)
  exact hne true

example : (WholeFont.init 0).encode 0 CodeMap.pairs exampleGlyphs [97, 98] = raise .InvalidHandle :=
  C195_zero_false (fun _ => List.Perm.refl _) _ _ (by simp) (by intro cp hcp; simp at hcp; rcases hcp with rfl | rfl <;> exact ⟨_, rfl⟩)

end Pdfmm
