import Verif.Fonts.CMapModel
/-
What the entries of a CMap do to the map that is read, and the test for an identity.
-/
set_option autoImplicit false
namespace Pdfmm
open Spec

/-! ### Specification -/

namespace Spec

/-- Code points as they stand in a CMap: UTF-16, the most significant byte first. -/
def utf16BE (cps : List Nat) : Bytes := be16 (cps.flatMap utf16Of)

/-- The code points with the last one increased. -/
def bumpLast (cps : List Nat) (i : Nat) : List Nat := cps.dropLast ++ [cps.getLastD 0 + i]

/-- The value of some bytes, the most significant one first. -/
def valueOf : Bytes → Nat
  | [] => 0
  | b :: r => b.toNat * 256 ^ r.length + valueOf r

end Spec

/-! ### Values -/

theorem beValue_foldl (d : Bytes) (a : Nat) :
    d.foldl (fun a b => a * 256 + b.toNat) a = a * 256 ^ d.length + valueOf d := by
  induction d generalizing a with
  | nil => simp [valueOf]
  | cons b r ih =>
    simp only [List.foldl_cons, ih, valueOf, List.length_cons, Nat.pow_succ]
    rw [Nat.add_mul, Nat.mul_assoc, Nat.mul_comm 256, Nat.add_assoc]

theorem beValue_eq (d : Bytes) : beValue d = valueOf d := by
  rw [beValue, beValue_foldl]; simp

theorem valueOf_lt (d : Bytes) : valueOf d < 256 ^ d.length := by
  induction d with
  | nil => simp [valueOf]
  | cons b r ih =>
    have hb : b.toNat < 256 := b.toNat_lt
    simp only [valueOf, List.length_cons, Nat.pow_succ]
    have : b.toNat * 256 ^ r.length ≤ 255 * 256 ^ r.length := Nat.mul_le_mul_right _ (by omega)
    omega

theorem valueOf_lt32 {d : Bytes} (h : d.length ≤ 4) : valueOf d < 4294967296 := by
  have h1 := valueOf_lt d
  have : (256 : Nat) ^ d.length ≤ 256 ^ 4 := Nat.pow_le_pow_right (by omega) h
  exact Nat.lt_of_lt_of_le h1 this

theorem flatMap_utf16 (cps : List Nat) (hs : ∀ c ∈ cps, IsScalar c) : cps.flatMap utf16Of = cps.flatMap utf16Append := by
  induction cps with
  | nil => simp only [List.flatMap_nil]
  | cons c r ih =>
    simp only [List.flatMap_cons]
    rw [ih (fun x hx => hs x (List.mem_cons_of_mem _ hx)), utf16Append_spec c (scalar_le (hs c List.mem_cons_self))]

theorem readUtf16_be16 (cps : List Nat) (hs : ∀ c ∈ cps, IsScalar c) :
    readUtf16 true (be16 (cps.flatMap utf16Append)) = .ok (utf8Encode cps) := by
  have hu : units true (be16 (cps.flatMap utf16Append)) = some (cps.flatMap utf16Append) := by
    refine units_be16 _ fun u hu => ?_
    rw [List.mem_flatMap] at hu
    obtain ⟨c, _, hu⟩ := hu
    exact utf16Append_lt c u hu
  rw [readUtf16, hu, Option.bind_some, utf16To8, utf16_decode_encode cps hs]; rfl

theorem stringPoints_of {d t : Bytes} {cps : List Nat} (h : readUtf16 true d = .ok t) (h2 : utf8Decode t = some cps) :
    stringPoints d = .ok cps := by
  rw [stringPoints, h]
  simp only
  rw [h2]

theorem stringPoints_utf16 (cps : List Nat) (hs : ∀ c ∈ cps, IsScalar c) : stringPoints (utf16BE cps) = .ok cps := by
  refine stringPoints_of (t := utf8Encode cps) ?_ (utf8_decode_encode cps hs)
  rw [utf16BE, flatMap_utf16 cps hs]
  exact readUtf16_be16 cps hs

/-! ### Pushes -/

theorem CodeMap.push_ok (m : CodeMap) {c : CharCode} {cps : List Nat} (hc : c.size ≠ 0) (hp : cps ≠ []) :
    m.push c cps = .ok { m with units := setUnit m.units c cps, limits := m.limits.push c, dirty := true } := by
  rw [CodeMap.push, if_neg hp, if_neg hc]

theorem CMState.push_ok (st : CMState) {c : CharCode} {cps : List Nat} (hc : c.size ≠ 0) (hp : cps ≠ []) :
    st.push c cps = .ok { st with map := { st.map with units := setUnit st.map.units c cps, limits := st.map.limits.push c, dirty := true } } := by
  rw [CMState.push, if_neg hp, CodeMap.push_ok _ hc hp]

theorem setUnit_points (us : List (Nat × (Nat × List Nat))) (c d : CharCode) (cps : List Nat) :
    (SMap.find? d.code (setUnit us c cps)).map (·.2) =
      if d.code = c.code then some cps else (SMap.find? d.code us).map (·.2) := by
  rw [setUnit_find]
  by_cases h : d.code = c.code
  · rw [if_pos h, if_pos h]; rfl
  · rw [if_neg h, if_neg h]

/-- What the loop over a range does. -/
theorem pushRange_ok (lo size : Nat) (f : Nat → Res (List Nat)) (g : Nat → List Nat) (hs : size ≠ 0) :
    ∀ (k i : Nat) (st : CMState), (∀ j, i ≤ j → j < i + k → f j = .ok (g j) ∧ g j ≠ []) → lo + i + k ≤ 4294967296 →
      ∃ st', pushRange lo size f i k st = .ok st' ∧ st'.mn = st.mn ∧ st'.mx = st.mx ∧
        ∀ d, st'.map.codePoints d =
          if lo + i ≤ d.code ∧ d.code < lo + i + k then some (g (d.code - lo)) else st.map.codePoints d := by
  intro k
  induction k with
  | zero =>
    intro i st _ _
    refine ⟨st, rfl, rfl, rfl, fun d => ?_⟩
    rw [if_neg (by omega)]
  | succ k ih =>
    intro i st hf hlo
    obtain ⟨h1, h2⟩ := hf i (Nat.le_refl _) (by omega)
    obtain ⟨st', e1, e2, e3, e4⟩ := ih (i + 1)
      { st with map := { st.map with units := setUnit st.map.units ⟨lo + i, size⟩ (g i), limits := st.map.limits.push ⟨lo + i, size⟩, dirty := true } }
      (fun j hj hj2 => hf j (by omega) (by omega)) (by omega)
    refine ⟨st', ?_, e2, e3, fun d => ?_⟩
    · rw [pushRange, h1]
      simp only
      rw [Nat.mod_eq_of_lt (by omega), CMState.push_ok st (c := ⟨lo + i, size⟩) hs h2]
      exact e1
    · rw [e4 d]
      by_cases a : lo + (i + 1) ≤ d.code ∧ d.code < lo + (i + 1) + k
      · rw [if_pos a, if_pos (by omega)]
      · rw [if_neg a]
        simp only [CodeMap.codePoints]
        rw [setUnit_points]
        dsimp only
        by_cases b : d.code = lo + i
        · rw [if_pos b, if_pos (by omega), b, Nat.add_sub_cancel_left]
        · rw [if_neg b, if_neg (by omega)]

theorem code_str (st : CMState) (d : Bytes) (hx : Bool) (h : d.length ≤ 4) :
    st.code (.str d hx) = .ok (⟨valueOf d, d.length⟩,
      { st with mn := if d.length < st.mn then d.length else st.mn
                mx := if d.length > st.mx then d.length else st.mx }) := by
  rw [CMState.code, codeOfVar, if_neg (by omega), beValue_eq]

theorem rangeSize_eq {lo hi : Nat} (h : lo ≤ hi) (h2 : hi - lo < 4294967295) : rangeSize lo hi = hi - lo + 1 := by
  rw [rangeSize]; omega

/-! ### Ranges -/

/-- A range with a text as its destination: what becomes of the map. -/
theorem bfRange_text (st : CMState) (lo hi : Bytes) (x y : Bool) (cps : List Nat) (hs : ∀ c ∈ cps, IsScalar c) (hne : cps ≠ [])
    (h1 : 1 ≤ lo.length ∧ lo.length ≤ 4) (h2 : hi.length ≤ 4) (hle : valueOf lo ≤ valueOf hi)
    (hr : valueOf hi - valueOf lo < 4294967295) (g : Nat → List Nat)
    (hg : ∀ i, i ≤ valueOf hi - valueOf lo → rangePoints cps i = .ok (g i)) :
    ∃ st', bfRange st (.str lo x) (.str hi y) (.str (utf16BE cps) true) = .ok st' ∧
      ∀ c, st'.map.codePoints c =
        if valueOf lo ≤ c.code ∧ c.code ≤ valueOf hi then some (g (c.code - valueOf lo)) else st.map.codePoints c := by
  have hlt := valueOf_lt32 h2
  have hgne : ∀ i, i ≤ valueOf hi - valueOf lo → g i ≠ [] := by
    intro i hi' e
    have := hg i hi'
    rw [e] at this
    match cps, this with
    | [a], h => simp [rangePoints] at h
    | a :: b :: r, h => simp [rangePoints] at h
  obtain ⟨st', e1, _, _, e4⟩ := pushRange_ok (valueOf lo) lo.length (rangePoints cps) g (by omega) (valueOf hi - valueOf lo + 1) 0
    { st with mn := if hi.length < (if lo.length < st.mn then lo.length else st.mn) then hi.length else (if lo.length < st.mn then lo.length else st.mn)
              mx := if hi.length > (if lo.length > st.mx then lo.length else st.mx) then hi.length else (if lo.length > st.mx then lo.length else st.mx) }
    (fun j _ hj => ⟨hg j (by omega), hgne j (by omega)⟩) (by omega)
  refine ⟨st', ?_, fun c => ?_⟩
  · rw [bfRange, code_str st lo x h1.2]
    simp only
    rw [code_str _ hi y h2]
    simp only [pointsOf]
    rw [stringPoints_utf16 cps hs]
    simp only
    rw [if_neg hne, rangeSize_eq hle hr]
    exact e1
  · rw [e4 c]
    by_cases a : valueOf lo ≤ c.code ∧ c.code ≤ valueOf hi
    · rw [if_pos a, if_pos (by omega)]
    · rw [if_neg a, if_neg (by omega)]

/-- **C97**, partial: the property for destinations of one code point.  An entry `lo hi dst` of `beginbfrange` maps every code from `lo` to `hi`
to the destination with its last code point increased by the distance from `lo`, and changes nothing else. -/
theorem C97_range_partial (st : CMState) (lo hi : Bytes) (x y : Bool) (cp : Nat) (hs : IsScalar cp)
    (h1 : 1 ≤ lo.length ∧ lo.length ≤ 4) (h2 : hi.length ≤ 4) (hle : valueOf lo ≤ valueOf hi)
    (hr : cp + (valueOf hi - valueOf lo) < 4294967295) :
    ∃ st', bfRange st (.str lo x) (.str hi y) (.str (utf16BE [cp]) true) = .ok st' ∧
      ∀ c, st'.map.codePoints c =
        if valueOf lo ≤ c.code ∧ c.code ≤ valueOf hi then some (bumpLast [cp] (c.code - valueOf lo)) else st.map.codePoints c := by
  refine bfRange_text st lo hi x y [cp] (by simpa using hs) (by simp) h1 h2 hle (by omega) _ (fun i hi' => ?_)
  rw [rangePoints, Nat.mod_eq_of_lt (by omega)]
  rfl

example : ∃ st', bfRange ⟨.init 0, 255, 0⟩ (.str [0, 32] true) (.str [0, 126] true) (.str (utf16BE [32]) true) = .ok st' ∧
    st'.map.codePoints ⟨65, 2⟩ = some [65] := by
  obtain ⟨st', e, h⟩ := C97_range_partial ⟨.init 0, 255, 0⟩ [0, 32] [0, 126] true true 32 (by simp [IsScalar]) (by decide) (by decide) (by decide) (by decide)
  exact ⟨st', e, by rw [h, if_pos (by decide)]; simp [bumpLast, valueOf]⟩

/-- **C97** is false for every destination of two or more code points: every code of the range is mapped to the whole destination followed by its last
code point, increased. -/
theorem C97_ligature_false (st : CMState) (lo hi : Bytes) (x y : Bool) (cps : List Nat) (hs : ∀ c ∈ cps, IsScalar c) (hl : 2 ≤ cps.length)
    (h1 : 1 ≤ lo.length ∧ lo.length ≤ 4) (h2 : hi.length ≤ 4) (hle : valueOf lo ≤ valueOf hi)
    (hr : valueOf hi - valueOf lo < 2147483648) :
    ∃ st', bfRange st (.str lo x) (.str hi y) (.str (utf16BE cps) true) = .ok st' ∧
      ∀ c, valueOf lo ≤ c.code → c.code ≤ valueOf hi →
        st'.map.codePoints c = some (cps ++ [cps.getLastD 0 + (c.code - valueOf lo)]) ∧
        st'.map.codePoints c ≠ some (bumpLast cps (c.code - valueOf lo)) := by
  have hlast : cps.getLastD 0 ≤ 1114111 := by
    have : cps ≠ [] := by intro e; rw [e] at hl; simp at hl
    have hm : cps.getLastD 0 ∈ cps := by
      rw [List.getLastD_eq_getLast?, List.getLast?_eq_some_getLast this]
      exact List.getLast_mem this
    exact scalar_le (hs _ hm)
  obtain ⟨st', e, h⟩ := bfRange_text st lo hi x y cps hs (by intro e; rw [e] at hl; simp at hl) h1 h2 hle (by omega)
    (fun i => cps ++ [cps.getLastD 0 + i]) (fun i hi' => by
      match cps, hl with
      | a :: b :: r, _ => rw [rangePoints, Nat.mod_eq_of_lt (by omega)])
  refine ⟨st', e, fun c hc1 hc2 => ?_⟩
  have := h c
  rw [if_pos ⟨hc1, hc2⟩] at this
  refine ⟨this, ?_⟩
  rw [this, bumpLast]
  intro e
  have := congrArg (fun o => (o.getD []).length) e
  simp at this
  omega

example : ∃ st', bfRange ⟨.init 0, 255, 0⟩ (.str [1] true) (.str [2] true) (.str (utf16BE [0x66, 0x66]) true) = .ok st' ∧
    st'.map.codePoints ⟨2, 1⟩ = some [0x66, 0x66, 0x67] := by
  obtain ⟨st', e, h⟩ := C97_ligature_false ⟨.init 0, 255, 0⟩ [1] [2] true true [0x66, 0x66] (by simp [IsScalar]) (by decide) (by decide) (by decide) (by decide) (by decide)
  exact ⟨st', e, (h ⟨2, 1⟩ (by decide) (by decide)).1⟩

/-! ### Code sizes -/

theorem code_sizes {st st' : CMState} {v : Var} {c : CharCode} (h : st.code v = .ok (c, st')) :
    codeOfVar v = .ok c ∧ st'.map = st.map ∧ st'.mn = min st.mn c.size ∧ st'.mx = max st.mx c.size := by
  rw [CMState.code] at h
  cases hc : codeOfVar v with
  | error e => rw [hc] at h; simp at h
  | ok d =>
    rw [hc] at h
    simp only [Except.ok.injEq, Prod.mk.injEq] at h
    obtain ⟨h1, h2⟩ := h
    subst h1; subst h2
    refine ⟨rfl, rfl, ?_, ?_⟩
    · dsimp only; split <;> omega
    · dsimp only; split <;> omega

theorem push_sizes {st st' : CMState} {c : CharCode} {cps : List Nat} (h : st.push c cps = .ok st') :
    st'.mn = st.mn ∧ st'.mx = st.mx := by
  rw [CMState.push] at h
  split at h
  · simp only [Except.ok.injEq] at h; subst h; exact ⟨rfl, rfl⟩
  · cases hp : st.map.push c cps with
    | error e => rw [hp] at h; simp at h
    | ok m => rw [hp] at h; simp only [Except.ok.injEq] at h; subst h; exact ⟨rfl, rfl⟩

theorem pushRange_sizes (lo size : Nat) (f : Nat → Res (List Nat)) :
    ∀ (k i : Nat) (st st' : CMState), pushRange lo size f i k st = .ok st' → st'.mn = st.mn ∧ st'.mx = st.mx := by
  intro k
  induction k with
  | zero => intro i st st' h; simp only [pushRange, Except.ok.injEq] at h; subst h; exact ⟨rfl, rfl⟩
  | succ k ih =>
    intro i st st' h
    rw [pushRange] at h
    cases hf : f i with
    | error e => rw [hf] at h; simp at h
    | ok cps =>
      rw [hf] at h
      simp only at h
      cases hp : st.push ⟨(lo + i) % 4294967296, size⟩ cps with
      | error e => rw [hp] at h; simp at h
      | ok s1 =>
        rw [hp] at h
        obtain ⟨a, b⟩ := ih _ _ _ h
        obtain ⟨c, d⟩ := push_sizes hp
        exact ⟨a.trans c, b.trans d⟩

/-- **C98**, partial: entries of `beginbfchar` with a string as destination count the size of the code and nothing else. -/
theorem C98_bfchar_partial (st st' : CMState) (src dst : Bytes) (x : Bool) (h : bfChar st (.str src x) (.str dst true) = .ok st') :
    st'.mn = min st.mn src.length ∧ st'.mx = max st.mx src.length := by
  rw [bfChar] at h
  cases hc : st.code (.str src x) with
  | error e => rw [hc] at h; simp at h
  | ok p =>
    obtain ⟨c, s1⟩ := p
    rw [hc] at h
    obtain ⟨h1, _, h3, h4⟩ := code_sizes hc
    simp only [pointsOf] at h
    cases hp : stringPoints dst with
    | error e => rw [hp] at h; simp at h
    | ok cps =>
      rw [hp] at h
      simp only at h
      obtain ⟨a, b⟩ := push_sizes h
      have : c.size = src.length := by
        rw [codeOfVar] at h1
        split at h1
        · simp at h1
        · simp only [Except.ok.injEq] at h1; rw [← h1]
      rw [a, b, h3, h4, this]; exact ⟨rfl, rfl⟩

/-- **C98**, partial: so do entries of `beginbfrange`, whatever the destination. -/
theorem C98_bfrange_partial (st st' : CMState) (lo hi : Bytes) (x y : Bool) (dst : Var)
    (h : bfRange st (.str lo x) (.str hi y) dst = .ok st') :
    st'.mn = min st.mn (min lo.length hi.length) ∧ st'.mx = max st.mx (max lo.length hi.length) := by
  rw [bfRange] at h
  cases hc : st.code (.str lo x) with
  | error e => rw [hc] at h; simp at h
  | ok p =>
    obtain ⟨c, s1⟩ := p
    rw [hc] at h
    simp only at h
    cases hc2 : s1.code (.str hi y) with
    | error e => rw [hc2] at h; simp at h
    | ok p2 =>
      obtain ⟨d, s2⟩ := p2
      rw [hc2] at h
      simp only at h
      obtain ⟨h1, _, h3, h4⟩ := code_sizes hc
      obtain ⟨g1, _, g3, g4⟩ := code_sizes hc2
      have e1 : c.size = lo.length := by
        rw [codeOfVar] at h1
        split at h1
        · simp at h1
        · simp only [Except.ok.injEq] at h1; rw [← h1]
      have e2 : d.size = hi.length := by
        rw [codeOfVar] at g1
        split at g1
        · simp at g1
        · simp only [Except.ok.injEq] at g1; rw [← g1]
      have key : st'.mn = s2.mn ∧ st'.mx = s2.mx := by
        split at h
        · exact pushRange_sizes _ _ _ _ _ _ _ h
        · cases hp : pointsOf dst with
          | error e => rw [hp] at h; simp at h
          | ok cps =>
            rw [hp] at h
            simp only at h
            split at h
            · simp at h
            · exact pushRange_sizes _ _ _ _ _ _ _ h
      rw [key.1, key.2, g3, g4, h3, h4, e1, e2]
      omega

/-- **C98** is false: after an entry of `begincidrange` whose destination is a CID below 256 the smallest code size is at most one, however long the codes
are. -/
theorem C98_cid_range_false (st st' : CMState) (lo hi : Bytes) (x y : Bool) (cid : Int) (h0 : 0 ≤ cid) (h1 : cid < 256)
    (h : cidRange st (.str lo x) (.str hi y) (.num cid) = .ok st') : st'.limits.minSize ≤ 1 := by
  rw [cidRange] at h
  cases hc : st.code (.str lo x) with
  | error e => rw [hc] at h; simp at h
  | ok p =>
    obtain ⟨c, s1⟩ := p
    rw [hc] at h
    simp only at h
    cases hc2 : s1.code (.str hi y) with
    | error e => rw [hc2] at h; simp at h
    | ok p2 =>
      obtain ⟨d, s2⟩ := p2
      rw [hc2] at h
      simp only at h
      cases hc3 : s2.code (.num cid) with
      | error e => rw [hc3] at h; simp at h
      | ok p3 =>
        obtain ⟨d3, s3⟩ := p3
        rw [hc3] at h
        simp only at h
        obtain ⟨k1, _, k3, _⟩ := code_sizes hc3
        obtain ⟨a, _⟩ := pushRange_sizes _ _ _ _ _ _ _ h
        have : d3.size = 1 := by
          rw [codeOfVar, if_neg (by omega)] at k1
          simp only [Except.ok.injEq] at k1
          rw [← k1]
          have : numBytes cid.toNat = 1 := by rw [numBytes, if_pos (by omega)]
          exact this
        have hmn : st'.mn ≤ 1 := by rw [a, k3, this]; omega
        rw [CMState.limits]
        dsimp only
        split <;> omega

/-- A CMap with codes of two bytes; strings are then taken apart byte by byte. -/
example : (match cmapFromText 1 (asciiB "1 begincodespacerange <0000> <FFFF> endcodespacerange 1 begincidrange <0000> <0001> 0 endcidrange 1 begincidchar <0100> 900") with
    | .ok (.cmap e) => e.limits.minSize == 1 && e.map.pairs == [(⟨0, 2⟩, [0]), (⟨1, 2⟩, [1]), (⟨256, 2⟩, [900])] &&
        scanCode e.limits.minSize e.limits.maxSize e.map.codePoints 0 1 [1, 0] == some ([1], [0])
    | _ => false) = true := by decide +kernel

/-! ### The test for an identity -/

theorem identLoop_true {l : List (CharCode × List Nat)} {prev : Nat} (h : identLoop l prev = true) :
    ∀ p ∈ l, p.2 = [p.1.code] := by
  induction l generalizing prev with
  | nil => intro p hp; simp at hp
  | cons q r ih =>
    obtain ⟨c, cps⟩ := q
    rw [identLoop] at h
    split at h
    · simp at h
    · rename_i h1
      split at h
      · simp at h
      · rename_i h2
        split at h
        · simp at h
        · intro p hp
          rcases List.mem_cons.1 hp with e | e
          · subst e
            simp only [ne_eq, Decidable.not_not] at h2
            match cps, h1, h2 with
            | [a], _, h2 => simp only [List.head?_cons, Option.some.injEq] at h2; dsimp only; rw [h2]
            | [], _, h2 => simp at h2
            | _ :: _ :: _, h1, _ => simp at h1
          · exact ih h p e

/-- **C100**, partial.  Whatever is made of a CMap, the codes that were read from it have the code points that were read for them. -/
theorem C100_listed_partial (z : Nat) (text : Bytes) (st : CMState) (r : CMapRead) (h1 : parseCMap z text = .ok st)
    (h2 : cmapFromText z text = .ok r) (c : CharCode) (cps : List Nat) (hc : st.map.codePoints c = some cps) :
    r.codePoints c = some cps := by
  rw [cmapFromText, h1] at h2
  simp only at h2
  split at h2
  · simp only [Except.ok.injEq] at h2; subst h2; exact hc
  · rename_i c0 cps0 rest hp
    split at h2
    · rename_i hi
      simp only [Except.ok.injEq] at h2
      subst h2
      rw [CodeMap.codePoints, Option.map_eq_some_iff] at hc
      obtain ⟨y, hy, hy2⟩ := hc
      have hm : ((⟨c.code, y.1⟩ : CharCode), y.2) ∈ st.map.pairs := by
        rw [CodeMap.pairs]
        exact List.mem_map.2 ⟨(c.code, y), SMap.find_mem hy, rfl⟩
      rw [hp] at hm
      have := identLoop_true hi.2 _ hm
      dsimp only at this
      rw [CMapRead.codePoints, ← hy2, this]
    · simp only [Except.ok.injEq] at h2; subst h2; exact hc

/-- **C100** is false: when an identity is recognised every code is mapped, also those the CMap does not mention. -/
theorem C100_identity_false (z : Nat) (text : Bytes) (l : CodeLimits) (h : cmapFromText z text = .ok (.identity l)) (c : CharCode) :
    (CMapRead.identity l).codePoints c = some [c.code] ∧
    ∃ st, parseCMap z text = .ok st ∧ st.map.pairs ≠ [] ∧ ∀ p ∈ st.map.pairs, p.2 = [p.1.code] := by
  refine ⟨rfl, ?_⟩
  rw [cmapFromText] at h
  cases hp : parseCMap z text with
  | error e => rw [hp] at h; simp at h
  | ok st =>
    rw [hp] at h
    simp only at h
    refine ⟨st, rfl, ?_, ?_⟩
    · intro e; rw [e] at h; simp at h
    · split at h
      · simp at h
      · rename_i c0 cps0 rest hpp
        split at h
        · rename_i hi; rw [hpp]; exact identLoop_true hi.2
        · simp at h

/-- A CMap with the letter A only stands for an identity of all bytes. -/
example : ∃ l, cmapFromText 1 (asciiB "1 begincodespacerange <41> <41> endcodespacerange 1 beginbfchar <41> <0041> endbfchar") = .ok (.identity l) := by
  refine ⟨⟨1, 1, ⟨65, 1⟩, ⟨65, 1⟩⟩, ?_⟩
  have : (match cmapFromText 1 (asciiB "1 begincodespacerange <41> <41> endcodespacerange 1 beginbfchar <41> <0041> endbfchar") with
    | .ok (.identity l) => decide (l = ⟨1, 1, ⟨65, 1⟩, ⟨65, 1⟩⟩) | _ => false) = true := by decide +kernel
  revert this
  cases cmapFromText 1 (asciiB "1 begincodespacerange <41> <41> endcodespacerange 1 beginbfchar <41> <0041> endbfchar") with
  | error e => intro h; simp at h
  | ok r =>
    cases r with
    | cmap e => intro h; simp at h
    | identity l => intro h; simp only [decide_eq_true_eq] at h; rw [h]

/-- **C98**, partial: a code given as a number (up to 64 bits) counts as many bytes as the number needs, and at least one. -/
theorem C98_number_size_partial (n k : Nat) (hn : n < 18446744073709551616) (hk : 1 ≤ k) : numBytes n ≤ k ↔ n < 256 ^ k := by
  have mono : ∀ a b : Nat, a ≤ b → 256 ^ a ≤ 256 ^ b := fun a b h => Nat.pow_le_pow_right (by decide) h
  rcases Nat.lt_or_ge k 8 with h8 | h8
  · have : k = 1 ∨ k = 2 ∨ k = 3 ∨ k = 4 ∨ k = 5 ∨ k = 6 ∨ k = 7 := by omega
    unfold numBytes
    rcases this with h | h | h | h | h | h | h <;> subst h <;> (repeat' split) <;> omega
  · have h1 := mono 8 k h8
    have h2 : (256 : Nat) ^ 8 = 18446744073709551616 := by decide
    constructor
    · intro _; omega
    · intro _; unfold numBytes; (repeat' split) <;> omega

example : numBytes 255 = 1 ∧ numBytes 256 = 2 := by decide

end Pdfmm
