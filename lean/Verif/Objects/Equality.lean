import Verif.Base.Basic
/-
`operator==` and `operator!=` of variants, arrays, dictionaries, objects and references.
-/
set_option linter.unusedVariables false
namespace Pdfmm

/-- A `double` as `==` sees it: either NaN, or one of the classes of equal values (`+0` and `-0` are one
class), which are numbered. -/
inductive Dbl
  | nan
  | val (cls : Int)
  deriving DecidableEq, Repr

/-- IEEE equality. -/
def Dbl.eq : Dbl → Dbl → Bool
  | .val a, .val b => a = b
  | _, _ => false

/-- What a `PdfVariant` holds (`src/pdfmm/base/PdfVariant.h`).  A string is its current `m_data->Chars`:
`PdfString::operator==` compares nothing else, because `canPerformComparison`
(`src/pdfmm/base/PdfString.cpp:381-391`) is true for every pair of states.  The elements of arrays and the
values of dictionaries are `PdfObject`s without a reference (copying and moving drop it,
`src/pdfmm/base/PdfObject.cpp:104-125`), so comparing them compares their variants. -/
inductive OV
  | null
  | bool (b : Bool)
  | num (n : Int)
  | real (d : Dbl)
  | ref (obj gen : Nat)
  | str (chars : Bytes)
  | name (chars : Bytes)
  | arr (l : List OV)
  | dict (l : List (Bytes × OV))
  | raw (d : Bytes)
  | unknown

mutual
/-- `PdfVariant::operator==` for two different objects, `src/pdfmm/base/PdfVariant.cpp:333-414`. -/
def eqv : OV → OV → Res Bool
  | .bool a, .bool b => .ok (a == b)
  | .bool _, _ => .ok false
  | .num a, .num b => .ok (a == b)
  | .num _, _ => .ok false
  | .real a, .real b => .ok (a.eq b)
  | .real _, _ => .ok false
  | .ref a g, .ref b h => .ok (a == b && g == h)
  | .ref _ _, _ => .ok false
  | .str a, .str b => .ok (a == b)
  | .str _, _ => .ok false
  | .name a, .name b => .ok (a == b)
  | .name _, _ => .ok false
  | .arr a, .arr b => if a.length = b.length then eqList a b else .ok false
  | .arr _, _ => .ok false
  | .dict a, .dict b => if a.length = b.length then eqMap a b else .ok false
  | .dict _, _ => .ok false
  | .raw _, _ => raise .NotImplemented
  | .null, _ => .ok true
  | .unknown, _ => .ok false

/-- `std::equal` over the elements of two vectors of the same size
(`PdfArray::operator==`, `src/pdfmm/base/PdfArray.cpp:405-412`): stops at the first difference. -/
def eqList : List OV → List OV → Res Bool
  | a :: as, b :: bs =>
    match eqv a b with
    | .error e => .error e
    | .ok false => .ok false
    | .ok true => eqList as bs
  | _, _ => .ok true

/-- `std::equal` over the entries of two maps of the same size
(`PdfDictionary::operator==`, `src/pdfmm/base/PdfDictionary.cpp:43-50`): keys first, then values. -/
def eqMap : List (Bytes × OV) → List (Bytes × OV) → Res Bool
  | (k, a) :: as, (k', b) :: bs =>
    if k = k' then
      match eqv a b with
      | .error e => .error e
      | .ok false => .ok false
      | .ok true => eqMap as bs
    else .ok false
  | _, _ => .ok true
end

/-- `PdfVariant::operator!=`, `src/pdfmm/base/PdfVariant.cpp:416-497`, for two different objects: the
inverted test on line 418 answers first. -/
def nev (_ _ : OV) : Res Bool := .ok true

/-- `PdfVariant::operator==` of an object with itself. -/
def eqvSelf (_ : OV) : Res Bool := .ok true

/-- `PdfVariant::operator!=` of an object with itself.  A dictionary compares its map with itself
(`src/pdfmm/base/PdfDictionary.cpp:52-59`), where every entry is identical. -/
def nevSelf : OV → Res Bool
  | .real d => .ok (!d.eq d)
  | .raw _ => raise .NotImplemented
  | .unknown => .ok true
  | _ => .ok false

/-- `PdfArray::operator==` / `operator!=` of two different arrays,
`src/pdfmm/base/PdfArray.cpp:405-421`. -/
def arrEq (a b : List OV) : Res Bool := if a.length = b.length then eqList a b else .ok false
def arrNe (a b : List OV) : Res Bool :=
  match arrEq a b with
  | .ok r => .ok (!r)
  | .error e => .error e

/-- `PdfDictionary::operator!=` of two different dictionaries,
`src/pdfmm/base/PdfDictionary.cpp:52-59`. -/
def dictNe (_ _ : List (Bytes × OV)) : Res Bool := .ok true

/-- A `PdfObject`: document (if any), reference and variant. -/
structure OObj where
  doc : Option Nat
  obj : Nat
  gen : Nat
  var : OV

/-- `PdfObject::operator==` for two different objects, `src/pdfmm/base/PdfObject.cpp:818-836`. -/
def objEq (a b : OObj) : Res Bool :=
  if a.obj ≠ 0 ∨ a.gen ≠ 0 then .ok (a.doc == b.doc && (a.obj == b.obj && a.gen == b.gen))
  else eqv a.var b.var

/-- `PdfObject::operator!=` for two different objects, `src/pdfmm/base/PdfObject.cpp:838-856`. -/
def objNe (_ _ : OObj) : Res Bool := .ok true

/-! ### Specification -/
namespace Spec

mutual
/-- A value made only of the kinds on which equality is meant to be structural: no null, no raw data, no
unknown value and no NaN anywhere inside. -/
def Plain : OV → Prop
  | .null => False
  | .raw _ => False
  | .unknown => False
  | .real d => d ≠ .nan
  | .arr l => PlainL l
  | .dict l => PlainM l
  | _ => True
def PlainL : List OV → Prop
  | [] => True
  | v :: r => Plain v ∧ PlainL r
def PlainM : List (Bytes × OV) → Prop
  | [] => True
  | p :: r => Plain p.2 ∧ PlainM r
end

/-- No raw data anywhere inside. -/
inductive NoRaw : OV → Prop
  | null : NoRaw .null
  | bool b : NoRaw (.bool b)
  | num n : NoRaw (.num n)
  | real d : NoRaw (.real d)
  | ref o g : NoRaw (.ref o g)
  | str c : NoRaw (.str c)
  | name c : NoRaw (.name c)
  | unknown : NoRaw .unknown
  | arr {l} (h : ∀ v ∈ l, NoRaw v) : NoRaw (.arr l)
  | dict {l} (h : ∀ k v, (k, v) ∈ l → NoRaw v) : NoRaw (.dict l)

/-- `Matches a b`: `b` is `a` with every null inside `a` replaced by some value (and `a` has no NaN and no
unknown value outside the replaced places). -/
inductive Matches : OV → OV → Prop
  | null b : Matches .null b
  | bool b : Matches (.bool b) (.bool b)
  | num n : Matches (.num n) (.num n)
  | real c : Matches (.real (.val c)) (.real (.val c))
  | ref o g : Matches (.ref o g) (.ref o g)
  | str c : Matches (.str c) (.str c)
  | name c : Matches (.name c) (.name c)
  | arrNil : Matches (.arr []) (.arr [])
  | arrCons {a b as bs} (h : Matches a b) (ht : Matches (.arr as) (.arr bs)) :
      Matches (.arr (a :: as)) (.arr (b :: bs))
  | dictNil : Matches (.dict []) (.dict [])
  | dictCons {k a b as bs} (h : Matches a b) (ht : Matches (.dict as) (.dict bs)) :
      Matches (.dict ((k, a) :: as)) (.dict ((k, b) :: bs))

end Spec
open Spec

/-! ### Lemmas -/

mutual
theorem eqv_noRaw : ∀ (a : OV), NoRaw a → ∀ b, ∃ r, eqv a b = .ok r
  | .null, _, b => ⟨true, by simp [eqv]⟩
  | .bool x, _, b => by cases b <;> simp [eqv]
  | .num x, _, b => by cases b <;> simp [eqv]
  | .real x, _, b => by cases b <;> simp [eqv]
  | .ref x g, _, b => by cases b <;> simp [eqv]
  | .str x, _, b => by cases b <;> simp [eqv]
  | .name x, _, b => by cases b <;> simp [eqv]
  | .unknown, _, b => ⟨false, by simp [eqv]⟩
  | .raw x, h, _ => by cases h
  | .arr l, h, b => by
    cases h with
    | arr h =>
    cases b <;> simp only [eqv] <;> try exact ⟨_, rfl⟩
    split
    · exact eqList_noRaw l h _
    · exact ⟨_, rfl⟩
  | .dict l, h, b => by
    cases h with
    | dict h =>
    cases b <;> simp only [eqv] <;> try exact ⟨_, rfl⟩
    split
    · exact eqMap_noRaw l h _
    · exact ⟨_, rfl⟩
theorem eqList_noRaw : ∀ (l : List OV), (∀ v ∈ l, NoRaw v) → ∀ m, ∃ r, eqList l m = .ok r
  | [], _, m => ⟨true, by simp [eqList]⟩
  | a :: as, h, [] => ⟨true, by simp [eqList]⟩
  | a :: as, h, b :: bs => by
    obtain ⟨r, hr⟩ := eqv_noRaw a (h a (by simp)) b
    simp only [eqList, hr]
    cases r
    · exact ⟨_, rfl⟩
    · exact eqList_noRaw as (fun v hv => h v (by simp [hv])) bs
theorem eqMap_noRaw : ∀ (l : List (Bytes × OV)), (∀ k v, (k, v) ∈ l → NoRaw v) → ∀ m, ∃ r, eqMap l m = .ok r
  | [], _, m => ⟨true, by simp [eqMap]⟩
  | a :: as, h, [] => ⟨true, by simp [eqMap]⟩
  | (k, a) :: as, h, (k', b) :: bs => by
    simp only [eqMap]
    split
    · obtain ⟨r, hr⟩ := eqv_noRaw a (h k a (by simp)) b
      simp only [hr]
      cases r
      · exact ⟨_, rfl⟩
      · exact eqMap_noRaw as (fun k v hv => h k v (by simp [hv])) bs
    · exact ⟨_, rfl⟩
end

mutual
theorem eqv_matches : ∀ (a b : OV), eqv a b = .ok true → Matches a b
  | .null, b, _ => .null b
  | .bool x, b, h => by cases b <;> simp [eqv] at h; subst h; exact .bool _
  | .num x, b, h => by cases b <;> simp [eqv] at h; subst h; exact .num _
  | .real x, b, h => by
    cases b <;> simp [eqv] at h
    rename_i y
    cases x <;> cases y <;> simp [Dbl.eq] at h
    subst h; exact .real _
  | .ref x g, b, h => by cases b <;> simp [eqv] at h; obtain ⟨h1, h2⟩ := h; subst h1; subst h2; exact .ref _ _
  | .str x, b, h => by cases b <;> simp [eqv] at h; subst h; exact .str _
  | .name x, b, h => by cases b <;> simp [eqv] at h; subst h; exact .name _
  | .unknown, b, h => by simp [eqv] at h
  | .raw x, b, h => by simp [eqv, raise] at h
  | .arr l, b, h => by
    cases b <;> simp only [eqv] at h <;> try (simp at h; done)
    split at h
    · exact eqList_matches l _ ‹_› h
    · simp at h
  | .dict l, b, h => by
    cases b <;> simp only [eqv] at h <;> try (simp at h; done)
    split at h
    · exact eqMap_matches l _ ‹_› h
    · simp at h
theorem eqList_matches : ∀ (l m : List OV), l.length = m.length → eqList l m = .ok true → Matches (.arr l) (.arr m)
  | [], [], _, _ => .arrNil
  | [], _ :: _, hl, _ => by simp at hl
  | _ :: _, [], hl, _ => by simp at hl
  | a :: as, b :: bs, hl, h => by
    simp only [eqList] at h
    cases hr : eqv a b with
    | error e => simp [hr] at h
    | ok r =>
      cases r with
      | false => simp [hr] at h
      | true =>
        simp only [hr] at h
        exact .arrCons (eqv_matches a b hr) (eqList_matches as bs (by simpa using hl) h)
theorem eqMap_matches : ∀ (l m : List (Bytes × OV)), l.length = m.length → eqMap l m = .ok true →
    Matches (.dict l) (.dict m)
  | [], [], _, _ => .dictNil
  | [], _ :: _, hl, _ => by simp at hl
  | _ :: _, [], hl, _ => by simp at hl
  | (k, a) :: as, (k', b) :: bs, hl, h => by
    simp only [eqMap] at h
    split at h
    · rename_i hk; subst hk
      cases hr : eqv a b with
      | error e => simp [hr] at h
      | ok r =>
        cases r with
        | false => simp [hr] at h
        | true =>
          simp only [hr] at h
          exact .dictCons (eqv_matches a b hr) (eqMap_matches as bs (by simpa using hl) h)
    · simp at h
end

theorem matches_eqv {a b : OV} (h : Matches a b) : eqv a b = .ok true := by
  induction h with
  | null b => simp [eqv]
  | bool b => simp [eqv]
  | num b => simp [eqv]
  | real c => simp [eqv, Dbl.eq]
  | ref o g => simp [eqv]
  | str c => simp [eqv]
  | name c => simp [eqv]
  | arrNil => simp [eqv, eqList]
  | arrCons h ht ih1 ih2 =>
    simp only [eqv] at ih2 ⊢
    simp only [eqList, ih1, List.length_cons]
    split at ih2
    · rename_i hl; simp [hl]; exact ih2
    · simp at ih2
  | dictNil => simp [eqv, eqMap]
  | dictCons h ht ih1 ih2 =>
    simp only [eqv] at ih2 ⊢
    simp only [eqMap, ih1, List.length_cons]
    split at ih2
    · rename_i hl; simp [hl]; exact ih2
    · simp at ih2

theorem matches_trans {a b : OV} (h1 : Matches a b) : ∀ {c}, Matches b c → Matches a c := by
  induction h1 with
  | null b => intros; exact .null _
  | bool b => intro c h; exact h
  | num b => intro c h; exact h
  | real b => intro c h; exact h
  | ref b => intro c h; exact h
  | str b => intro c h; exact h
  | name b => intro c h; exact h
  | arrNil => intro c h; exact h
  | dictNil => intro c h; exact h
  | arrCons h ht ih1 ih2 =>
    intro c h
    cases h with
    | arrCons g gt => exact .arrCons (ih1 g) (ih2 gt)
  | dictCons h ht ih1 ih2 =>
    intro c h
    cases h with
    | dictCons g gt => exact .dictCons (ih1 g) (ih2 gt)

mutual
theorem matches_refl : ∀ (a : OV), Plain a → Matches a a
  | .bool x, _ => .bool _
  | .num x, _ => .num _
  | .real .nan, h => absurd rfl h
  | .real (.val c), _ => .real _
  | .ref x g, _ => .ref _ _
  | .str x, _ => .str _
  | .name x, _ => .name _
  | .null, _ => .null _
  | .raw _, h => h.elim
  | .unknown, h => h.elim
  | .arr l, h => matchesL_refl l h
  | .dict l, h => matchesM_refl l h
theorem matchesL_refl : ∀ (l : List OV), PlainL l → Matches (.arr l) (.arr l)
  | [], _ => .arrNil
  | a :: as, h => .arrCons (matches_refl a h.1) (matchesL_refl as h.2)
theorem matchesM_refl : ∀ (l : List (Bytes × OV)), PlainM l → Matches (.dict l) (.dict l)
  | [], _ => .dictNil
  | (_, a) :: as, h => .dictCons (matches_refl a h.1) (matchesM_refl as h.2)
end

theorem matches_plain_eq {a b : OV} (h : Matches a b) : Plain a → a = b := by
  induction h with
  | null b => intro h; exact h.elim
  | bool b => intro _; rfl
  | num b => intro _; rfl
  | real b => intro _; rfl
  | ref b => intro _; rfl
  | str b => intro _; rfl
  | name b => intro _; rfl
  | arrNil => intro _; rfl
  | dictNil => intro _; rfl
  | arrCons h ht ih1 ih2 =>
    intro hp
    have := ih2 hp.2
    injection this with this
    rw [ih1 hp.1, this]
  | dictCons h ht ih1 ih2 =>
    intro hp
    have := ih2 hp.2
    injection this with this
    rw [ih1 hp.1, this]

mutual
theorem plain_noRaw : ∀ (a : OV), Plain a → NoRaw a
  | .bool x, _ => .bool _
  | .num x, _ => .num _
  | .real _, _ => .real _
  | .ref x g, _ => .ref _ _
  | .str x, _ => .str _
  | .name x, _ => .name _
  | .null, _ => .null
  | .raw _, h => h.elim
  | .unknown, h => h.elim
  | .arr l, h => .arr (plainL_noRaw l h)
  | .dict l, h => .dict (plainM_noRaw l h)
theorem plainL_noRaw : ∀ (l : List OV), PlainL l → ∀ v ∈ l, NoRaw v
  | [], _, v, hv => by simp at hv
  | a :: as, h, v, hv => by
    rcases List.mem_cons.1 hv with e | hv
    · rw [e]; exact plain_noRaw a h.1
    · exact plainL_noRaw as h.2 v hv
theorem plainM_noRaw : ∀ (l : List (Bytes × OV)), PlainM l → ∀ k v, (k, v) ∈ l → NoRaw v
  | [], _, k, v, hv => by simp at hv
  | a :: as, h, k, v, hv => by
    rcases List.mem_cons.1 hv with e | hv
    · have h1 := plain_noRaw a.2 h.1
      rw [← e] at h1; exact h1
    · exact plainM_noRaw as h.2 k v hv
end

/-! ### Theorems -/

/-- C24 fails: two different variants holding the same value are equal and unequal at once; so are two
dictionaries and two objects. -/
theorem C24_ne_false :
    (∃ a b : OV, eqv a b = .ok true ∧ nev a b = .ok true) ∧
    (∃ a b : List (Bytes × OV), eqv (.dict a) (.dict b) = .ok true ∧ dictNe a b = .ok true) ∧
    (∃ a b : OObj, objEq a b = .ok true ∧ objNe a b = .ok true) :=
  ⟨⟨.num 5, .num 5, rfl, rfl⟩, ⟨[], [], rfl, rfl⟩, ⟨⟨none, 0, 0, .num 5⟩, ⟨none, 0, 0, .num 5⟩, rfl, rfl⟩⟩

/-- C24 fails for every pair: `!=` of two different variants is always true, so it is the negation of
`==` exactly when they are not equal. -/
theorem C24_ne_always_true (a b : OV) (r : Bool) (h : eqv a b = .ok r) :
    (nev a b = .ok (!r)) ↔ r = false := by
  cases r <;> simp [nev]

/-- C24 fails: null equals everything, but only from the left. -/
theorem C24_symmetry_false :
    eqv .null (.num 5) = .ok true ∧ eqv (.num 5) .null = .ok false :=
  ⟨rfl, rfl⟩

/-- C24 fails for objects: an indirect object holding 5 is found equal from one side only. -/
theorem C24_object_symmetry_false :
    ∃ a b : OObj, objEq a b = .ok true ∧ objEq b a = .ok false :=
  ⟨⟨some 1, 0, 0, .num 5⟩, ⟨some 1, 7, 0, .num 5⟩, rfl, rfl⟩

/-- C24 fails: an object holding NaN is `==` and `!=` itself; an unknown value likewise. -/
theorem C24_self_false :
    eqvSelf (.real .nan) = .ok true ∧ nevSelf (.real .nan) = .ok true ∧
    eqvSelf .unknown = .ok true ∧ nevSelf .unknown = .ok true ∧
    eqv (.real .nan) (.real .nan) = .ok false :=
  ⟨rfl, rfl, rfl, rfl, rfl⟩

/-- What `==` decides, for all values without raw data on the left: whether the right one is the left one
up to replacing its nulls. -/
theorem C24_eq_characterised (a b : OV) (h : NoRaw a) :
    ∃ r, eqv a b = .ok r ∧ (r = true ↔ Matches a b) := by
  obtain ⟨r, hr⟩ := eqv_noRaw a h b
  refine ⟨r, hr, ?_, ?_⟩
  · intro e; subst e; exact eqv_matches a b hr
  · intro m; rw [matches_eqv m] at hr; injection hr with hr; exact hr.symm

/-- `==` is transitive on all values. -/
theorem C24_transitive (a b c : OV) (h1 : eqv a b = .ok true) (h2 : eqv b c = .ok true) :
    eqv a c = .ok true :=
  matches_eqv (matches_trans (eqv_matches _ _ h1) (eqv_matches _ _ h2))

/-- C24, the part that holds: on values without null, raw data, unknown values and NaN, `==` answers
whether the two values are the same; hence it is an equivalence relation there, and `!=` on arrays is its
negation. -/
theorem C24_equality_partial (a b : OV) (ha : Plain a) (hb : Plain b) :
    (∃ r, eqv a b = .ok r ∧ eqv b a = .ok r ∧ (r = true ↔ a = b)) ∧ eqv a a = .ok true := by
  refine ⟨?_, matches_eqv (matches_refl a ha)⟩
  obtain ⟨r, hr, h1⟩ := C24_eq_characterised a b (plain_noRaw a ha)
  obtain ⟨s, hs, h2⟩ := C24_eq_characterised b a (plain_noRaw b hb)
  have e1 : r = true ↔ a = b :=
    ⟨fun e => matches_plain_eq (h1.1 e) ha, fun e => h1.2 (e ▸ matches_refl a ha)⟩
  have e2 : s = true ↔ a = b :=
    ⟨fun e => (matches_plain_eq (h2.1 e) hb).symm, fun e => h2.2 (e ▸ matches_refl a ha)⟩
  have : r = s := by
    cases r <;> cases s <;> simp_all
  exact ⟨r, hr, this ▸ hs, e1⟩

/-- `!=` on two different arrays is the negation of `==`. -/
theorem C24_array_ne_partial (a b : List OV) (h : NoRaw (.arr a)) :
    ∃ r, arrEq a b = .ok r ∧ arrNe a b = .ok (!r) := by
  obtain ⟨r, hr⟩ := eqv_noRaw (.arr a) h (.arr b)
  have : arrEq a b = .ok r := by simpa [arrEq, eqv] using hr
  exact ⟨r, this, by simp [arrNe, this]⟩

/-- Objects with the same reference in the same document are equal whatever they hold; a direct object is
compared by value. -/
theorem C24_object_partial (a b : OObj) (ha : Plain a.var) (hb : Plain b.var) :
    ((a.obj ≠ 0 ∨ a.gen ≠ 0) →
      ∃ r, objEq a b = .ok r ∧ (r = true ↔ a.doc = b.doc ∧ a.obj = b.obj ∧ a.gen = b.gen)) ∧
    ((a.obj = 0 ∧ a.gen = 0) → ∃ r, objEq a b = .ok r ∧ (r = true ↔ a.var = b.var)) := by
  constructor
  · intro h; simp only [objEq, if_pos h]; exact ⟨_, rfl, by simp⟩
  · intro h
    have h' : ¬ (a.obj ≠ 0 ∨ a.gen ≠ 0) := by simp [h]
    obtain ⟨⟨r, hr, _, he⟩, _⟩ := C24_equality_partial a.var b.var ha hb
    exact ⟨r, by simp only [objEq, if_neg h', hr], he⟩

/-- Non-vacuity: nested plain values, equal and unequal. -/
example : Plain (.dict [([65], .arr [.num 1, .str [66]])]) ∧
    eqv (.dict [([65], .arr [.num 1, .str [66]])]) (.dict [([65], .arr [.num 1, .str [66]])]) = .ok true ∧
    eqv (.dict [([65], .arr [.num 1, .str [66]])]) (.dict [([65], .arr [.num 2, .str [66]])]) = .ok false := by
  refine ⟨by simp [Plain, PlainM, PlainL], by simp [eqv, eqMap, eqList], by simp [eqv, eqMap, eqList]⟩

/-- Non-vacuity of transitivity with a null inside. -/
example : eqv (.arr [.null]) (.arr [.num 3]) = .ok true ∧ eqv (.arr [.num 3]) (.arr [.num 3]) = .ok true :=
  by simp [eqv, eqList]

end Pdfmm
