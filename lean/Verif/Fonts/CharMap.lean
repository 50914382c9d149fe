import Verif.Base.SMap
import Verif.Text.Utf
/-
The map between character codes and code points behind the fonts' encodings, `PdfCharCodeMap`, with the search tree
it builds in a random order.
-/
set_option autoImplicit false
namespace Pdfmm

/-! ### Model -/

/-- `PdfCharCode`, `src/pdfmm/base/PdfEncodingCommon.h:17-45`: a code and the number of its bytes. -/
structure CharCode where
  code : Nat
  size : Nat
  deriving DecidableEq, Repr

/-- `PdfCharCode::PdfCharCode()`, `src/pdfmm/base/PdfEncodingCommon.cpp:13-16`. -/
def CharCode.none : CharCode := ⟨0, 0⟩

/-- `CPMapNode`, `src/pdfmm/base/PdfCharCodeMap.h:88-95`: a node of a search tree for a code point, with the tree of the
code points which may follow. -/
inductive CPTree
  | nil
  | node (cp : Nat) (unit : CharCode) (lig left right : CPTree)

/-- `findNode`, `src/pdfmm/base/PdfCharCodeMap.cpp:199-210`: what the caller uses of the node. -/
def CPTree.find : CPTree → Nat → Option (CharCode × CPTree)
  | .nil, _ => .none
  | .node c u lig l r, cp =>
    if c = cp then some (u, lig)
    else if c > cp then l.find cp
    else r.find cp

/-- `findOrAddNode`, `src/pdfmm/base/PdfCharCodeMap.cpp:258-273`, with what the caller then does to the node. -/
def CPTree.update : CPTree → Nat → (CharCode × CPTree → CharCode × CPTree) → CPTree
  | .nil, cp, f => .node cp (f (CharCode.none, .nil)).1 (f (CharCode.none, .nil)).2 .nil .nil
  | .node c u lig l r, cp, f =>
    if c = cp then .node c (f (u, lig)).1 (f (u, lig)).2 l r
    else if c > cp then .node c u lig (l.update cp f) r
    else .node c u lig l (r.update cp f)

/-- The loop for one pair in `reviseCPMap`, `src/pdfmm/base/PdfCharCodeMap.cpp:226-244`. -/
def CPTree.addPath : CPTree → List Nat → CharCode → CPTree
  | t, [], _ => t
  | t, [cp], u => t.update cp fun x => (u, x.2)
  | t, cp :: rest, u => t.update cp fun x => (x.1, x.2.addPath rest u)

/-- The tree `reviseCPMap` builds from the shuffled pairs, `src/pdfmm/base/PdfCharCodeMap.cpp:208-248`. -/
def CPTree.build (order : List (CharCode × List Nat)) : CPTree :=
  order.foldl (fun t p => t.addPath p.2 p.1) .nil

/-- The walk in `TryGetCharCode` of several code points, `src/pdfmm/base/PdfCharCodeMap.cpp:92-110`. -/
def CPTree.walk : CPTree → List Nat → Option CharCode
  | _, [] => .none
  | t, [cp] => (t.find cp).map (·.1)
  | t, cp :: rest =>
    match t.find cp with
    | .none => .none
    | some (_, lig) => lig.walk rest

/-- `TryGetCharCode` of several code points, `src/pdfmm/base/PdfCharCodeMap.cpp:88-124`: the code when it returns true. -/
def CPTree.span (t : CPTree) (cps : List Nat) : Option CharCode :=
  match t.walk cps with
  | .none => .none
  | some u => if u.size = 0 then .none else some u

/-- `TryGetCharCode` of one code point, `src/pdfmm/base/PdfCharCodeMap.cpp:126-138`: the code when it returns true. -/
def CPTree.single (t : CPTree) (cp : Nat) : Option CharCode := (t.find cp).map (·.1)

/-- The end of `tryFindNextCharacterId`, `src/pdfmm/base/PdfCharCodeMap.cpp:177-191`. -/
def ownCode (u : CharCode) (rest : Bytes) : Option CharCode × Bytes :=
  if u.size = 0 then (.none, rest) else (some u, rest)

/-- `tryFindNextCharacterId`, `src/pdfmm/base/PdfCharCodeMap.cpp:161-197`: the code when it returns true, and the text from
the iterator on.  Invalid UTF-8 makes `utf8::next` throw.  The number bounds the recursion. -/
def CPTree.next : Nat → CPTree → Bytes → Res (Option CharCode × Bytes)
  | 0, _, _ => .error .diverge
  | n + 1, t, text =>
    match utf8Next text with
    | .none => .error .exn
    | some (cp, rest) =>
      match t.find cp with
      | .none => .ok (.none, rest)
      | some (u, lig) =>
        if rest = [] then .ok (ownCode u rest)
        else
          match CPTree.next n lig rest with
          | .error e => .error e
          | .ok (some c, r) => .ok (some c, r)
          | .ok (.none, _) => .ok (ownCode u rest)

/-- `PdfEncodingLimits`, `src/pdfmm/base/PdfEncodingCommon.h:72-90`. -/
structure CodeLimits where
  minSize : Nat
  maxSize : Nat
  first : CharCode
  last : CharCode
  deriving DecidableEq, Repr

/-- `PdfEncodingLimits::PdfEncodingLimits()`, `src/pdfmm/base/PdfEncodingCommon.cpp:117-120`.  The size of the last code is the
conversion of minus infinity to an unsigned byte, `GetCharCodeSize(0)`,
`src/pdfmm/private/PdfDeclarationsPrivate.cpp:1064-1067`, of which nothing is known: it is a parameter. -/
def CodeLimits.init (z : Nat) : CodeLimits := ⟨255, 0, ⟨4294967295, 4⟩, ⟨0, z⟩⟩

/-- `PdfCharCodeMap`, `src/pdfmm/base/PdfCharCodeMap.h:97-102`.  The `std::map` is ordered by the value of the code alone
(`PdfCharCode::operator<`, `src/pdfmm/base/PdfEncodingCommon.cpp:29-32`), so the size is a part of what is stored. -/
structure CodeMap where
  units : List (Nat × (Nat × List Nat))
  limits : CodeLimits
  tree : CPTree
  dirty : Bool

/-- `PdfCharCodeMap::PdfCharCodeMap()`, `src/pdfmm/base/PdfCharCodeMap.cpp:16-17`. -/
def CodeMap.init (z : Nat) : CodeMap := ⟨[], .init z, .nil, false⟩

/-- The pairs of the map in its order, `src/pdfmm/base/PdfCharCodeMap.cpp:222-224`. -/
def CodeMap.pairs (m : CodeMap) : List (CharCode × List Nat) := m.units.map fun p => (⟨p.1, p.2.1⟩, p.2.2)

/-- `m_CodeUnitMap[codeUnit] = codePoints`, `src/pdfmm/base/PdfCharCodeMap.cpp:140`: an equivalent key is kept. -/
def setUnit (us : List (Nat × (Nat × List Nat))) (c : CharCode) (cps : List Nat) : List (Nat × (Nat × List Nat)) :=
  match SMap.find? c.code us with
  | some (sz, _) => SMap.insert c.code (sz, cps) us
  | .none => SMap.insert c.code (c.size, cps) us

/-- The update of the limits, `src/pdfmm/base/PdfCharCodeMap.cpp:142-150`. -/
def CodeLimits.push (l : CodeLimits) (c : CharCode) : CodeLimits :=
  { minSize := if c.size < l.minSize then c.size else l.minSize
    maxSize := if c.size > l.maxSize then c.size else l.maxSize
    first := if c.code < l.first.code then c else l.first
    last := if c.code > l.last.code then c else l.last }

/-- `PushMapping`, `src/pdfmm/base/PdfCharCodeMap.cpp:54-67` and `135-154`. -/
def CodeMap.push (m : CodeMap) (c : CharCode) (cps : List Nat) : Res CodeMap :=
  if cps = [] then raise .InvalidHandle
  else if c.size = 0 then raise .InvalidHandle
  else .ok { m with units := setUnit m.units c cps, limits := m.limits.push c, dirty := true }

/-- `reviseCPMap`, `src/pdfmm/base/PdfCharCodeMap.cpp:212-256`, for an order of the pairs. -/
def CodeMap.revise (m : CodeMap) (order : List (CharCode × List Nat)) : CodeMap :=
  if m.dirty then { m with tree := .build order, dirty := false } else m

/-- `TryGetCodePoints`, `src/pdfmm/base/PdfCharCodeMap.cpp:69-80`: the code points when it returns true. -/
def CodeMap.codePoints (m : CodeMap) (c : CharCode) : Option (List Nat) := (SMap.find? c.code m.units).map (·.2)

/-- `TryGetCharCode` of several code points, `src/pdfmm/base/PdfCharCodeMap.cpp:88-124`, with the order the shuffle took. -/
def CodeMap.codeOf (m : CodeMap) (order : List (CharCode × List Nat)) (cps : List Nat) : Option CharCode :=
  (m.revise order).tree.span cps

/-- `TryGetCharCode` of one code point, `src/pdfmm/base/PdfCharCodeMap.cpp:126-138`. -/
def CodeMap.codeOfOne (m : CodeMap) (order : List (CharCode × List Nat)) (cp : Nat) : Option CharCode :=
  (m.revise order).tree.single cp

/-- `TryGetNextCharCode`, `src/pdfmm/base/PdfCharCodeMap.cpp:82-86`. -/
def CodeMap.nextCode (m : CodeMap) (order : List (CharCode × List Nat)) (text : Bytes) : Res (Option CharCode × Bytes) :=
  CPTree.next (text.length + 1) (m.revise order).tree text

/-- The histories of a map: mappings are pushed, lookups build the tree from the pairs in any order. -/
inductive CodeMap.Reach (z : Nat) : List (CharCode × List Nat) → CodeMap → Prop
  | init : Reach z [] (.init z)
  | push {ps : List (CharCode × List Nat)} {m m' : CodeMap} {c : CharCode} {cps : List Nat} :
      Reach z ps m → m.push c cps = .ok m' → Reach z (ps ++ [(c, cps)]) m'
  | lookup {ps : List (CharCode × List Nat)} {m : CodeMap} {order : List (CharCode × List Nat)} :
      Reach z ps m → order.Perm m.pairs → Reach z ps (m.revise order)

/-! ### Specification -/

namespace Spec

/-- After these pushes the code (value and size) stands for these code points. -/
def Maps (ps : List (CharCode × List Nat)) (c : CharCode) (cps : List Nat) : Prop :=
  ∃ a b, ps = a ++ (c, cps) :: b ∧ ∀ x ∈ b, x.1 ≠ c

/-- No two codes pushed have the same value and different sizes. -/
def OneSize (ps : List (CharCode × List Nat)) : Prop :=
  ∀ x ∈ ps, ∀ y ∈ ps, x.1.code = y.1.code → x.1 = y.1

/-- No code points stand behind two codes. -/
def Unambiguous (ps : List (CharCode × List Nat)) : Prop :=
  ∀ c d cps, Maps ps c cps → Maps ps d cps → c = d

end Spec
open Spec

/-! ### The tree -/

theorem CPTree.find_update (t : CPTree) (cp cp' : Nat) (f : CharCode × CPTree → CharCode × CPTree) :
    (t.update cp f).find cp' =
      if cp' = cp then some (f ((t.find cp).getD (CharCode.none, .nil))) else t.find cp' := by
  induction t with
  | nil =>
    simp only [update, find]
    by_cases h : cp' = cp
    · subst h; simp
    · rw [if_neg (fun e => h e.symm), if_neg h]; simp
  | node c u lig l r _ ihl ihr =>
    simp only [update, find]
    by_cases h1 : c = cp
    · subst h1
      rw [if_pos rfl, if_pos rfl]
      simp only [find]
      by_cases h : cp' = c
      · subst h; simp
      · rw [if_neg h]
        have h' : ¬ c = cp' := fun e => h e.symm
        simp only [if_neg h']
    · rw [if_neg h1, if_neg h1]
      by_cases h2 : c > cp
      · rw [if_pos h2, if_pos h2]
        simp only [find]
        by_cases h : cp' = cp
        · subst h; rw [if_neg h1, if_pos h2, ihl, if_pos rfl, if_pos rfl]
        · rw [if_neg h]
          by_cases h3 : c = cp'
          · rw [if_pos h3, if_pos h3]
          · rw [if_neg h3, if_neg h3]
            by_cases h4 : c > cp'
            · rw [if_pos h4, if_pos h4, ihl, if_neg h]
            · rw [if_neg h4, if_neg h4]
      · rw [if_neg h2, if_neg h2]
        simp only [find]
        by_cases h : cp' = cp
        · subst h; rw [if_neg h1, if_neg h2, ihr, if_pos rfl, if_pos rfl]
        · rw [if_neg h]
          by_cases h3 : c = cp'
          · rw [if_pos h3, if_pos h3]
          · rw [if_neg h3, if_neg h3]
            by_cases h4 : c > cp'
            · rw [if_pos h4, if_pos h4]
            · rw [if_neg h4, if_neg h4, ihr, if_neg h]

/-- The code at the end of a path, the empty one where there is none. -/
def CPTree.val (t : CPTree) (p : List Nat) : CharCode := (t.walk p).getD CharCode.none

theorem CPTree.val_nil (p : List Nat) : CPTree.nil.val p = CharCode.none := by
  match p with
  | [] => rfl
  | [_] => rfl
  | _ :: _ :: _ => rfl

theorem CPTree.val_one (t : CPTree) (cp : Nat) :
    t.val [cp] = ((t.find cp).getD (CharCode.none, .nil)).1 := by
  simp only [val, walk]; cases t.find cp <;> rfl

theorem CPTree.val_cons (t : CPTree) (cp d : Nat) (p : List Nat) :
    t.val (cp :: d :: p) = ((t.find cp).getD (CharCode.none, .nil)).2.val (d :: p) := by
  simp only [val, walk]
  cases t.find cp with
  | none => simp only [Option.getD_none]; exact (val_nil (d :: p)).symm
  | some x => rfl

theorem CPTree.val_addPath (t : CPTree) (p q : List Nat) (u : CharCode) (hp : p ≠ []) :
    (t.addPath p u).val q = if q = p then u else t.val q := by
  induction p generalizing t q with
  | nil => exact absurd rfl hp
  | cons cp rest ih =>
    cases q with
    | nil => rw [if_neg (by simp)]; rfl
    | cons cq qr =>
      cases rest with
      | nil =>
        rw [addPath]
        cases qr with
        | nil =>
          rw [val_one, find_update, val_one]
          by_cases h : cq = cp
          · rw [if_pos h, if_pos (by rw [h])]; rfl
          · rw [if_neg h, if_neg (by simpa using h)]
        | cons d qr =>
          rw [val_cons, find_update, val_cons, if_neg (show ¬ cq :: d :: qr = [cp] by simp)]
          by_cases h : cq = cp
          · rw [if_pos h, h]; rfl
          · rw [if_neg h]
      | cons e rest =>
        have ih := fun t q => ih t q (by simp)
        rw [addPath]
        · cases qr with
          | nil =>
            rw [val_one, find_update, val_one, if_neg (show ¬ [cq] = cp :: e :: rest by simp)]
            by_cases h : cq = cp
            · rw [if_pos h, h]; rfl
            · rw [if_neg h]
          | cons d qr =>
            rw [val_cons, find_update, val_cons]
            by_cases h : cq = cp
            · rw [if_pos h, h]
              simp only [Option.getD_some]
              rw [ih]
              by_cases h2 : d :: qr = e :: rest
              · rw [if_pos h2, if_pos (by rw [h2])]
              · rw [if_neg h2, if_neg (by simpa using h2)]
            · rw [if_neg h, if_neg (show ¬ cq :: d :: qr = cp :: e :: rest by intro e; simp at e; exact h e.1)]
        · simp

/-- The last code of a list of pairs with these code points. -/
def lastCode (order : List (CharCode × List Nat)) (p : List Nat) : Option CharCode :=
  order.foldl (fun a x => if x.2 = p then some x.1 else a) .none

theorem CPTree.val_foldl (order : List (CharCode × List Nat)) (t : CPTree) (a : Option CharCode) (p : List Nat)
    (hne : ∀ x ∈ order, x.2 ≠ []) (h : t.val p = a.getD CharCode.none) :
    (order.foldl (fun t x => t.addPath x.2 x.1) t).val p =
      (order.foldl (fun a x => if x.2 = p then some x.1 else a) a).getD CharCode.none := by
  induction order generalizing t a with
  | nil => exact h
  | cons x r ih =>
    simp only [List.foldl_cons]
    refine ih _ _ (fun y hy => hne y (List.mem_cons_of_mem _ hy)) ?_
    rw [val_addPath _ _ _ _ (hne x List.mem_cons_self)]
    by_cases e : p = x.2
    · rw [if_pos e, if_pos e.symm]; rfl
    · rw [if_neg e, if_neg (fun h => e h.symm), h]

theorem CPTree.val_build (order : List (CharCode × List Nat)) (p : List Nat) (hne : ∀ x ∈ order, x.2 ≠ []) :
    (CPTree.build order).val p = (lastCode order p).getD CharCode.none :=
  val_foldl order .nil .none p hne (val_nil p)

theorem lastCode_append (a : List (CharCode × List Nat)) (x : CharCode × List Nat) (p : List Nat) :
    lastCode (a ++ [x]) p = if x.2 = p then some x.1 else lastCode a p := by
  simp [lastCode]

theorem foldl_last_mem (order : List (CharCode × List Nat)) (p : List Nat) (a : Option CharCode) (c : CharCode)
    (h : order.foldl (fun a x => if x.2 = p then some x.1 else a) a = some c) :
    (c, p) ∈ order ∨ a = some c := by
  induction order generalizing a with
  | nil => exact Or.inr h
  | cons x r ih =>
    simp only [List.foldl_cons] at h
    rcases ih _ h with h1 | h1
    · exact Or.inl (List.mem_cons_of_mem _ h1)
    · by_cases e : x.2 = p
      · rw [if_pos e] at h1
        have : x = (c, p) := by
          cases x; simp only [Option.some.injEq] at h1; simp only at e; rw [h1, e]
        rw [this]; exact Or.inl List.mem_cons_self
      · rw [if_neg e] at h1; exact Or.inr h1

theorem lastCode_mem {order : List (CharCode × List Nat)} {p : List Nat} {c : CharCode}
    (h : lastCode order p = some c) : (c, p) ∈ order := by
  rcases foldl_last_mem order p _ c h with h | h
  · exact h
  · simp at h

theorem foldl_last_some (order : List (CharCode × List Nat)) (p : List Nat) (a : Option CharCode)
    (ha : a.isSome ∨ ∃ c, (c, p) ∈ order) :
    (order.foldl (fun a x => if x.2 = p then some x.1 else a) a).isSome := by
  induction order generalizing a with
  | nil =>
    rcases ha with h | ⟨c, h⟩
    · exact h
    · simp at h
  | cons x r ih =>
    simp only [List.foldl_cons]
    refine ih _ ?_
    by_cases e : x.2 = p
    · left; rw [if_pos e]; rfl
    · rw [if_neg e]
      rcases ha with h | ⟨c, h⟩
      · exact Or.inl h
      · rcases List.mem_cons.1 h with h | h
        · rw [← h] at e; exact absurd rfl e
        · exact Or.inr ⟨c, h⟩

theorem lastCode_none {order : List (CharCode × List Nat)} {p : List Nat} (h : lastCode order p = .none) (c : CharCode) :
    (c, p) ∉ order := by
  intro hm
  have := foldl_last_some order p .none (Or.inr ⟨c, hm⟩)
  rw [lastCode] at h
  rw [h] at this
  simp at this

theorem CPTree.span_val (t : CPTree) (p : List Nat) :
    t.span p = if (t.val p).size = 0 then .none else some (t.val p) := by
  rw [span, val]
  cases t.walk p with
  | none => rfl
  | some u => rfl

/-- What a tree built from pairs returns: the last code with these code points. -/
theorem CPTree.span_build (order : List (CharCode × List Nat)) (p : List Nat)
    (hne : ∀ x ∈ order, x.2 ≠ []) (hsz : ∀ x ∈ order, x.1.size ≠ 0) :
    (CPTree.build order).span p = lastCode order p := by
  rw [span_val, val_build order p hne]
  cases h : lastCode order p with
  | none => rfl
  | some c =>
    have := hsz _ (lastCode_mem h)
    simp only [Option.getD_some]
    rw [if_neg this]

/-! ### Histories -/

theorem setUnit_sorted {us : List (Nat × (Nat × List Nat))} (h : SMap.Sorted us) (c : CharCode) (cps : List Nat) :
    SMap.Sorted (setUnit us c cps) := by
  rw [setUnit]; split <;> exact SMap.sorted_insert _ _ _ h

theorem setUnit_find (us : List (Nat × (Nat × List Nat))) (c : CharCode) (cps : List Nat) (k : Nat) :
    SMap.find? k (setUnit us c cps) =
      if k = c.code then some (((SMap.find? c.code us).map (·.1)).getD c.size, cps) else SMap.find? k us := by
  rw [setUnit]
  cases h : SMap.find? c.code us with
  | none => simp only; rw [SMap.find_insert]; rfl
  | some x => simp only; rw [SMap.find_insert]; rfl

theorem mem_pairs {m : CodeMap} (hs : SMap.Sorted m.units) (c : CharCode) (cps : List Nat) :
    (c, cps) ∈ m.pairs ↔ SMap.find? c.code m.units = some (c.size, cps) := by
  constructor
  · intro h
    obtain ⟨x, hx, he⟩ := List.mem_map.1 h
    have h1 : x = (c.code, (c.size, cps)) := by
      obtain ⟨k, sz, l⟩ := x
      simp only [Prod.mk.injEq] at he
      rw [← he.1, ← he.2]
    exact SMap.mem_find hs (h1 ▸ hx)
  · intro h
    exact List.mem_map.2 ⟨_, SMap.find_mem h, rfl⟩

/-- What holds after every history. -/
structure CodeMap.Inv (ps : List (CharCode × List Nat)) (m : CodeMap) : Prop where
  sorted : SMap.Sorted m.units
  good : ∀ x ∈ m.pairs, x.2 ≠ [] ∧ x.1.size ≠ 0
  seen : ∀ x ∈ ps, (SMap.find? x.1.code m.units).isSome
  from_ps : ∀ k sz cps, SMap.find? k m.units = some (sz, cps) → ∃ x ∈ ps, x.1 = ⟨k, sz⟩
  clean : m.dirty = false → ∃ order, order.Perm m.pairs ∧ m.tree = CPTree.build order
  maps : OneSize ps → ∀ c cps, (c, cps) ∈ m.pairs ↔ Maps ps c cps

theorem Maps_append {ps : List (CharCode × List Nat)} (c d : CharCode) (cps e : List Nat) :
    Maps (ps ++ [(d, e)]) c cps ↔ (c = d ∧ cps = e) ∨ (c ≠ d ∧ Maps ps c cps) := by
  constructor
  · rintro ⟨a, b, h, hb⟩
    rcases List.eq_nil_or_concat b with hn | ⟨b', x, hx⟩
    · subst hn
      have := List.append_inj' h rfl
      simp only [List.cons.injEq, Prod.mk.injEq, and_true] at this
      exact Or.inl ⟨this.2.1.symm, this.2.2.symm⟩
    · rw [hx, List.concat_eq_append] at h
      have h2 : ps ++ [(d, e)] = (a ++ (c, cps) :: b') ++ [x] := by rw [h]; simp
      have := List.append_inj' h2 rfl
      have hx2 : x = (d, e) := by simpa using this.2.symm
      right
      refine ⟨?_, a, b', this.1, ?_⟩
      · intro e'
        have := hb x (by rw [hx]; simp)
        rw [hx2] at this; exact this e'.symm
      · intro y hy; exact hb y (by rw [hx]; simp [hy])
  · rintro (⟨rfl, rfl⟩ | ⟨hne, a, b, h, hb⟩)
    · exact ⟨ps, [], rfl, by simp⟩
    · refine ⟨a, b ++ [(d, e)], by rw [h]; simp, ?_⟩
      intro x hx
      rcases List.mem_append.1 hx with hx | hx
      · exact hb x hx
      · rw [List.mem_singleton.1 hx]; exact fun e' => hne e'.symm

theorem CodeMap.reach_inv {z : Nat} {ps : List (CharCode × List Nat)} {m : CodeMap} (h : CodeMap.Reach z ps m) :
    m.Inv ps := by
  induction h with
  | init =>
    refine ⟨trivial, by simp [CodeMap.pairs, CodeMap.init], by simp, by simp [CodeMap.init, SMap.find?], ?_, ?_⟩
    · intro _; exact ⟨[], by simp [CodeMap.pairs, CodeMap.init], rfl⟩
    · intro _ c cps
      simp [CodeMap.pairs, CodeMap.init, Maps]
  | @lookup ps m order _ hp ih =>
    rw [CodeMap.revise]
    split
    · exact ⟨ih.sorted, ih.good, ih.seen, ih.from_ps, fun _ => ⟨order, hp, rfl⟩, ih.maps⟩
    · exact ih
  | @push ps m m' c cps _ hpush ih =>
    rw [CodeMap.push] at hpush
    split at hpush
    · simp at hpush
    · rename_i hne
      split at hpush
      · simp at hpush
      · rename_i hsz
        simp only [Except.ok.injEq] at hpush
        subst hpush
        have hsorted : SMap.Sorted (setUnit m.units c cps) := setUnit_sorted ih.sorted c cps
        have hfrom : ∀ k sz l, SMap.find? k (setUnit m.units c cps) = some (sz, l) →
            ∃ x ∈ ps ++ [(c, cps)], x.1 = ⟨k, sz⟩ := by
          intro k sz l hk
          rw [setUnit_find] at hk
          by_cases e : k = c.code
          · rw [if_pos e] at hk
            simp only [Option.some.injEq, Prod.mk.injEq] at hk
            cases hf : SMap.find? c.code m.units with
            | none =>
              rw [hf] at hk
              refine ⟨(c, cps), by simp, ?_⟩
              simp only [Option.map_none, Option.getD_none] at hk
              rw [e, ← hk.1]
            | some y =>
              rw [hf] at hk
              simp only [Option.map_some, Option.getD_some] at hk
              obtain ⟨x, hx, hx2⟩ := ih.from_ps c.code y.1 y.2 hf
              exact ⟨x, List.mem_append_left _ hx, by rw [hx2, e, hk.1]⟩
          · rw [if_neg e] at hk
            obtain ⟨x, hx, hx2⟩ := ih.from_ps k sz l hk
            exact ⟨x, List.mem_append_left _ hx, hx2⟩
        refine ⟨hsorted, ?_, ?_, hfrom, by simp, ?_⟩
        · intro x hx
          have hx1 := (mem_pairs (m := { m with units := setUnit m.units c cps, limits := m.limits.push c, dirty := true })
            hsorted x.1 x.2).1 hx
          simp only at hx1
          rw [setUnit_find] at hx1
          by_cases e : x.1.code = c.code
          · rw [if_pos e] at hx1
            simp only [Option.some.injEq, Prod.mk.injEq] at hx1
            refine ⟨hx1.2 ▸ hne, ?_⟩
            cases hf : SMap.find? c.code m.units with
            | none => rw [hf] at hx1; rw [← hx1.1]; exact hsz
            | some y =>
              rw [hf] at hx1
              simp only [Option.map_some, Option.getD_some] at hx1
              have := ih.good (⟨c.code, y.1⟩, y.2) ((mem_pairs ih.sorted _ _).2 hf)
              rw [← hx1.1]; exact this.2
          · rw [if_neg e] at hx1
            exact ih.good x ((mem_pairs ih.sorted _ _).2 hx1)
        · intro x hx
          rw [setUnit_find]
          by_cases e : x.1.code = c.code
          · rw [if_pos e]; rfl
          · rw [if_neg e]
            rcases List.mem_append.1 hx with hx | hx
            · exact ih.seen x hx
            · rw [List.mem_singleton.1 hx] at e; exact absurd rfl e
        · intro hone d e
          have hone' : OneSize ps := fun x hx y hy =>
            hone x (List.mem_append_left _ hx) y (List.mem_append_left _ hy)
          rw [Maps_append, mem_pairs hsorted, ← ih.maps hone', mem_pairs ih.sorted]
          rw [setUnit_find]
          by_cases he : d.code = c.code
          · rw [if_pos he]
            have hsame : ((SMap.find? c.code m.units).map (·.1)).getD c.size = c.size := by
              cases hf : SMap.find? c.code m.units with
              | none => rfl
              | some y =>
                obtain ⟨x, hx, hx2⟩ := ih.from_ps c.code y.1 y.2 hf
                have := hone x (List.mem_append_left _ hx) (c, cps) (by simp) (by rw [hx2])
                simp only [Option.map_some, Option.getD_some]
                rw [hx2] at this
                simp only at this
                rw [← this]
            rw [hsame]
            constructor
            · intro hh
              simp only [Option.some.injEq, Prod.mk.injEq] at hh
              left
              refine ⟨?_, hh.2.symm⟩
              cases c; cases d; simp only at he hh; rw [he, hh.1]
            · rintro (⟨h1, h2⟩ | ⟨h1, h2⟩)
              · rw [h1, h2]
              · obtain ⟨x, hx, hx2⟩ := ih.from_ps d.code d.size e h2
                have := hone x (List.mem_append_left _ hx) (c, cps) (by simp) (by rw [hx2]; exact he)
                rw [hx2] at this
                exact absurd this h1
          · rw [if_neg he]
            constructor
            · intro hh; exact Or.inr ⟨fun e' => he (by rw [e']), hh⟩
            · rintro (⟨h1, _⟩ | ⟨_, h2⟩)
              · exact absurd (by rw [h1]) he
              · exact h2

/-- The tree a lookup searches was built from the pairs of the map in some order. -/
theorem CodeMap.revised {z : Nat} {ps : List (CharCode × List Nat)} {m : CodeMap} (h : CodeMap.Reach z ps m)
    {order : List (CharCode × List Nat)} (ho : order.Perm m.pairs) :
    ∃ order', order'.Perm m.pairs ∧ (m.revise order).tree = CPTree.build order' := by
  have := (CodeMap.reach_inv (CodeMap.Reach.lookup h ho)).clean (by
    rw [CodeMap.revise]; split
    · rfl
    · rename_i hd; simpa using hd)
  have hp : (m.revise order).pairs = m.pairs := by rw [CodeMap.revise]; split <;> rfl
  rwa [hp] at this

theorem CodeMap.codeOf_eq {z : Nat} {ps : List (CharCode × List Nat)} {m : CodeMap} (h : CodeMap.Reach z ps m)
    {order : List (CharCode × List Nat)} (ho : order.Perm m.pairs) :
    ∃ order', order'.Perm m.pairs ∧ (m.revise order).tree = CPTree.build order' ∧
      ∀ cps, (m.revise order).tree.span cps = lastCode order' cps := by
  obtain ⟨o, hp, ht⟩ := CodeMap.revised h ho
  have hg := (CodeMap.reach_inv h).good
  refine ⟨o, hp, ht, fun cps => ?_⟩
  rw [ht]
  exact CPTree.span_build o cps (fun x hx => (hg x (hp.mem_iff.1 hx)).1) (fun x hx => (hg x (hp.mem_iff.1 hx)).2)

/-! ### Theorems -/

/-- **C56**, partial.  For codes that are told apart by their values, after any history of pushes and lookups and
whatever order the tree was built in, a lookup returns exactly the code which stands for the given code points, as long
as no other code stands for them too. -/
theorem C56_any_order_partial {z : Nat} {ps : List (CharCode × List Nat)} {m : CodeMap}
    (h : CodeMap.Reach z ps m) (h1 : OneSize ps) (h2 : Unambiguous ps)
    {order : List (CharCode × List Nat)} (ho : order.Perm m.pairs) (cps : List Nat) (c : CharCode) :
    m.codeOf order cps = some c ↔ Maps ps c cps := by
  obtain ⟨o, hp, _, hs⟩ := CodeMap.codeOf_eq h ho
  have hm := (CodeMap.reach_inv h).maps h1
  rw [CodeMap.codeOf, hs]
  constructor
  · intro hl; exact (hm c cps).1 (hp.mem_iff.1 (lastCode_mem hl))
  · intro hM
    cases hl : lastCode o cps with
    | none => exact absurd (hp.mem_iff.2 ((hm c cps).2 hM)) (lastCode_none hl c)
    | some d =>
      rw [h2 c d cps hM ((hm d cps).1 (hp.mem_iff.1 (lastCode_mem hl)))]

theorem perm_to_end {α : Type} {l : List α} {x : α} (h : x ∈ l) : ∃ a, (a ++ [x]).Perm l := by
  obtain ⟨a, b, rfl⟩ := List.append_of_mem h
  exact ⟨a ++ b, by
    have : (a ++ b ++ [x]).Perm (a ++ (b ++ [x])) := by rw [List.append_assoc]
    exact this.trans (List.Perm.append_left a (List.perm_append_comm))⟩

/-- **C56** is false: whenever two codes stand for the same code points, one order of building the tree makes the lookup
return the one and another order makes it return the other. -/
theorem C56_order_matters_false {z : Nat} {ps : List (CharCode × List Nat)} {m : CodeMap}
    (h : CodeMap.Reach z ps m) (h1 : OneSize ps) (hd : m.dirty = true)
    {c d : CharCode} {cps : List Nat} (hc : Maps ps c cps) (hd2 : Maps ps d cps) :
    (∃ o, o.Perm m.pairs ∧ m.codeOf o cps = some c) ∧ (∃ o, o.Perm m.pairs ∧ m.codeOf o cps = some d) := by
  have inv := CodeMap.reach_inv h
  have key : ∀ e, Maps ps e cps → ∃ o, o.Perm m.pairs ∧ m.codeOf o cps = some e := by
    intro e he
    obtain ⟨a, ha⟩ := perm_to_end ((inv.maps h1 e cps).2 he)
    refine ⟨a ++ [(e, cps)], ha, ?_⟩
    rw [CodeMap.codeOf, CodeMap.revise, if_pos hd]
    show (CPTree.build (a ++ [(e, cps)])).span cps = some e
    rw [CPTree.span_build _ cps (fun x hx => (inv.good x (ha.mem_iff.1 hx)).1)
      (fun x hx => (inv.good x (ha.mem_iff.1 hx)).2), lastCode_append, if_pos rfl]
  exact ⟨key c hc, key d hd2⟩

/-- **C58**, partial.  A lookup of a sequence of code points returns true exactly when some code stands for it, and
returns such a code. -/
theorem C58_sequence_partial {z : Nat} {ps : List (CharCode × List Nat)} {m : CodeMap}
    (h : CodeMap.Reach z ps m) (h1 : OneSize ps) {order : List (CharCode × List Nat)} (ho : order.Perm m.pairs)
    (cps : List Nat) :
    (∀ c, m.codeOf order cps = some c → Maps ps c cps) ∧
      (m.codeOf order cps = .none → ∀ c, ¬ Maps ps c cps) := by
  obtain ⟨o, hp, _, hs⟩ := CodeMap.codeOf_eq h ho
  have hm := (CodeMap.reach_inv h).maps h1
  simp only [CodeMap.codeOf]
  rw [hs]
  exact ⟨fun c hl => (hm c cps).1 (hp.mem_iff.1 (lastCode_mem hl)),
    fun hl c hM => lastCode_none hl c (hp.mem_iff.2 ((hm c cps).2 hM))⟩

theorem CPTree.walk_prefix (t : CPTree) (cp d : Nat) (p : List Nat) (h : (t.val (cp :: d :: p)).size ≠ 0) :
    ∃ x, t.find cp = some x := by
  rw [val_cons] at h
  cases hf : t.find cp with
  | some x => exact ⟨x, rfl⟩
  | none =>
    rw [hf] at h
    simp only [Option.getD_none] at h
    rw [val_nil] at h
    exact absurd rfl h

/-- **C58** is false: a code point for which no code stands, but which begins a sequence some code stands for, is
looked up with success, and the code returned is the empty one. -/
theorem C58_single_false {z : Nat} {ps : List (CharCode × List Nat)} {m : CodeMap}
    (h : CodeMap.Reach z ps m) (h1 : OneSize ps) {order : List (CharCode × List Nat)} (ho : order.Perm m.pairs)
    (cp d : Nat) (rest : List Nat) (c : CharCode) (hc : Maps ps c (cp :: d :: rest)) (hn : ∀ e, ¬ Maps ps e [cp]) :
    m.codeOfOne order cp = some CharCode.none := by
  obtain ⟨o, hp, ht, hs⟩ := CodeMap.codeOf_eq h ho
  have inv := CodeMap.reach_inv h
  have hm := inv.maps h1
  have hne : ∀ x ∈ o, x.2 ≠ [] := fun x hx => (inv.good x (hp.mem_iff.1 hx)).1
  rw [CodeMap.codeOfOne, CPTree.single, ht]
  have hv : (CPTree.build o).val [cp] = CharCode.none := by
    rw [CPTree.val_build o _ hne]
    cases hl : lastCode o [cp] with
    | none => rfl
    | some e => exact absurd ((hm e [cp]).1 (hp.mem_iff.1 (lastCode_mem hl))) (hn e)
  have hv2 : ((CPTree.build o).val (cp :: d :: rest)).size ≠ 0 := by
    rw [CPTree.val_build o _ hne]
    cases hl : lastCode o (cp :: d :: rest) with
    | none => exact absurd (hp.mem_iff.2 ((hm c _).2 hc)) (lastCode_none hl c)
    | some e => exact (inv.good _ (hp.mem_iff.1 (lastCode_mem hl))).2
  obtain ⟨x, hx⟩ := CPTree.walk_prefix _ _ _ _ hv2
  rw [CPTree.val_one, hx] at hv
  rw [hx]
  simpa using hv

/-- **C58**, partial.  A lookup of a single code point returns true exactly when a code stands for it or it begins a
sequence some code stands for, and a code returned that is not the empty one stands for the code point. -/
theorem C58_single_partial {z : Nat} {ps : List (CharCode × List Nat)} {m : CodeMap}
    (h : CodeMap.Reach z ps m) (h1 : OneSize ps) {order : List (CharCode × List Nat)} (ho : order.Perm m.pairs)
    (cp : Nat) (c : CharCode) :
    m.codeOfOne order cp = some c → c ≠ CharCode.none → Maps ps c [cp] := by
  intro hc hne
  have hs := C58_sequence_partial h h1 ho [cp]
  refine hs.1 c ?_
  rw [CodeMap.codeOf]
  rw [CodeMap.codeOfOne, CPTree.single] at hc
  rw [CPTree.span, CPTree.walk, hc]
  simp only
  obtain ⟨o, hp, ht, hs'⟩ := CodeMap.codeOf_eq h ho
  have inv := CodeMap.reach_inv h
  have hv : (m.revise order).tree.val [cp] = c := by
    rw [CPTree.val, CPTree.walk, hc]; rfl
  rw [ht, CPTree.val_build o _ (fun x hx => (inv.good x (hp.mem_iff.1 hx)).1)] at hv
  cases hl : lastCode o [cp] with
  | none => rw [hl] at hv; exact absurd hv.symm hne
  | some e =>
    rw [hl] at hv
    simp only [Option.getD_some] at hv
    rw [if_neg (hv ▸ (inv.good _ (hp.mem_iff.1 (lastCode_mem hl))).2)]

/-- The longest beginning of a list of code points with a code in a tree. -/
theorem CPTree.next_longest (n : Nat) (t : CPTree) (cps : List Nat) (hs : ∀ cp ∈ cps, IsScalar cp) (hne : cps ≠ [])
    (hn : cps.length ≤ n) :
    (∃ p r c, cps = p ++ r ∧ p ≠ [] ∧ t.val p = c ∧ c.size ≠ 0 ∧ CPTree.next n t (utf8Encode cps) = .ok (some c, utf8Encode r) ∧
      ∀ q s, cps = q ++ s → (t.val q).size ≠ 0 → q.length ≤ p.length) ∨
    (∃ r, CPTree.next n t (utf8Encode cps) = .ok (.none, r) ∧
      ∀ q s, cps = q ++ s → (t.val q).size = 0) := by
  induction n generalizing t cps with
  | zero => cases cps with
    | nil => exact absurd rfl hne
    | cons => simp at hn
  | succ n ih =>
    cases cps with
    | nil => exact absurd rfl hne
    | cons cp rest =>
      have hcp := hs cp List.mem_cons_self
      have henc : utf8Encode (cp :: rest) = utf8Append cp ++ utf8Encode rest := rfl
      have hnx : utf8Next (utf8Encode (cp :: rest)) = some (cp, utf8Encode rest) := by
        rw [henc]; exact utf8Next_append hcp _
      have hnil : utf8Encode rest = [] ↔ rest = [] := by
        constructor
        · intro h
          cases rest with
          | nil => rfl
          | cons a b =>
            exfalso
            have : utf8Encode (a :: b) = utf8Append a ++ utf8Encode b := rfl
            rw [this] at h
            have h2 := utf8Append_length a
            have := congrArg List.length h
            rw [List.length_append] at this
            simp only [List.length_nil] at this
            omega
        · rintro rfl; rfl
      have hvnil : (t.val []).size = 0 := rfl
      have hqs : ∀ q s, cp :: rest = q ++ s → q = [] ∨ ∃ q', q = cp :: q' ∧ rest = q' ++ s := by
        intro q s h
        cases q with
        | nil => exact Or.inl rfl
        | cons a q' =>
          simp only [List.cons_append, List.cons.injEq] at h
          exact Or.inr ⟨q', by rw [h.1], h.2⟩
      rw [CPTree.next, hnx]
      simp only
      cases hf : t.find cp with
      | none =>
        right
        refine ⟨_, rfl, ?_⟩
        intro q s h
        rcases hqs q s h with rfl | ⟨q', rfl, _⟩
        · rfl
        · cases q' with
          | nil => rw [val_one, hf]; rfl
          | cons d q' => rw [val_cons, hf]; simp only [Option.getD_none]; rw [val_nil]; rfl
      | some x =>
        obtain ⟨u, lig⟩ := x
        simp only
        have hv1 : t.val [cp] = u := by rw [val_one, hf]; rfl
        have hv2 : ∀ d q, t.val (cp :: d :: q) = lig.val (d :: q) := by intro d q; rw [val_cons, hf]; rfl
        -- the node's own code, when nothing longer matches
        have own : (∀ q' s, rest = q' ++ s → q' ≠ [] → (lig.val q').size = 0) →
            (∃ p r c, cp :: rest = p ++ r ∧ p ≠ [] ∧ t.val p = c ∧ c.size ≠ 0 ∧
              Except.ok (ε := Fault) (ownCode u (utf8Encode rest)) = .ok (some c, utf8Encode r) ∧
              ∀ q s, cp :: rest = q ++ s → (t.val q).size ≠ 0 → q.length ≤ p.length) ∨
            (∃ r, Except.ok (ε := Fault) (ownCode u (utf8Encode rest)) = .ok (.none, r) ∧
              ∀ q s, cp :: rest = q ++ s → (t.val q).size = 0) := by
          intro hlig
          by_cases hu : u.size = 0
          · right
            refine ⟨utf8Encode rest, by rw [ownCode, if_pos hu], ?_⟩
            intro q s h
            rcases hqs q s h with rfl | ⟨q', rfl, h'⟩
            · rfl
            · cases q' with
              | nil => rw [hv1]; exact hu
              | cons d q' => rw [hv2]; exact hlig _ s h' (by simp)
          · left
            refine ⟨[cp], rest, u, rfl, by simp, hv1, hu, by rw [ownCode, if_neg hu], ?_⟩
            intro q s h hq
            rcases hqs q s h with rfl | ⟨q', rfl, h'⟩
            · simp
            · cases q' with
              | nil => simp
              | cons d q' => rw [hv2] at hq; exact absurd (hlig _ s h' (by simp)) hq
        by_cases hr : rest = []
        · rw [if_pos (hnil.2 hr)]
          refine own ?_
          intro q' s h hq
          rw [hr] at h
          simp only [List.nil_eq, List.append_eq_nil_iff] at h
          exact absurd h.1 hq
        · rw [if_neg (fun h => hr (hnil.1 h))]
          rcases ih lig rest (fun c hc => hs c (List.mem_cons_of_mem _ hc)) hr (by simpa using hn) with
            ⟨p, r, c, h1, h2, h3, h4, h5, h6⟩ | ⟨r, h1, h2⟩
          · rw [h5]
            left
            cases p with
            | nil => exact absurd rfl h2
            | cons d p =>
              refine ⟨cp :: d :: p, r, c, by rw [h1]; rfl, by simp, by rw [hv2]; exact h3, h4, rfl, ?_⟩
              intro q s h hq
              rcases hqs q s h with rfl | ⟨q', rfl, h'⟩
              · simp
              · cases q' with
                | nil => simp
                | cons e q' =>
                  rw [hv2] at hq
                  have := h6 _ s h' hq
                  simp only [List.length_cons] at *
                  omega
          · rw [h1]
            exact own (fun q' s h _ => h2 q' s h)

/-- **C57**, partial.  Given a text in UTF-8, the next character code is that of the longest beginning of the text for which a code
stands, exactly this beginning is consumed, and the call returns false exactly when there is no such beginning. -/
theorem C57_longest_partial {z : Nat} {ps : List (CharCode × List Nat)} {m : CodeMap}
    (h : CodeMap.Reach z ps m) (h1 : OneSize ps) {order : List (CharCode × List Nat)} (ho : order.Perm m.pairs)
    (cps : List Nat) (hs : ∀ cp ∈ cps, IsScalar cp) (hne : cps ≠ []) :
    (∃ p r c, cps = p ++ r ∧ Maps ps c p ∧ m.nextCode order (utf8Encode cps) = .ok (some c, utf8Encode r) ∧
      ∀ q s d, cps = q ++ s → Maps ps d q → q.length ≤ p.length) ∨
    (∃ r, m.nextCode order (utf8Encode cps) = .ok (.none, r) ∧ ∀ q s d, cps = q ++ s → ¬ Maps ps d q) := by
  obtain ⟨o, hp, ht, hsp⟩ := CodeMap.codeOf_eq h ho
  have inv := CodeMap.reach_inv h
  have hm := inv.maps h1
  have hlen : cps.length ≤ (utf8Encode cps).length + 1 := by
    clear hs hne
    induction cps with
    | nil => simp
    | cons a b ih =>
      have : utf8Encode (a :: b) = utf8Append a ++ utf8Encode b := rfl
      rw [this, List.length_append, List.length_cons]
      have := utf8Append_length a
      omega
  have hval : ∀ q, (((m.revise order).tree.val q).size ≠ 0 → Maps ps ((m.revise order).tree.val q) q) ∧
      (((m.revise order).tree.val q).size = 0 → ∀ d, ¬ Maps ps d q) := by
    intro q
    have hv : (m.revise order).tree.val q = (lastCode o q).getD CharCode.none := by
      rw [ht]; exact CPTree.val_build o q (fun x hx => (inv.good x (hp.mem_iff.1 hx)).1)
    rw [hv]
    cases hl : lastCode o q with
    | none =>
      refine ⟨fun hh => absurd rfl hh, fun _ d hd => lastCode_none hl d (hp.mem_iff.2 ((hm d q).2 hd))⟩
    | some c =>
      have hmem := hp.mem_iff.1 (lastCode_mem hl)
      exact ⟨fun _ => (hm c q).1 hmem, fun hz => absurd hz (inv.good _ hmem).2⟩
  rcases CPTree.next_longest _ (m.revise order).tree cps hs hne hlen with
    ⟨p, r, c, h1, h2, h3, h4, h5, h6⟩ | ⟨r, h1, h2⟩
  · left
    refine ⟨p, r, c, h1, h3 ▸ (hval p).1 (h3 ▸ h4), h5, ?_⟩
    intro q s d hq hd
    refine h6 q s hq ?_
    intro hz
    exact (hval q).2 hz d hd
  · exact Or.inr ⟨r, h1, fun q s d hq => (hval q).2 (h2 q s hq) d⟩

/-! ### Non-vacuity -/

/-- A map with a ligature: `f` and `fi` have codes, `t` only begins `th`. -/
def sampleMap : List (CharCode × List Nat) := [(⟨1, 1⟩, [102]), (⟨2, 1⟩, [102, 105]), (⟨3, 1⟩, [116, 104])]

def pushAll (m : CodeMap) : List (CharCode × List Nat) → Res CodeMap
  | [] => .ok m
  | (c, cps) :: r => match m.push c cps with | .error e => .error e | .ok m' => pushAll m' r

theorem reach_pushAll {z : Nat} {ps qs : List (CharCode × List Nat)} {m m' : CodeMap} (h : CodeMap.Reach z ps m)
    (hp : pushAll m qs = .ok m') : CodeMap.Reach z (ps ++ qs) m' := by
  induction qs generalizing ps m with
  | nil => simp only [pushAll, Except.ok.injEq] at hp; rw [← hp]; simpa using h
  | cons q r ih =>
    obtain ⟨c, cps⟩ := q
    rw [pushAll] at hp
    split at hp
    · simp at hp
    · rename_i m1 hm
      have := ih (h.push hm) hp
      simpa using this

/-- The hypotheses hold for a map with ligatures, with a single `t` being found although no code stands for it. -/
example : ∃ m, CodeMap.Reach 1 sampleMap m ∧ OneSize sampleMap ∧ m.dirty = true ∧
    m.codeOf m.pairs [102, 105] = some ⟨2, 1⟩ ∧ m.codeOfOne m.pairs 116 = some CharCode.none ∧
    m.nextCode m.pairs [102, 105, 120] = .ok (some ⟨2, 1⟩, [120]) ∧
    m.nextCode m.pairs [102, 120] = .ok (some ⟨1, 1⟩, [120]) := by
  refine ⟨_, reach_pushAll .init rfl, by simp [OneSize, sampleMap], rfl, by decide, by decide, by decide, by decide⟩

end Pdfmm
