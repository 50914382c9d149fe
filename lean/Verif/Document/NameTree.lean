import Verif.Document.NameTreeRoot
/-
Name trees: what can be looked up after values have been added, and what the tree looks like.
-/
set_option autoImplicit false
namespace Pdfmm
open Spec

variable {V : Type}

/-! ### Specification -/

namespace Spec

/-- The last value added for the key. -/
def lastAdded (key : Bytes) : List (Bytes × V) → Option V
  | [] => none
  | (k, v) :: r => (lastAdded key r).or (if k = key then some v else none)

/-- The value is an object itself (`w = v`) or refers to the object `w`, which is no reference. -/
def Means (deref : V → Option V) (v w : V) : Prop := deref v = some w ∧ deref w = some w

/-- The document has no tree yet, or one with the given entries, and numbers not given out have no objects. -/
def TreeOf (N : Nat) (t : NTree V) (es : List (Bytes × V)) : Prop :=
  HeapOK t.heap ∧ ((t.root = none ∧ es = []) ∨ ∃ r, t.root = some r ∧ IsNameTree t.heap N r es)

end Spec

/-! ### C49, C50 -/

theorem add_treeOf {N : Nat} (hN : 65 ≤ N) {t : NTree V} {es : List (Bytes × V)} (ht : TreeOf N t es) (key : Bytes) (v : V) :
    ∃ t', t.add key v = .ok t' ∧ TreeOf N t' (SMap.insert key v es) := by
  obtain ⟨h, root⟩ := t
  obtain ⟨wf, ht⟩ := ht
  have go : ∀ (h : NHeap V) (r : Nat), HeapOK h → IsNameTree h N r es → ∃ t', NTree.add ⟨h, some r⟩ key v = .ok t' ∧ TreeOf N t' (SMap.insert key v es) := by
    intro h r wf hn
    obtain ⟨h', h1, h2, h3⟩ := add_tree hN wf hn key v
    exact ⟨_, h1, h2, Or.inr ⟨r, rfl, h3⟩⟩
  rcases ht with ⟨h1, h2⟩ | ⟨r, h1, h2⟩
  · simp only at h1
    subst h1; subst h2
    have := go (h.alloc {}) h.next (wf.alloc _) ⟨{}, 0, [], by rw [get_alloc, if_pos rfl], rfl, trivial, by simp, Or.inr ⟨rfl, rfl, rfl, rfl⟩⟩
    rw [NTree.add, NTree.create] at this ⊢
    exact this
  · simp only at h1
    subst h1
    exact go h r wf h2

/-- Values added one after the other are added to the entries. -/
theorem addAll_treeOf {N : Nat} (hN : 65 ≤ N) (ops : List (Bytes × V)) : ∀ {t : NTree V} {es : List (Bytes × V)}, TreeOf N t es →
    ∃ t', t.addAll ops = .ok t' ∧ TreeOf N t' (ops.foldl (fun d e => SMap.insert e.1 e.2 d) es) := by
  induction ops with
  | nil => intro t es ht; exact ⟨t, rfl, ht⟩
  | cons p r ih =>
    intro t es ht
    obtain ⟨k, v⟩ := p
    obtain ⟨t', h1, h2⟩ := add_treeOf hN ht k v
    rw [NTree.addAll, h1]
    exact ih h2

theorem find_foldl (ops : List (Bytes × V)) (key : Bytes) : ∀ es : List (Bytes × V),
    SMap.find? key (ops.foldl (fun d e => SMap.insert e.1 e.2 d) es) = (lastAdded key ops).or (SMap.find? key es) := by
  induction ops with
  | nil => intro es; rfl
  | cons p r ih =>
    intro es
    obtain ⟨k, v⟩ := p
    rw [List.foldl_cons, ih, lastAdded, SMap.find_insert]
    cases lastAdded key r with
    | some w => rfl
    | none =>
      simp only [Option.none_or]
      by_cases e : k = key
      · rw [if_pos e, if_pos e.symm]; rfl
      · rw [if_neg e, if_neg (Ne.symm e)]; rfl

theorem foldl_insert_ne {ops es : List (Bytes × V)} (h : ops ≠ [] ∨ es ≠ []) : ops.foldl (fun d e => SMap.insert e.1 e.2 d) es ≠ [] := by
  induction ops generalizing es with
  | nil => rcases h with h | h; · exact absurd rfl h
           exact h
  | cons p r ih => exact ih (Or.inr (insert_ne_nil _ _ _))

/-- C50: adding values one after the other, to a document without the tree or to a name tree with at most 65 kids and names in a node, never
fails.  Afterwards the tree is a name tree with the new entries: the keys increase strictly, every node below the root has its first
and last key as limits and the root has none, every node has at most 65 kids or names, and no node is in it twice. -/
theorem C50_name_tree_shape (t : NTree V) (es : List (Bytes × V)) (ht : TreeOf 65 t es) (ops : List (Bytes × V)) (hne : ops ≠ []) :
    ∃ h r, t.addAll ops = .ok ⟨h, some r⟩ ∧ IsNameTree h 65 r (ops.foldl (fun d e => SMap.insert e.1 e.2 d) es) := by
  obtain ⟨⟨h, root⟩, h1, h2, h3⟩ := addAll_treeOf (Nat.le_refl _) ops ht
  rcases h3 with ⟨_, h4⟩ | ⟨r, h4, h5⟩
  · exact absurd h4 (foldl_insert_ne (Or.inl hne))
  · simp only at h4; subst h4
    exact ⟨h, r, h1, h5⟩

/-- C49: after adding values one after the other, the value found for a key is the last one added for it, or the one that was there
before; for other keys there is none. -/
theorem C49_name_tree_lookup (deref : V → Option V) (N : Nat) (hN : 65 ≤ N) (t : NTree V) (es : List (Bytes × V)) (ht : TreeOf N t es)
    (ops : List (Bytes × V)) (hne : ops ≠ [] ∨ es ≠ [] ∨ t.root = none) :
    ∃ t', t.addAll ops = .ok t' ∧ ∀ key,
      (∀ v w, (lastAdded key ops).or (SMap.find? key es) = some v → Means deref v w → t'.getValue deref key = .ok (some w)) ∧
      ((lastAdded key ops).or (SMap.find? key es) = none → t'.getValue deref key = .ok none) := by
  obtain ⟨⟨h, root⟩, h1, h2, h3⟩ := addAll_treeOf hN ops ht
  refine ⟨_, h1, ?_⟩
  intro key
  have hf := find_foldl ops key es
  rcases h3 with ⟨h4, h5⟩ | ⟨r, h4, h5⟩
  · simp only at h4; subst h4
    rw [h5] at hf
    have hf : (lastAdded key ops).or (SMap.find? key es) = none := hf.symm
    refine ⟨?_, fun _ => rfl⟩
    intro v w hv; rw [hf] at hv; cases hv
  · simp only at h4; subst h4
    by_cases hn : ops.foldl (fun d e => SMap.insert e.1 e.2 d) es = []
    · -- only without operations, and then there was no root
      have ho : ops = [] := by
        cases ops with
        | nil => rfl
        | cons p q => exact absurd hn (foldl_insert_ne (Or.inl (by simp)))
      subst ho
      rcases hne with h | h | h
      · exact absurd rfl h
      · exact absurd hn h
      · rw [NTree.addAll] at h1
        cases h1
        cases h
    · rw [get_tree deref h2 h5 hn, hf]
      refine ⟨?_, ?_⟩
      · intro v w hv hm
        rw [hv]
        simp only [Option.bind_some]
        rw [hm.1]
        simp only [Option.bind_some]
        rw [hm.2]
      · intro hv; rw [hv]; rfl

/-- Without the root being there and empty.  `GetDestsNode(true)` makes such a root: looking anything up raises an error. -/
theorem C49_empty_root_false (deref : V → Option V) (t : NTree V) (r : Nat) (n : NNode V) (hr : t.root = some r) (hg : t.heap.get r = some n)
    (hk : n.kids = none) (hn : n.names = none) (hl : n.limits = none) (key : Bytes) : t.getValue deref key = raise .NoObject := by
  rw [NTree.getValue, hr]
  simp only
  rw [getKeyValue, hg]
  simp only
  rw [checkLimits, hl]
  simp only
  rw [hk]
  simp only
  rw [hn]

/-- A document without the tree. -/
def noTree : NTree Nat := ⟨⟨fun _ => none, 5⟩, none⟩

theorem noTree_treeOf : TreeOf 65 noTree [] := ⟨(fun _ _ h => by cases h), Or.inl ⟨rfl, rfl⟩⟩

/-- A hundred and forty keys: the root and a child are split. -/
def manyKeys : List (Bytes × Nat) := (List.range 140).map fun i => ([UInt8.ofNat (i * 7 % 140)], i)

example : ∃ t', noTree.addAll manyKeys = .ok t' ∧ ∀ key,
    (∀ v w, (lastAdded key manyKeys).or none = some v → Means some v w → t'.getValue some key = .ok (some w)) ∧
    ((lastAdded key manyKeys).or none = none → t'.getValue some key = .ok none) :=
  C49_name_tree_lookup some 65 (Nat.le_refl _) noTree [] noTree_treeOf manyKeys (Or.inr (Or.inr rfl))

example : ∃ h r, noTree.addAll manyKeys = .ok ⟨h, some r⟩ ∧ IsNameTree h 65 r (manyKeys.foldl (fun d e => SMap.insert e.1 e.2 d) []) :=
  C50_name_tree_shape noTree [] noTree_treeOf manyKeys (by simp [manyKeys])

/-! ### C105: the tree as a dictionary -/

theorem list_body {N : Nat} (h : NHeap V) : ∀ (d f : Nat), d < f → ∀ {r : Nat} {n : NNode V} {es : List (Bytes × V)} {objs : List Nat},
    h.get r = some n → NameBody h N d n es objs → listNames h f r = .ok es := by
  intro d
  induction d with
  | zero =>
    intro f hf r n es objs hr hb
    obtain ⟨f', rfl⟩ : ∃ f', f = f' + 1 := ⟨f - 1, by omega⟩
    rw [listNames, hr]; simp only
    rw [hb.1]; simp only; rw [hb.2.1]; rfl
  | succ d ih =>
    intro f hf r n es objs hr hb
    obtain ⟨f', rfl⟩ : ∃ f', f = f' + 1 := ⟨f - 1, by omega⟩
    rw [listNames, hr]; simp only
    rcases hb with hb | ⟨ps, b1, b2, b3, b4, b5, b6, b7⟩
    · rw [hb.1]; simp only; rw [hb.2.1]; rfl
    · rw [b1]; simp only
      subst b5
      clear b1 b2 b3 b4 b6 hr
      induction ps with
      | nil => rfl
      | cons p ps ihp =>
        obtain ⟨m, m1, m2, m3⟩ := b7 p List.mem_cons_self
        rw [List.map_cons, listKids, m1]
        simp only
        rw [ih f' (by omega) m1 m3]
        simp only
        rw [ihp (fun x hx => b7 x (List.mem_cons_of_mem _ hx)), entriesOf_cons]

theorem name_inj {a b : Bytes} {na nb : PName} (ha : PName.ofText a = .ok na) (hb : PName.ofText b = .ok nb) (h : na.raw = nb.raw) : a = b := by
  have h1 := C55_text_bytes a na.raw (ofText_raw ha).1
  have h2 := C55_text_bytes b nb.raw (ofText_raw hb).1
  rw [← h1, ← h2, h]

theorem addNames_find : ∀ (es : List (Bytes × V)) (d d' : NDict V), addNames d es = .ok d' → ∀ key nm, PName.ofText key = .ok nm →
    d'.getByName nm = (lastAdded key es).or (d.getByName nm) := by
  intro es
  induction es with
  | nil => intro d d' h key nm _; cases h; rfl
  | cons p r ih =>
    intro d d' h key nm hk
    obtain ⟨k, v⟩ := p
    rw [addNames] at h
    cases hn : PName.ofText k with
    | error e => rw [hn] at h; cases h
    | ok nk =>
      rw [hn] at h
      rw [ih _ _ h key nm hk, lastAdded, NDict.getByName, NDict.addKey, SMap.find_insert, NDict.getByName]
      cases lastAdded key r with
      | some w => rfl
      | none =>
        simp only [Option.none_or]
        by_cases e : k = key
        · subst e
          rw [hk] at hn; cases hn
          rw [if_pos rfl, if_pos rfl]; rfl
        · rw [if_neg e, if_neg (fun h => e (name_inj hn hk h.symm))]; rfl

theorem addNames_ok : ∀ (es : List (Bytes × V)) (d : NDict V), (∀ e ∈ es, ∃ nm, PName.ofText e.1 = .ok nm) → ∃ d', addNames d es = .ok d' := by
  intro es
  induction es with
  | nil => intro d _; exact ⟨d, rfl⟩
  | cons p r ih =>
    intro d h
    obtain ⟨nm, hn⟩ := h p List.mem_cons_self
    obtain ⟨k, v⟩ := p
    simp only at hn
    rw [addNames, hn]
    exact ih _ (fun e he => h e (List.mem_cons_of_mem _ he))

theorem addNames_fails : ∀ (es : List (Bytes × V)) (d : NDict V), (∃ e ∈ es, ∀ nm, PName.ofText e.1 ≠ .ok nm) → ∃ e, addNames d es = .error e := by
  intro es
  induction es with
  | nil => intro d ⟨e, he, _⟩; cases he
  | cons p r ih =>
    intro d ⟨e, he, hb⟩
    obtain ⟨k, v⟩ := p
    rw [addNames]
    cases hn : PName.ofText k with
    | error x => exact ⟨x, rfl⟩
    | ok nk =>
      simp only
      rcases List.mem_cons.1 he with h | h
      · subst h; exact absurd hn (hb nk)
      · exact ih _ ⟨e, h, hb⟩

theorem lastAdded_sorted {es : List (Bytes × V)} (hs : SMap.Sorted es) (key : Bytes) : lastAdded key es = SMap.find? key es := by
  induction es with
  | nil => rfl
  | cons p r ih =>
    obtain ⟨k, v⟩ := p
    rw [lastAdded, SMap.find?, ih hs.2]
    by_cases e : k = key
    · subst e
      rw [if_pos rfl, if_pos rfl, SMap.find_none_of_lt hs.1]; rfl
    · rw [if_neg e, if_neg (Ne.symm e), Option.or_none]

theorem listNames_tree {N : Nat} {h : NHeap V} {root : Nat} {es : List (Bytes × V)} (ht : IsNameTree h N root es) (hh : ∀ n d objs, h.get root = some n →
    NameBody h N d n es objs → ∃ d' objs', d' < 256 ∧ NameBody h N d' n es objs') : listNames h 256 root = .ok es := by
  obtain ⟨n, d, objs, h1, h2, h3, h4, h5⟩ := ht
  rcases h5 with h5 | ⟨h5, h6, h7, h8⟩
  · obtain ⟨d', objs', hd, hb⟩ := hh n d objs h1 h5
    exact list_body h d' 256 hd h1 hb
  · rw [listNames, h1]; simp only; rw [h5]; simp only; rw [h6, h7]; rfl

/-- C105, the part that holds: when the tree has fewer than 256 levels and all keys have characters of PDFDocEncoding only, the dictionary
has exactly the entries of the tree. -/
theorem C105_dictionary_partial (N : Nat) (h : NHeap V) (root : Nat) (es : List (Bytes × V)) (ht : IsNameTree h N root es)
    (hh : ∀ n d objs, h.get root = some n → NameBody h N d n es objs → ∃ d' objs', d' < 256 ∧ NameBody h N d' n es objs')
    (hk : ∀ e ∈ es, ∃ cps, e.1 = utf8Encode cps ∧ (∀ c ∈ cps, IsScalar c) ∧ ∀ c ∈ cps, InPdfDoc c) :
    ∃ d, NTree.toDictionary ⟨h, some root⟩ = .ok d ∧ ∀ key nm, PName.ofText key = .ok nm → d.getByName nm = SMap.find? key es := by
  have hs : SMap.Sorted es := by obtain ⟨_, _, _, _, _, h3, _⟩ := ht; exact h3
  obtain ⟨d, hd⟩ := addNames_ok es [] (by
    intro e he
    obtain ⟨cps, e1, e2, e3⟩ := hk e he
    rw [e1]
    exact (C82_name_accepted cps e2).1 e3)
  refine ⟨d, ?_, ?_⟩
  · rw [NTree.toDictionary]; simp only; rw [listNames_tree ht hh]; exact hd
  · intro key nm hn
    rw [addNames_find es [] d hd key nm hn, lastAdded_sorted hs]
    cases SMap.find? key es <;> rfl

/-- One key with another character, which `AddValue` accepts, and there is no dictionary. -/
theorem C105_other_characters_false (N : Nat) (h : NHeap V) (root : Nat) (es : List (Bytes × V)) (ht : IsNameTree h N root es)
    (hh : ∀ n d objs, h.get root = some n → NameBody h N d n es objs → ∃ d' objs', d' < 256 ∧ NameBody h N d' n es objs')
    (cps : List Nat) (hc : ∀ c ∈ cps, IsScalar c) (hx : ∃ c ∈ cps, ¬ InPdfDoc c) (v : V) (hm : (utf8Encode cps, v) ∈ es) :
    ∃ e, NTree.toDictionary ⟨h, some root⟩ = .error e := by
  rw [NTree.toDictionary]; simp only; rw [listNames_tree ht hh]
  refine addNames_fails es [] ⟨_, hm, ?_⟩
  intro nm hn
  rw [(C82_name_accepted cps hc).2 hx] at hn
  cases hn

/-- A leaf as the root, with one key. -/
def leafTree (key : Bytes) : NHeap Nat := ⟨fun r => if r = 7 then some { names := some [(key, 1)] } else none, 8⟩

theorem leafTree_ok (key : Bytes) : IsNameTree (leafTree key) 65 7 [(key, 1)] :=
  ⟨{ names := some [(key, 1)] }, 0, [], rfl, rfl, ⟨by simp, trivial⟩, by simp, Or.inl ⟨rfl, rfl, by simp, by simp, rfl⟩⟩

theorem leafTree_low (key : Bytes) : ∀ n d objs, (leafTree key).get 7 = some n → NameBody (leafTree key) 65 d n [(key, 1)] objs →
    ∃ d' objs', d' < 256 ∧ NameBody (leafTree key) 65 d' n [(key, 1)] objs' := by
  intro n d objs hn _
  have : n = { names := some [(key, 1)] } := (Option.some.inj hn).symm
  subst this
  exact ⟨0, [], by omega, rfl, rfl, by simp, by simp, rfl⟩

example : ∃ d, NTree.toDictionary ⟨leafTree (utf8Encode [0x41, 0xE9]), some 7⟩ = .ok d ∧
    ∀ key nm, PName.ofText key = .ok nm → d.getByName nm = SMap.find? key [(utf8Encode [0x41, 0xE9], 1)] :=
  C105_dictionary_partial 65 _ 7 _ (leafTree_ok _) (leafTree_low _) (by
    intro e he
    rw [List.mem_singleton] at he; subst he
    refine ⟨[0x41, 0xE9], rfl, by simp [IsScalar], ?_⟩
    intro c hc
    simp only [List.mem_cons, List.not_mem_nil, or_false] at hc
    rcases hc with rfl | rfl
    · exact ⟨0x41, by decide⟩
    · exact ⟨0xE9, by decide⟩)

/-- Greek alpha is no character of PDFDocEncoding. -/
theorem alpha_not : ¬ InPdfDoc 0x3B1 := by
  rintro ⟨b, hb⟩
  have h1 := pdfDoc_byte hb
  have : ∀ b : Fin 256, pdfDoc b.val ≠ some 0x3B1 := by decide +kernel
  exact this ⟨b, h1⟩ hb

example : ∃ e, NTree.toDictionary ⟨leafTree (utf8Encode [0x3B1]), some 7⟩ = .error e :=
  C105_other_characters_false 65 _ 7 _ (leafTree_ok _) (leafTree_low _) [0x3B1] (by simp [IsScalar]) ⟨0x3B1, by simp, alpha_not⟩ 1 (by simp)

end Pdfmm
