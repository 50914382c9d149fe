import Verif.Document.NameTreeModel
/-
Adding to a name tree.
-/
set_option autoImplicit false
namespace Pdfmm

variable {V : Type}

/-! ### Specification -/

namespace Spec

/-- The first and the last key. -/
def limitsOf (es : List (Bytes × V)) : List Bytes := (es.head?.map (·.1)).toList ++ (es.getLast?.map (·.1)).toList

/-- A node below the root: its number, the entries below it and the numbers of the nodes below it. -/
structure NPart (V : Type) where
  ref : Nat
  entries : List (Bytes × V)
  objs : List Nat

/-- The entries of several nodes, in order. -/
def entriesOf (ps : List (NPart V)) : List (Bytes × V) := ps.flatMap (·.entries)

/-- The numbers of several nodes and of what is below them. -/
def refsOf (ps : List (NPart V)) : List Nat := ps.flatMap fun p => p.ref :: p.objs

/-- The node is a leaf of a name tree with the given entries, at most `N`. -/
def IsLeaf (N : Nat) (n : NNode V) (es : List (Bytes × V)) (objs : List Nat) : Prop :=
  n.kids = none ∧ n.names = some es ∧ es ≠ [] ∧ es.length ≤ N ∧ objs = []

/-- The node is the top of a name tree of height at most `d` with the given entries, of which every node has at most `N` names or
kids.  Every node but the top one has the first and last key below it as its limits. -/
def NameBody (h : NHeap V) (N : Nat) : Nat → NNode V → List (Bytes × V) → List Nat → Prop
  | 0, n, es, objs => IsLeaf N n es objs
  | d + 1, n, es, objs => IsLeaf N n es objs ∨
    ∃ ps : List (NPart V), n.kids = some (ps.map (·.ref)) ∧ n.names = none ∧ ps ≠ [] ∧ ps.length ≤ N ∧
      es = entriesOf ps ∧ objs = refsOf ps ∧
      ∀ p ∈ ps, ∃ m, h.get p.ref = some m ∧ m.limits = some (limitsOf p.entries) ∧ NameBody h N d m p.entries p.objs

/-- The tree of the root is a name tree with the entries, in the order of their keys.  No node is in it twice, and the root has no
limits.  A root without names and kids stands for no entries. -/
def IsNameTree (h : NHeap V) (N : Nat) (root : Nat) (es : List (Bytes × V)) : Prop :=
  ∃ (n : NNode V) (d : Nat) (objs : List Nat), h.get root = some n ∧ n.limits = none ∧ SMap.Sorted es ∧ (root :: objs).Nodup ∧
    (NameBody h N d n es objs ∨ (n.kids = none ∧ n.names = none ∧ es = [] ∧ objs = []))

/-- Numbers not yet given out have no objects. -/
def HeapOK (h : NHeap V) : Prop := ∀ r n, h.get r = some n → r < h.next

end Spec
open Spec

/-! ### Lists -/

theorem namesAdd_eq (key : Bytes) (v : V) (es : List (Bytes × V)) : namesAdd key v es = SMap.insert key v es := by
  induction es with
  | nil => rfl
  | cons p r ih =>
    obtain ⟨k, w⟩ := p
    simp only [namesAdd, SMap.insert, ih]
    by_cases h : k = key
    · subst h; simp
    · rw [if_neg h, if_neg (Ne.symm h)]; rfl

theorem insert_ne_nil (key : Bytes) (v : V) (es : List (Bytes × V)) : SMap.insert key v es ≠ [] := by
  cases es with
  | nil => simp [SMap.insert]
  | cons p r => obtain ⟨k, w⟩ := p; simp only [SMap.insert]; split; · simp
                split <;> simp

theorem entries_insert_length (key : Bytes) (v : V) (es : List (Bytes × V)) : (SMap.insert key v es).length ≤ es.length + 1 := by
  induction es with
  | nil => simp [SMap.insert]
  | cons p r ih =>
    obtain ⟨k, w⟩ := p
    simp only [SMap.insert]
    split
    · simp
    · split <;> simp; omega

theorem insert_after (key : Bytes) (v : V) (A B : List (Bytes × V)) (h : ∀ p ∈ A, bytesLt p.1 key = true) :
    SMap.insert key v (A ++ B) = A ++ SMap.insert key v B := by
  induction A with
  | nil => rfl
  | cons p r ih =>
    obtain ⟨k, w⟩ := p
    have h1 : StrictOrd.lt k key = true := h (k, w) List.mem_cons_self
    have h2 : key ≠ k := (SMap.lt_ne h1).symm
    have h3 := SMap.lt_asymm h1
    simp only [List.cons_append, SMap.insert, h2, if_false, h3, Bool.false_eq_true]
    rw [ih (fun p hp => h p (List.mem_cons_of_mem _ hp))]

theorem insert_before (key : Bytes) (v : V) (A B : List (Bytes × V)) (h : ∀ p ∈ B, bytesLt key p.1 = true) :
    SMap.insert key v (A ++ B) = SMap.insert key v A ++ B := by
  induction A with
  | nil =>
    cases B with
    | nil => rfl
    | cons p r =>
      obtain ⟨k, w⟩ := p
      have h1 : StrictOrd.lt key k = true := h (k, w) List.mem_cons_self
      have h2 : key ≠ k := SMap.lt_ne h1
      simp only [List.nil_append, SMap.insert, h2, if_false, h1, if_true]
      rfl
  | cons p r ih =>
    obtain ⟨k, w⟩ := p
    simp only [List.cons_append, SMap.insert]
    split
    · rfl
    · split
      · rfl
      · rw [ih]; rfl

theorem limitsOf_eq {es : List (Bytes × V)} {a b : Bytes × V} (ha : es.head? = some a) (hb : es.getLast? = some b) :
    limitsOf es = [a.1, b.1] := by rw [limitsOf, ha, hb]; rfl

theorem ends_of_ne {es : List (Bytes × V)} (h : es ≠ []) : ∃ a b, es.head? = some a ∧ es.getLast? = some b := by
  cases es with
  | nil => exact absurd rfl h
  | cons p r => exact ⟨p, (p :: r).getLast (by simp), rfl, List.getLast?_eq_some_getLast (by simp)⟩

theorem head_least {es : List (Bytes × V)} (hs : SMap.Sorted es) {a : Bytes × V} (ha : es.head? = some a) :
    ∀ e ∈ es, e = a ∨ bytesLt a.1 e.1 = true := by
  cases es with
  | nil => simp at ha
  | cons p r =>
    simp at ha; subst ha
    intro e he
    rcases List.mem_cons.1 he with h | h
    · exact Or.inl h
    · exact Or.inr (hs.1 e h)

theorem last_greatest {es : List (Bytes × V)} (hs : SMap.Sorted es) {b : Bytes × V} (hb : es.getLast? = some b) :
    ∀ e ∈ es, e = b ∨ bytesLt e.1 b.1 = true := by
  induction es with
  | nil => simp at hb
  | cons p r ih =>
    cases r with
    | nil => simp at hb; subst hb; intro e he; rcases List.mem_cons.1 he with h | h; · exact Or.inl h
             cases h
    | cons q r =>
      rw [List.getLast?_cons_cons] at hb
      intro e he
      rcases List.mem_cons.1 he with h | h
      · subst h; exact Or.inr (hs.1 b (List.mem_of_getLast? hb))
      · exact ih hs.2 hb e h

/-- A key between the limits does not change them. -/
theorem limitsOf_insert {es : List (Bytes × V)} (hs : SMap.Sorted es) (key : Bytes) (v : V) {a b : Bytes × V}
    (ha : es.head? = some a) (hb : es.getLast? = some b) (h1 : ¬ bytesLt key a.1 = true) (h2 : ¬ bytesLt b.1 key = true) :
    limitsOf (SMap.insert key v es) = limitsOf es := by
  have e1 : (SMap.insert key v es).head?.map (·.1) = some a.1 := by
    cases es with
    | nil => simp at ha
    | cons p r =>
      obtain ⟨k, w⟩ := p
      simp at ha; subst ha
      simp only [SMap.insert]
      split
      · rename_i e; subst e; rfl
      · rw [if_neg (show ¬ StrictOrd.lt key k = true from h1)]; rfl
  have e2 : (SMap.insert key v es).getLast?.map (·.1) = some b.1 := by
    clear e1 ha h1
    induction es with
    | nil => simp at hb
    | cons p r ih =>
      obtain ⟨k, w⟩ := p
      simp only [SMap.insert]
      split
      · rename_i e; subst e
        cases r with
        | nil => simp at hb; subst hb; rfl
        | cons q r => rw [List.getLast?_cons_cons] at hb ⊢; rw [hb]; rfl
      · rename_i hne
        split
        · rw [List.getLast?_cons_cons, hb]; rfl
        · rename_i hlt
          cases r with
          | nil =>
            simp at hb; subst hb
            exfalso
            rcases StrictOrd.total key k hne with h | h
            · exact hlt h
            · exact h2 h
          | cons q r =>
            rw [List.getLast?_cons_cons] at hb
            have := ih hs.2 hb
            cases hi : SMap.insert key v (q :: r) with
            | nil => exact absurd hi (insert_ne_nil _ _ _)
            | cons x y => rw [List.getLast?_cons_cons]; rw [hi] at this; exact this
  rw [limitsOf, limitsOf, e1, e2, ha, hb]; rfl

theorem entriesOf_append (a b : List (NPart V)) : entriesOf (a ++ b) = entriesOf a ++ entriesOf b := List.flatMap_append
theorem refsOf_append (a b : List (NPart V)) : refsOf (a ++ b) = refsOf a ++ refsOf b := List.flatMap_append
theorem entriesOf_cons (a : NPart V) (b : List (NPart V)) : entriesOf (a :: b) = a.entries ++ entriesOf b := List.flatMap_cons
theorem refsOf_cons (a : NPart V) (b : List (NPart V)) : refsOf (a :: b) = a.ref :: (a.objs ++ refsOf b) := by
  rw [refsOf, List.flatMap_cons]; rfl
theorem entriesOf_nil : entriesOf ([] : List (NPart V)) = [] := rfl
theorem refsOf_nil : refsOf ([] : List (NPart V)) = [] := rfl

theorem mem_refsOf {ps : List (NPart V)} {p : NPart V} (hp : p ∈ ps) : p.ref ∈ refsOf ps ∧ ∀ o ∈ p.objs, o ∈ refsOf ps := by
  refine ⟨List.mem_flatMap.2 ⟨p, hp, List.mem_cons_self⟩, fun o ho => List.mem_flatMap.2 ⟨p, hp, List.mem_cons_of_mem _ ho⟩⟩

/-! ### Nodes -/

/-- The node of the part is as it should be. -/
def PartOK (h : NHeap V) (N d : Nat) (p : NPart V) : Prop :=
  ∃ m, h.get p.ref = some m ∧ m.limits = some (limitsOf p.entries) ∧ NameBody h N d m p.entries p.objs

theorem body_leaf {h : NHeap V} {N d : Nat} {n : NNode V} {es : List (Bytes × V)} {objs : List Nat} (hl : IsLeaf N n es objs) :
    NameBody h N d n es objs := by
  cases d with
  | zero => exact hl
  | succ d => exact Or.inl hl

theorem body_node {h : NHeap V} {N d : Nat} {n : NNode V} {ps : List (NPart V)} (h1 : n.kids = some (ps.map (·.ref))) (h2 : n.names = none)
    (h3 : ps ≠ []) (h4 : ps.length ≤ N) (h5 : ∀ p ∈ ps, PartOK h N d p) : NameBody h N (d + 1) n (entriesOf ps) (refsOf ps) :=
  Or.inr ⟨ps, h1, h2, h3, h4, rfl, rfl, h5⟩

theorem Spec.NameBody.ne_nil {h : NHeap V} {N : Nat} {d : Nat} : ∀ {n : NNode V} {es : List (Bytes × V)} {objs : List Nat}, NameBody h N d n es objs → es ≠ [] := by
  induction d with
  | zero => intro n es objs hb; exact hb.2.2.1
  | succ d ih =>
    intro n es objs hb
    rcases hb with hb | ⟨ps, _, _, h3, _, h5, _, h7⟩
    · exact hb.2.2.1
    · cases ps with
      | nil => exact absurd rfl h3
      | cons p r =>
        obtain ⟨m, _, _, hm⟩ := h7 p List.mem_cons_self
        rw [h5, entriesOf_cons]
        intro e
        exact ih hm (List.append_eq_nil_iff.1 e).1

/-- Only the kids and names of the node matter, and the nodes below. -/
theorem Spec.NameBody.congr {h h' : NHeap V} {N : Nat} {d : Nat} : ∀ {n n' : NNode V} {es : List (Bytes × V)} {objs : List Nat},
    NameBody h N d n es objs → n'.kids = n.kids → n'.names = n.names → (∀ r ∈ objs, h'.get r = h.get r) → NameBody h' N d n' es objs := by
  induction d with
  | zero =>
    intro n n' es objs hb h1 h2 _
    obtain ⟨a, b, c⟩ := hb
    exact ⟨h1.trans a, h2.trans b, c⟩
  | succ d ih =>
    intro n n' es objs hb h1 h2 hr
    rcases hb with ⟨a, b, c⟩ | ⟨ps, h3, h4, h5, h6, h7, h8, h9⟩
    · exact Or.inl ⟨h1.trans a, h2.trans b, c⟩
    · refine Or.inr ⟨ps, h1.trans h3, h2.trans h4, h5, h6, h7, h8, ?_⟩
      intro p hp
      obtain ⟨m, m1, m2, m3⟩ := h9 p hp
      have hm := mem_refsOf hp
      rw [h8] at hr
      exact ⟨m, by rw [hr _ hm.1, m1], m2, ih m3 rfl rfl (fun r hr' => hr r (hm.2 r hr'))⟩

theorem Spec.NameBody.mono {h : NHeap V} {N : Nat} {d : Nat} : ∀ {e : Nat} {n : NNode V} {es : List (Bytes × V)} {objs : List Nat},
    d ≤ e → NameBody h N d n es objs → NameBody h N e n es objs := by
  induction d with
  | zero => intro e n es objs _ hb; exact body_leaf hb
  | succ d ih =>
    intro e n es objs he hb
    rcases hb with hb | ⟨ps, h3, h4, h5, h6, h7, h8, h9⟩
    · exact body_leaf hb
    · obtain ⟨e', rfl⟩ : ∃ e', e = e' + 1 := ⟨e - 1, by omega⟩
      refine Or.inr ⟨ps, h3, h4, h5, h6, h7, h8, ?_⟩
      intro p hp
      obtain ⟨m, m1, m2, m3⟩ := h9 p hp
      exact ⟨m, m1, m2, ih (by omega) m3⟩

theorem refsOf_length {ps : List (NPart V)} {p : NPart V} (hp : p ∈ ps) : p.objs.length + 1 ≤ (refsOf ps).length := by
  induction ps with
  | nil => cases hp
  | cons q r ih =>
    rw [refsOf_cons]
    simp only [List.length_cons, List.length_append]
    rcases List.mem_cons.1 hp with h | h
    · subst h; omega
    · have := ih h; omega

/-- There are at least as many nodes below as levels. -/
theorem Spec.NameBody.height {h : NHeap V} {N : Nat} {d : Nat} : ∀ {n : NNode V} {es : List (Bytes × V)} {objs : List Nat},
    NameBody h N d n es objs → NameBody h N objs.length n es objs := by
  induction d with
  | zero => intro n es objs hb; exact body_leaf hb
  | succ d ih =>
    intro n es objs hb
    rcases hb with hb | ⟨ps, h3, h4, h5, h6, h7, h8, h9⟩
    · exact body_leaf hb
    · have hpos : 1 ≤ objs.length := by
        cases ps with
        | nil => exact absurd rfl h5
        | cons p r => have := refsOf_length (ps := p :: r) (p := p) List.mem_cons_self; rw [h8]; omega
      obtain ⟨k, hk⟩ : ∃ k, objs.length = k + 1 := ⟨objs.length - 1, by omega⟩
      rw [hk]
      refine Or.inr ⟨ps, h3, h4, h5, h6, h7, h8, ?_⟩
      intro p hp
      obtain ⟨m, m1, m2, m3⟩ := h9 p hp
      have := refsOf_length hp
      exact ⟨m, m1, m2, (ih m3).mono (by rw [← h8] at this; omega)⟩

theorem PartOK.congr {h h' : NHeap V} {N d : Nat} {p : NPart V} (hp : PartOK h N d p) (hr : ∀ r ∈ p.ref :: p.objs, h'.get r = h.get r) :
    PartOK h' N d p := by
  obtain ⟨m, m1, m2, m3⟩ := hp
  exact ⟨m, by rw [hr _ List.mem_cons_self, m1], m2, m3.congr rfl rfl (fun r h => hr r (List.mem_cons_of_mem _ h))⟩

theorem PartOK.ne_nil {h : NHeap V} {N d : Nat} {p : NPart V} (hp : PartOK h N d p) : p.entries ≠ [] := by
  obtain ⟨m, _, _, m3⟩ := hp; exact m3.ne_nil

theorem entriesOf_ends {h : NHeap V} {N d : Nat} (ps : List (NPart V)) (hp : ∀ p ∈ ps, PartOK h N d p) (p q : NPart V)
    (h1 : ps.head? = some p) (h2 : ps.getLast? = some q) :
    (entriesOf ps).head? = p.entries.head? ∧ (entriesOf ps).getLast? = q.entries.getLast? := by
  constructor
  · cases ps with
    | nil => simp at h1
    | cons x r =>
      simp at h1; subst h1
      rw [entriesOf_cons, List.head?_append]
      obtain ⟨a, b, ha, _⟩ := ends_of_ne (hp x List.mem_cons_self).ne_nil
      rw [ha]; rfl
  · obtain ⟨l, rfl⟩ := List.getLast?_eq_some_iff.1 h2
    rw [entriesOf_append, entriesOf_cons, entriesOf_nil, List.append_nil, List.getLast?_append]
    obtain ⟨a, b, _, hb⟩ := ends_of_ne (hp q (by simp)).ne_nil
    rw [hb]; rfl

/-- The limits computed for a node with kids. -/
theorem limitsFor_kids {h : NHeap V} {N d : Nat} {n : NNode V} {ps : List (NPart V)} (h1 : n.kids = some (ps.map (·.ref))) (h3 : ps ≠ [])
    (hp : ∀ p ∈ ps, PartOK h N d p) : limitsFor h n true = .ok (limitsOf (entriesOf ps)) := by
  obtain ⟨p, hp1⟩ : ∃ p, ps.head? = some p := by cases ps with | nil => exact absurd rfl h3 | cons p r => exact ⟨p, rfl⟩
  obtain ⟨q, hq1⟩ : ∃ q, ps.getLast? = some q := ⟨_, List.getLast?_eq_some_getLast h3⟩
  obtain ⟨e1, e2⟩ := entriesOf_ends ps hp p q hp1 hq1
  have hpm : p ∈ ps := List.mem_of_mem_head? hp1
  have hqm : q ∈ ps := List.mem_of_getLast? hq1
  obtain ⟨m, m1, m2, m3⟩ := hp p hpm
  obtain ⟨k, k1, k2, k3⟩ := hp q hqm
  obtain ⟨a, b, ha, hb⟩ := ends_of_ne m3.ne_nil
  obtain ⟨c, e, hc, he⟩ := ends_of_ne k3.ne_nil
  have f1 : firstLimit h p.ref = .ok [a.1] := by
    rw [firstLimit, m1]; simp only; rw [m2, limitsOf_eq ha hb]
  have f2 : lastLimit h q.ref = .ok [e.1] := by
    rw [lastLimit, k1]; simp only; rw [k2, limitsOf_eq hc he]; rfl
  rw [limitsFor, if_pos rfl, h1]
  simp only [List.head?_map, List.getLast?_map, hp1, hq1, Option.map_some]
  rw [f1, f2]
  simp only
  rw [limitsOf_eq (e1.trans ha) (e2.trans he)]
  rfl

/-- The limits computed for any node. -/
theorem limitsFor_body {h : NHeap V} {N d : Nat} {n : NNode V} {es : List (Bytes × V)} {objs : List Nat} (hb : NameBody h N d n es objs) :
    limitsFor h n n.kids.isSome = .ok (limitsOf es) := by
  have leaf : IsLeaf N n es objs → limitsFor h n n.kids.isSome = .ok (limitsOf es) := by
    rintro ⟨a, b, c, _⟩
    obtain ⟨x, y, hx, hy⟩ := ends_of_ne c
    rw [limitsFor, a, if_neg (by simp), b]
    simp only
    rw [hx, hy, limitsOf_eq hx hy]
  cases d with
  | zero => exact leaf hb
  | succ d =>
    rcases hb with hb | ⟨ps, h3, h4, h5, h6, h7, h8, h9⟩
    · exact leaf hb
    · rw [h3, Option.isSome_some, h7]
      exact limitsFor_kids h3 h5 h9

end Pdfmm
