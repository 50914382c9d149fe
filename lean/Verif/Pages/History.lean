import Verif.Pages.Props
/-
The page tree and the page cache over any history of calls.
-/
set_option autoImplicit false
namespace Pdfmm

/-- A call on the pages of a document; `create` and `createAt` carry the reference the document gives the new
page object. -/
inductive POp
  | get (i : Nat)
  | find (r : Ref)
  | create (r : Ref)
  | createAt (i : Nat) (r : Ref)
  | insert (i : Nat) (ps : List Ref)
  | remove (i : Nat)

/-- The object of the page a call returned. -/
def pageObj (r : Res CPage) : Res (Option Ref) :=
  match r with
  | .ok p => .ok (some p.obj)
  | .error e => .error e

def noPage (r : Res Unit) : Res (Option Ref) :=
  match r with
  | .ok _ => .ok none
  | .error e => .error e

/-- A call: the object of the page it returns, and the document afterwards. -/
def PDoc.run (d : PDoc) : POp → Res (Option Ref) × PDoc
  | .get i => (pageObj (d.getPageAt i).1, (d.getPageAt i).2)
  | .find r => (pageObj (d.getPageRef r).1, (d.getPageRef r).2)
  | .create r => (pageObj (d.createPage r).1, (d.createPage r).2)
  | .createAt i r => (pageObj (d.createPageAt i r).1, (d.createPageAt i r).2)
  | .insert i ps => (noPage (d.insertPagesAt i ps).1, (d.insertPagesAt i ps).2)
  | .remove i => (noPage (d.removePageAt i).1, (d.removePageAt i).2)

/-- The results of a history of calls, and the document at the end. -/
def PDoc.runAll (d : PDoc) : List POp → List (Res (Option Ref)) × PDoc
  | [] => ([], d)
  | op :: ops => ((d.run op).1 :: ((d.run op).2.runAll ops).1, ((d.run op).2.runAll ops).2)

namespace Spec

/-- The calls on a plain sequence of pages. -/
def seqRun (l : List Ref) : POp → Res (Option Ref) × List Ref
  | .get i => match l[i]? with
    | some p => (.ok (some p), l)
    | none => (raise .PageNotFound, l)
  | .find r => if r ∈ l then (.ok (some r), l) else (raise .PageNotFound, l)
  | .create r => (.ok (some r), l ++ [r])
  | .createAt i r => (.ok (some r), l.take i ++ r :: l.drop i)
  | .insert i ps => if ps = [] then (raise .InvalidHandle, l) else (.ok none, l.take i ++ (ps ++ l.drop i))
  | .remove i => if i < l.length then (.ok none, l.eraseIdx i) else (raise .PageNotFound, l)

def seqRunAll (l : List Ref) : List POp → List (Res (Option Ref)) × List Ref
  | [] => ([], l)
  | op :: ops => ((seqRun l op).1 :: (seqRunAll (seqRun l op).2 ops).1, (seqRunAll (seqRun l op).2 ops).2)

/-- What a call needs: new references are unused, inserted objects are pages which the tree does not have yet,
and there are fewer than 2^31 pages. -/
def Allowed (d : PDoc) (l : List Ref) : POp → Prop
  | .get _ => True
  | .find _ => True
  | .create r => d.heap r = none ∧ l.length + 1 < 2147483648
  | .createAt _ r => d.heap r = none ∧ l.length + 1 < 2147483648
  | .insert _ ps => (∀ p ∈ ps, ∃ n, d.heap p = some (.dict n) ∧ n.type = .page) ∧ (∀ p ∈ ps, p ∉ l) ∧ ps.Nodup ∧
      l.length + ps.length < 2147483648
  | .remove _ => True

/-- Every call of a history has what it needs when it comes. -/
def AllAllowed (d : PDoc) (l : List Ref) : List POp → Prop
  | [] => True
  | op :: ops => Allowed d l op ∧ AllAllowed (d.run op).2 (seqRun l op).2 ops

end Spec
open Spec Frame

theorem holds_dict {h : PHeap} {s : PTree} (hs : NodeOK h s) : ∃ n, h s.ref = some (.dict n) := by
  cases s with
  | page r => obtain ⟨n, h1, _⟩ := hs; exact ⟨n, h1⟩
  | node r ks => obtain ⟨n, h1, _⟩ := hs; exact ⟨n, h1⟩

/-- A new object does not disturb the tree. -/
theorem isPageTree_new {h : PHeap} {t : PTree} (ht : IsPageTree h t) {r : Ref} (hr : h r = none) (n : PNode) :
    IsPageTree (setNode h r n) t ∧ (Linked h t → Linked (setNode h r n) t) ∧ r ∉ t.all.map PTree.ref := by
  have hne : ∀ s ∈ t.all, s.ref ≠ r := by
    intro s hs he
    obtain ⟨m, h1⟩ := holds_dict (ht.ok s hs)
    rw [he, hr] at h1; cases h1
  refine ⟨⟨fun s hs => nodeOK_congr (by rw [setNode, if_neg (hne s hs)]) (ht.ok s hs), ht.nodup⟩, fun hl => ?_, ?_⟩
  · refine linked_keep hl ?_ rfl hl.ok
    intro x hx m hm
    obtain ⟨s, hs, rfl⟩ := List.mem_map.1 hx
    exact ⟨m, by rw [setNode, if_neg (hne s hs)]; exact hm, rfl⟩
  · intro hm
    obtain ⟨s, hs, he⟩ := List.mem_map.1 hm
    exact hne s hs he

theorem page_in_refs {ks : List PTree} {r q : Ref} (h : q ∈ (PTree.node r ks).pages) :
    q ∈ (PTree.node r ks).all.map PTree.ref := by
  have key : ∀ n (ts : List PTree), sizeOf ts ≤ n → q ∈ pagesOf ts → q ∈ (allOf ts).map PTree.ref := by
    intro n
    induction n with
    | zero => intro ts hs; cases ts <;> simp at hs
    | succ n ih =>
      intro ts hs hm
      cases ts with
      | nil => simp [pagesOf] at hm
      | cons t ts =>
        simp only [List.cons.sizeOf_spec] at hs
        rw [pagesOf, List.mem_append] at hm
        rw [allOf, List.map_append, List.mem_append]
        rcases hm with hm | hm
        · left
          cases t with
          | page p => simpa [PTree.all, PTree.pages, PTree.ref] using hm
          | node r ks =>
            simp only [PTree.node.sizeOf_spec] at hs
            rw [PTree.all, List.map_cons, List.mem_cons]
            right
            exact ih ks (by omega) hm
        · right; exact ih ts (by omega) hm
  rw [PTree.all, List.map_cons, List.mem_cons]
  right
  exact key _ ks (Nat.le_refl _) h

/-- Inserting a new page object, as `CreatePage` and `CreatePageAt` do. -/
theorem create_holds {d : PDoc} {l : List Ref} (hd : Holds d l) (hc : Coherent d.cache l) (i : Nat) (r : Ref)
    (hr : d.heap r = none) (hb : l.length + 1 < 2147483648) (hi : i ≤ l.length) :
    ∃ h', ({ d with heap := setNode d.heap r newPage } : PDoc).insertPagesAt i [r] =
        (.ok (), { d with heap := h', cache := cacheHoles d.cache i 1 }) ∧
      Holds { d with heap := h', cache := cacheSet (cacheHoles d.cache i 1) i ⟨r, i, none⟩ }
        (l.take i ++ r :: l.drop i) ∧
      Coherent (cacheSet (cacheHoles d.cache i 1) i ⟨r, i, none⟩) (l.take i ++ r :: l.drop i) ∧
      (HoldsLinked d l →
        HoldsLinked { d with heap := h', cache := cacheSet (cacheHoles d.cache i 1) i ⟨r, i, none⟩ }
        (l.take i ++ r :: l.drop i)) := by
  have hget : (l.take i ++ r :: l.drop i)[i]? = some r := by
    rw [List.getElem?_append_right (by rw [List.length_take]; omega), List.length_take, Nat.min_eq_left hi]
    simp
  have hlen : (l.take i ++ r :: l.drop i).length < 2147483648 := by
    simp only [List.length_append, List.length_take, List.length_drop, List.length_cons]; omega
  have key : ∀ ks, IsPageTree d.heap (.node d.root ks) → (PTree.node d.root ks).height ≤ d.maxDepth →
      pagesOf ks = l → ∃ h' ks', ({ d with heap := setNode d.heap r newPage } : PDoc).insertPagesAt i [r] =
        (.ok (), { d with heap := h', cache := cacheHoles d.cache i 1 }) ∧
        IsPageTree h' (.node d.root ks') ∧ (PTree.node d.root ks').height ≤ d.maxDepth ∧
        pagesOf ks' = l.take i ++ r :: l.drop i ∧
        (Linked d.heap (.node d.root ks) → Linked h' (.node d.root ks')) := by
    rintro ks ht hh rfl
    obtain ⟨ht2, hlk, hnot⟩ := isPageTree_new ht hr newPage
    obtain ⟨h', ks', j, g1, g2, g3, g4, g5, g6⟩ := insert_holds
      (d := { d with heap := setNode d.heap r newPage }) ht2 hh i [r] (by simp)
      (by intro p hp; simp only [List.mem_singleton] at hp; subst hp; exact ⟨newPage, by simp [setNode], rfl⟩)
      (by intro p hp; simp only [List.mem_singleton] at hp; subst hp
          intro hm; exact hnot (page_in_refs (r := d.root) hm))
      (by simp) (by simpa using hb)
    have hj : j = i := by rcases g6 with g6 | g6 <;> omega
    subst hj
    exact ⟨h', ks', g1, g2, g3, by simpa using g4, fun hl => g5 (hlk hl)⟩
  obtain ⟨ks, ht, hh, hl, -⟩ := hd
  obtain ⟨h', ks', g1, g2, g3, g4, -⟩ := key ks ht hh hl
  refine ⟨h', g1, ⟨ks', g2, g3, g4, hlen⟩, ?_, ?_⟩
  · refine coherent_set ?_ i _ hget
    have := coherent_holes hc i [r] (Or.inl hi)
    simpa using this
  · rintro ⟨ks2, ht2, hh2, hl2, -, hlk⟩
    obtain ⟨h2, ks3, e1, e2, e3, e4, e5⟩ := key ks2 ht2 hh2 hl2
    rw [g1] at e1
    simp only [Prod.mk.injEq, PDoc.mk.injEq, true_and, and_true] at e1
    subst e1
    exact ⟨ks3, e2, e3, e4, hlen, e5 hlk⟩

/-- The loop of `GetPage(reference)`. -/
theorem findLoop_holds (r : Ref) (l : List Ref) : ∀ (n i : Nat) (d : PDoc), Holds d l → Coherent d.cache l →
    i + n = l.length → ∃ c, Coherent c l ∧ (PDoc.findLoop r n i d).2 = { d with cache := c } ∧
      pageObj (PDoc.findLoop r n i d).1 = if r ∈ l.drop i then .ok (some r) else raise .PageNotFound
  | 0, i, d, hd, hc, hi => by
    refine ⟨d.cache, hc, rfl, ?_⟩
    rw [List.drop_of_length_le (by omega)]
    simp [PDoc.findLoop, pageObj]
  | n + 1, i, d, hd, hc, hi => by
    obtain ⟨p, hp⟩ : ∃ p, l[i]? = some p := ⟨l[i], by rw [List.getElem?_eq_getElem]⟩
    obtain ⟨q, c, h1, h2, h3, h4, h5⟩ := getPageAt_holds hd hc i p hp
    have hdrop : l.drop i = p :: l.drop (i + 1) := by
      rw [List.getElem?_eq_getElem (by omega)] at hp
      simp only [Option.some.injEq] at hp
      rw [List.drop_eq_getElem_cons (by omega), hp]
    by_cases he : q.obj = r
    · refine ⟨c, h3, ?_, ?_⟩
      · rw [PDoc.findLoop, h4]; simp [he]
      · rw [PDoc.findLoop, h4, hdrop]
        simp [he, ← h2, pageObj]
    · have hd' : Holds { d with cache := c } l := hd
      obtain ⟨c', k1, k2, k3⟩ := findLoop_holds r l n (i + 1) { d with cache := c } hd' h3 (by omega)
      refine ⟨c', k1, ?_, ?_⟩
      · rw [PDoc.findLoop, h4]
        simp only [if_neg he]
        rw [k2]
      · rw [PDoc.findLoop, h4, hdrop]
        simp only [if_neg he, List.mem_cons]
        rw [k3]
        have : r ≠ p := fun e => he (h2.trans e.symm)
        simp [this]

/-- One call. -/
theorem step_holds {d : PDoc} {l : List Ref} (hd : Holds d l) (hc : Coherent d.cache l) (op : POp)
    (ha : Allowed d l op) :
    (d.run op).1 = (seqRun l op).1 ∧ Holds (d.run op).2 (seqRun l op).2 ∧
    Coherent (d.run op).2.cache (seqRun l op).2 ∧
    (HoldsLinked d l → HoldsLinked (d.run op).2 (seqRun l op).2) := by
  have hcnt : d.getCount = .ok l.length := (C45_page_at_partial hd hc).1
  cases op with
  | get i =>
    cases hp : l[i]? with
    | some p =>
      obtain ⟨q, c, h1, h2, h3, -, -⟩ := getPageAt_holds hd hc i p hp
      simp only [PDoc.run, h1, seqRun, hp, pageObj, h2]
      exact ⟨trivial, hd, h3, id⟩
    | none =>
      have := (C45_page_at_partial hd hc).2.2 i (by simpa using hp)
      simp only [PDoc.run, this, seqRun, hp, pageObj]
      exact ⟨trivial, hd, hc, id⟩
  | find r =>
    obtain ⟨c, h1, h2, h3⟩ := findLoop_holds r l l.length 0 d hd hc (by omega)
    simp only [PDoc.run, PDoc.getPageRef, hcnt, seqRun, h2, h3, List.drop_zero]
    by_cases hr : r ∈ l <;> simp only [hr, if_true, if_false] <;> exact ⟨trivial, hd, h1, id⟩
  | create r =>
    obtain ⟨h', g1, g2, g3, g4⟩ := create_holds hd hc l.length r ha.1 ha.2 (Nat.le_refl _)
    simp only [PDoc.run, PDoc.createPage, hcnt, g1, seqRun, pageObj]
    rw [List.take_length, List.drop_length] at g2 g3 g4
    exact ⟨trivial, g2, g3, g4⟩
  | createAt i r =>
    have key : ∀ j, j = (if i > l.length then l.length else i) →
        l.take i ++ r :: l.drop i = l.take j ++ r :: l.drop j ∧ j ≤ l.length := by
      intro j hj
      by_cases h : i > l.length
      · rw [if_pos h] at hj
        subst hj
        rw [List.take_of_length_le (by omega), List.drop_of_length_le (by omega), List.take_length, List.drop_length]
        exact ⟨rfl, Nat.le_refl _⟩
      · rw [if_neg h] at hj
        subst hj
        exact ⟨rfl, by omega⟩
    simp only [PDoc.run, PDoc.createPageAt, hcnt, seqRun]
    generalize hj : (if i > l.length then l.length else i) = j
    obtain ⟨e1, e2⟩ := key j hj.symm
    obtain ⟨h', g1, g2, g3, g4⟩ := create_holds hd hc j r ha.1 ha.2 e2
    rw [g1, e1]
    exact ⟨rfl, g2, g3, g4⟩
  | insert i ps =>
    by_cases hne : ps = []
    · subst hne
      obtain ⟨ks, ht, hh, hl, hb⟩ := hd
      have hl' : pagesOf ks = l := hl
      subst hl'
      have : d.insertPagesAt i [] = (raise .InvalidHandle, d) := by
        rw [PDoc.insertPagesAt, hcnt]
        dsimp only
        by_cases h0 : (pagesOf ks).length = 0
        · simp [PDoc.pivot, h0, PDoc.insertAtPivot, insertIntoNode]
        · by_cases hi : i ≥ (pagesOf ks).length
          · obtain ⟨pg, f, fs, s1, s2, s3⟩ := search ht hh hb ((pagesOf ks).length - 1) (by omega)
            have ht2 := ht
            rw [s2] at ht2
            have hgp := getPosInKids_eq ht2
            rw [ref_page] at hgp
            simp [PDoc.pivot, h0, hi, s1, PDoc.insertAtPivot, lastRef_snoc, hgp, insertIntoNode]
          · obtain ⟨pg, f, fs, s1, s2, s3⟩ := search ht hh hb i (by omega)
            have ht2 := ht
            rw [s2] at ht2
            have hgp := getPosInKids_eq ht2
            rw [ref_page] at hgp
            simp [PDoc.pivot, h0, hi, s1, PDoc.insertAtPivot, lastRef_snoc, hgp, insertIntoNode]
      simp only [PDoc.run, this, seqRun, noPage, if_true]
      exact ⟨trivial, ⟨ks, ht, hh, rfl, hb⟩, hc, id⟩
    · obtain ⟨ha1, ha2, ha3, ha4⟩ := ha
      obtain ⟨d', g1, g2, g3⟩ := C46_insert_partial hd i ps hne ha1 ha2 ha3 ha4
      obtain ⟨ks, ht, hh, hl, hb⟩ := hd
      have hl' : pagesOf ks = l := hl
      subst hl'
      obtain ⟨h', ks', j, k1, k2, k3, k4, k5, k6⟩ := insert_holds ht hh i ps hne ha1 ha2 ha3 ha4
      simp only [PDoc.run, g1, seqRun, noPage, if_neg hne]
      refine ⟨trivial, g2, ?_, g3⟩
      have e : d' = { d with heap := h', cache := cacheHoles d.cache j ps.length } := by
        rw [g1] at k1; simpa using k1
      rw [e]
      dsimp only
      rcases k6 with ⟨hj, hi⟩ | ⟨hj, hi⟩
      · subst hj
        exact coherent_holes hc j ps (hi.imp (fun h => Nat.le_of_lt h) id)
      · subst hj
        have := coherent_holes hc (pagesOf ks).length ps (Or.inl (Nat.le_refl _))
        rw [List.take_length, List.drop_length] at this
        rw [List.take_of_length_le hi, List.drop_of_length_le hi]
        exact this
  | remove i =>
    by_cases hi : i < l.length
    · have key : ∀ ks, IsPageTree d.heap (.node d.root ks) → (PTree.node d.root ks).height ≤ d.maxDepth →
          pagesOf ks = l → ∃ h' ks', d.removePageAt i =
            (.ok (), { d with heap := h', cache := cacheDelete d.cache i }) ∧
            IsPageTree h' (.node d.root ks') ∧ (PTree.node d.root ks').height ≤ d.maxDepth ∧
            pagesOf ks' = l.eraseIdx i ∧
            (Linked d.heap (.node d.root ks) → Linked h' (.node d.root ks')) := by
        rintro ks ht hh rfl
        obtain ⟨h', ks', g1, g2, g3, g4, g5, g6⟩ := remove_holds ht hh
          (by obtain ⟨ks2, a, b, c, e⟩ := hd; exact e) i hi
        exact ⟨h', ks', g1, g2, g3, g4, g6⟩
      have hlen : (l.eraseIdx i).length < 2147483648 := by
        obtain ⟨ks2, a, b, c, e⟩ := hd
        have := List.length_eraseIdx_le l i
        omega
      obtain ⟨ks, ht, hh, hl, hb⟩ := hd
      obtain ⟨h', ks', g1, g2, g3, g4, -⟩ := key ks ht hh hl
      simp only [PDoc.run, g1, seqRun, noPage, if_pos hi]
      refine ⟨trivial, ⟨ks', g2, g3, g4, hlen⟩, coherent_delete hc i, ?_⟩
      rintro ⟨ks2, ht2, hh2, hl2, -, hlk⟩
      obtain ⟨h2, ks3, e1, e2, e3, e4, e5⟩ := key ks2 ht2 hh2 hl2
      rw [g1] at e1
      simp only [Prod.mk.injEq, PDoc.mk.injEq, true_and, and_true] at e1
      subst e1
      exact ⟨ks3, e2, e3, e4, hlen, e5 hlk⟩
    · have hcd := coherent_delete hc i
      rw [List.eraseIdx_of_length_le (by omega)] at hcd
      obtain ⟨ks, ht, hh, hl, hb⟩ := hd
      have hl' : pagesOf ks = l := hl
      subst hl'
      have hs := search_none ht hh hb i (by omega)
      simp only [PDoc.run, PDoc.removePageAt, PDoc.removeFromTree, hs, seqRun, noPage, if_neg hi]
      refine ⟨trivial, ⟨ks, ht, hh, rfl, hb⟩, hcd, ?_⟩
      rintro ⟨ks2, ht2, hh2, hl2, hb2, hlk⟩
      exact ⟨ks2, ht2, hh2, hl2, hb2, hlk⟩

/-- **C48.** Over any history of `GetPageAt`, `GetPage(reference)`, `CreatePage`, `CreatePageAt`, `InsertPagesAt`
and `RemovePageAt`, the document answers as a plain sequence of pages would: a page served from the cache is the
page the tree has at that index, and the tree holds that sequence at the end. -/
theorem C48_history_partial : ∀ (ops : List POp) (d : PDoc) (l : List Ref), Holds d l → Coherent d.cache l →
    AllAllowed d l ops →
    (d.runAll ops).1 = (seqRunAll l ops).1 ∧ Holds (d.runAll ops).2 (seqRunAll l ops).2 ∧
    Coherent (d.runAll ops).2.cache (seqRunAll l ops).2 ∧
    (HoldsLinked d l → HoldsLinked (d.runAll ops).2 (seqRunAll l ops).2)
  | [], _, _, hd, hc, _ => ⟨rfl, hd, hc, id⟩
  | op :: ops, d, l, hd, hc, ha => by
    obtain ⟨h1, h2, h3, h4⟩ := step_holds hd hc op ha.1
    obtain ⟨g1, g2, g3, g4⟩ := C48_history_partial ops _ _ h2 h3 ha.2
    refine ⟨?_, g2, g3, fun hl => g4 (h4 hl)⟩
    rw [PDoc.runAll, seqRunAll, h1, g1]

end Pdfmm
