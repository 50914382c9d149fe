import Verif.Pages.RemoveCore
/-
Pages by index, inserting and removing pages, and the page cache over any history of such calls.
-/
set_option autoImplicit false
namespace Pdfmm
namespace Spec

/-- The document's page tree holds the pages `l` in this order.  The tree may have any shape no deeper than the
recursion limit. -/
def Holds (d : PDoc) (l : List Ref) : Prop :=
  ∃ ks, IsPageTree d.heap (.node d.root ks) ∧ (PTree.node d.root ks).height ≤ d.maxDepth ∧
    (PTree.node d.root ks).pages = l ∧ l.length < 2147483648

/-- The same, and the `/Parent` links are right. -/
def HoldsLinked (d : PDoc) (l : List Ref) : Prop :=
  ∃ ks, IsPageTree d.heap (.node d.root ks) ∧ (PTree.node d.root ks).height ≤ d.maxDepth ∧
    (PTree.node d.root ks).pages = l ∧ l.length < 2147483648 ∧ Linked d.heap (.node d.root ks)

/-- The cached pages are the pages of the list. -/
def Coherent (c : List (Option CPage)) (l : List Ref) : Prop :=
  ∀ (i : Nat) (p : CPage), c[i]? = some (some p) → l[i]? = some p.obj

end Spec
open Spec Frame

theorem lastRef_snoc (x : Ref) : ∀ l : List Ref, lastRef (l ++ [x]) = some x
  | [] => rfl
  | [_] => rfl
  | _ :: b :: l => by rw [List.cons_append, List.cons_append, lastRef]; exact lastRef_snoc x (b :: l); simp

theorem getCount_holds {d : PDoc} {ks : List PTree} (ht : IsPageTree d.heap (.node d.root ks))
    (hb : (pagesOf ks).length < 4294967296) : d.getCount = .ok (pagesOf ks).length := by
  obtain ⟨n, h1, h2, h3, h4⟩ := ht.ok _ (self_mem_all _)
  simp only [PDoc.getCount, nodeAt, h1]
  exact childCount_node h4 hb

/-- The search in a whole tree. -/
theorem search {d : PDoc} {ks : List PTree} (ht : IsPageTree d.heap (.node d.root ks))
    (hh : (PTree.node d.root ks).height ≤ d.maxDepth) (hb : (pagesOf ks).length < 2147483648) (i : Nat)
    (hi : i < (pagesOf ks).length) :
    ∃ (pg : Ref) (f : Frame) (fs : List Frame), getPageNode d.heap d.maxDepth i d.root [] = .ok (some (pg, (f.r :: fs.map Frame.r).reverse)) ∧
      PTree.node d.root ks = plug (.node f.r (f.pre ++ .page pg :: f.post)) fs ∧
      (before fs ++ pagesOf f.pre).length = i := by
  obtain ⟨pg, f, fs, h1, h2, h3⟩ := found d.heap d.maxDepth d.root ks [] i ht hh hi (by omega)
  exact ⟨pg, f, fs, h1, h2.symm, by simpa [before] using h3⟩

theorem search_none {d : PDoc} {ks : List PTree} (ht : IsPageTree d.heap (.node d.root ks))
    (hh : (PTree.node d.root ks).height ≤ d.maxDepth) (hb : (pagesOf ks).length < 2147483648) (i : Nat)
    (hi : (pagesOf ks).length ≤ i) : getPageNode d.heap d.maxDepth i d.root [] = .ok none := by
  cases hm : d.maxDepth with
  | zero => rw [hm] at hh; simp [PTree.height] at hh
  | succ f => exact not_found d.heap f d.root ks i [] ht.ok hi (by omega)

theorem split_pages {d : PDoc} {ks : List PTree} {f : Frame} {fs : List Frame} {pg : Ref}
    (h : PTree.node d.root ks = plug (.node f.r (f.pre ++ .page pg :: f.post)) fs) :
    pagesOf ks = (before fs ++ pagesOf f.pre) ++ pg :: (pagesOf f.post ++ after fs) := by
  have := congrArg PTree.pages h
  rw [pages_plug] at this
  simpa [PTree.pages, pagesOf_append, pagesOf] using this

theorem parentResources_ok (h : PHeap) : ∀ (ps : List Ref) (r : Option Ref),
    (∀ p ∈ ps, ∃ n, h p = some (.dict n)) → ∃ r', parentResources h ps r = .ok r'
  | [], r, _ => ⟨r, rfl⟩
  | p :: ps, r, hp => by
    obtain ⟨n, h1⟩ := hp p (by simp)
    simp only [parentResources, nodeAt, h1]
    exact parentResources_ok h ps _ (fun q hq => hp q (by simp [hq]))

theorem way_dicts {h : PHeap} {f : Frame} {fs : List Frame} {c : PTree}
    (ht : IsPageTree h (plug (.node f.r (f.pre ++ c :: f.post)) fs)) :
    ∀ p ∈ (f.r :: fs.map Frame.r).reverse, ∃ n, h p = some (.dict n) := by
  intro p hp
  obtain ⟨n, c, h1, _⟩ := way_counts ht p (by rwa [List.mem_reverse] at hp)
  exact ⟨n, h1⟩

theorem page_dict {h : PHeap} {f : Frame} {fs : List Frame} {pg : Ref}
    (ht : IsPageTree h (plug (.node f.r (f.pre ++ .page pg :: f.post)) fs)) :
    ∃ n, h pg = some (.dict n) ∧ n.type = .page :=
  ht.ok (.page pg) (by rw [mem_all_plug]; left; simp [PTree.all, allOf_append, allOf])

/-- A page which is not in the cache. -/
theorem getPage_fresh {d : PDoc} {ks : List PTree} (ht : IsPageTree d.heap (.node d.root ks))
    (hh : (PTree.node d.root ks).height ≤ d.maxDepth) (hb : (pagesOf ks).length < 2147483648) (i : Nat) (p : Ref)
    (hp : (pagesOf ks)[i]? = some p) (hc : cacheGet d.cache i = none) :
    ∃ res, d.getPage i = (.ok ⟨p, i, res⟩, { d with cache := cacheSet d.cache i ⟨p, i, res⟩ }) := by
  have hi : i < (pagesOf ks).length := by
    rw [List.getElem?_eq_some_iff] at hp; exact hp.1
  obtain ⟨pg, f, fs, h1, h2, h3⟩ := search ht hh hb i hi
  have hpg : pg = p := by
    rw [split_pages h2, List.getElem?_append_right (by omega), h3] at hp
    simpa using hp
  subst hpg
  rw [h2] at ht
  have hw := way_dicts ht
  obtain ⟨n, g1, g2⟩ := page_dict ht
  have hres : ∃ res, getResources d.heap pg (f.r :: fs.map Frame.r).reverse = .ok res := by
    simp only [getResources, nodeAt, g1]
    cases n.resources with
    | some r => exact ⟨_, rfl⟩
    | none => exact parentResources_ok _ _ _ hw
  obtain ⟨res, hres⟩ := hres
  refine ⟨res, ?_⟩
  rw [PDoc.getPage, hc]
  simp only [h1, hres]

/-! ### The cache -/

theorem cacheGet_some {c : List (Option CPage)} {i : Nat} {p : CPage} :
    cacheGet c i = some p ↔ c[i]? = some (some p) := by
  rw [cacheGet]
  cases c[i]? with
  | none => simp
  | some o => simp

theorem growTo_get (c : List (Option CPage)) (n i : Nat) (p : CPage) :
    (growTo c n)[i]? = some (some p) ↔ c[i]? = some (some p) := by
  rw [growTo]
  by_cases hi : i < c.length
  · rw [List.getElem?_append_left hi]
  · rw [List.getElem?_append_right (by omega), List.getElem?_eq_none (l := c) (by omega)]
    simp [List.getElem?_replicate]

theorem coherent_set {c : List (Option CPage)} {l : List Ref} (hc : Coherent c l) (i : Nat) (p : CPage)
    (hp : l[i]? = some p.obj) : Coherent (cacheSet c i p) l := by
  intro j q hq
  rw [cacheSet, List.getElem?_set] at hq
  by_cases hij : i = j
  · subst hij
    by_cases hlen : i < (if i ≥ c.length then growTo c (i + 1) else c).length
    · rw [if_pos rfl, if_pos hlen] at hq
      simp only [Option.some.injEq] at hq
      rw [← hq]; exact hp
    · rw [if_pos rfl, if_neg hlen] at hq; cases hq
  · rw [if_neg hij] at hq
    apply hc
    by_cases h : i ≥ c.length
    · rw [if_pos h, growTo_get] at hq; exact hq
    · rw [if_neg h] at hq; exact hq

theorem coherent_holes {c : List (Option CPage)} {l : List Ref} (hc : Coherent c l) (i : Nat) (ps : List Ref)
    (hi : i ≤ l.length ∨ l = []) :
    Coherent (cacheHoles c i ps.length) (l.take i ++ (ps ++ l.drop i)) := by
  intro j q hq
  have key : ∀ c' : List (Option CPage), i ≤ c'.length → Coherent c' l →
      (c'.take i ++ List.replicate ps.length none ++ c'.drop i)[j]? = some (some q) →
      (l.take i ++ (ps ++ l.drop i))[j]? = some q.obj := by
    intro c' hlen hc' hq
    rcases hi with hi | hi
    · by_cases h1 : j < i
      · rw [List.append_assoc, List.getElem?_append_left (by rw [List.length_take]; omega), List.getElem?_take_of_lt h1] at hq
        rw [List.getElem?_append_left (by rw [List.length_take]; omega), List.getElem?_take_of_lt h1]
        exact hc' j q hq
      · rw [List.append_assoc, List.getElem?_append_right (by rw [List.length_take]; omega), List.length_take,
          Nat.min_eq_left hlen] at hq
        rw [List.getElem?_append_right (by rw [List.length_take]; omega), List.length_take, Nat.min_eq_left hi]
        by_cases h2 : j - i < ps.length
        · rw [List.getElem?_append_left (by simpa using h2)] at hq
          simp [List.getElem?_replicate, h2] at hq
        · rw [List.getElem?_append_right (by simpa using h2), List.length_replicate, List.getElem?_drop] at hq
          rw [List.getElem?_append_right (by omega), List.getElem?_drop]
          exact hc' _ q hq
    · -- nothing is cached
      subst hi
      exfalso
      have hno : ∀ k, c'[k]? ≠ some (some q) := fun k hk => by have := hc' k q hk; simp at this
      by_cases h1 : j < i
      · rw [List.append_assoc, List.getElem?_append_left (by rw [List.length_take]; omega), List.getElem?_take_of_lt h1] at hq
        exact hno _ hq
      · rw [List.append_assoc, List.getElem?_append_right (by rw [List.length_take]; omega), List.length_take,
          Nat.min_eq_left hlen] at hq
        by_cases h2 : j - i < ps.length
        · rw [List.getElem?_append_left (by simpa using h2)] at hq
          simp [List.getElem?_replicate, h2] at hq
        · rw [List.getElem?_append_right (by simpa using h2), List.length_replicate, List.getElem?_drop] at hq
          exact hno _ hq
  rw [cacheHoles] at hq
  by_cases h : i ≥ c.length
  · rw [if_pos h] at hq
    refine key (growTo c i) (by rw [growTo]; simp; omega) ?_ hq
    intro k p hp
    exact hc k p ((growTo_get c i k p).1 hp)
  · rw [if_neg h] at hq
    exact key c (by omega) hc hq

theorem coherent_delete {c : List (Option CPage)} {l : List Ref} (hc : Coherent c l) (i : Nat) :
    Coherent (cacheDelete c i) (l.eraseIdx i) := by
  intro j q hq
  rw [cacheDelete] at hq
  by_cases h : i ≥ c.length
  · rw [if_pos h] at hq
    have hj : j < c.length := by rw [List.getElem?_eq_some_iff] at hq; exact hq.1
    rw [List.getElem?_eraseIdx, if_pos (by omega)]
    exact hc j q hq
  · rw [if_neg h, List.getElem?_eraseIdx] at hq
    rw [List.getElem?_eraseIdx]
    by_cases hj : j < i
    · rw [if_pos hj] at hq ⊢; exact hc j q hq
    · rw [if_neg hj] at hq ⊢; exact hc _ q hq

/-! ### C45 -/

theorem getPageAt_holds {d : PDoc} {l : List Ref} (hd : Holds d l) (hc : Coherent d.cache l) (i : Nat) (p : Ref)
    (hp : l[i]? = some p) :
    ∃ q c, d.getPageAt i = (.ok q, { d with cache := c }) ∧ q.obj = p ∧ Coherent c l ∧
      d.getPage i = (.ok q, { d with cache := c }) ∧ c[i]? = some (some q) := by
  obtain ⟨ks, ht, hh, hl, hb⟩ := hd
  have hl' : pagesOf ks = l := hl
  subst hl'
  have hi : i < (pagesOf ks).length := by rw [List.getElem?_eq_some_iff] at hp; exact hp.1
  have hat : d.getPageAt i = d.getPage i := by
    rw [PDoc.getPageAt, getCount_holds ht (by omega)]
    dsimp only
    rw [if_neg (by omega)]
  rw [hat]
  cases hcg : cacheGet d.cache i with
  | some q =>
    have h0 := cacheGet_some.1 hcg
    have h1 := hc i q h0
    refine ⟨q, d.cache, ?_, ?_, hc, ?_, h0⟩
    · rw [PDoc.getPage, hcg]
    · rw [h1] at hp; simpa using hp
    · rw [PDoc.getPage, hcg]
  | none =>
    obtain ⟨res, hg⟩ := getPage_fresh ht hh hb i p hp hcg
    refine ⟨⟨p, i, res⟩, _, hg, rfl, coherent_set hc i _ hp, hg, ?_⟩
    rw [cacheSet, List.getElem?_set, if_pos rfl, if_pos]
    split
    · rw [growTo]; simp; omega
    · omega

/-- **C45.** In a page tree of any shape within the recursion limit, `GetPageAt(i)` is the i-th page in document
order, and an index behind the last page raises `PageNotFound`. -/
theorem C45_page_at_partial {d : PDoc} {l : List Ref} (hd : Holds d l) (hc : Coherent d.cache l) :
    d.getCount = .ok l.length ∧
    (∀ i p, l[i]? = some p → ∃ q d', d.getPageAt i = (.ok q, d') ∧ q.obj = p) ∧
    (∀ i, l.length ≤ i → d.getPageAt i = (raise .PageNotFound, d)) := by
  refine ⟨?_, ?_, ?_⟩
  · obtain ⟨ks, ht, hh, hl, hb⟩ := hd
    have hl' : pagesOf ks = l := hl
    subst hl'
    exact getCount_holds ht (by omega)
  · intro i p hp
    obtain ⟨q, c, h1, h2, _⟩ := getPageAt_holds hd hc i p hp
    exact ⟨q, _, h1, h2⟩
  · intro i hi
    obtain ⟨ks, ht, hh, hl, hb⟩ := hd
    have hl' : pagesOf ks = l := hl
    subst hl'
    rw [PDoc.getPageAt, getCount_holds ht (by omega)]
    dsimp only
    rw [if_pos (by omega)]

/-! ### C46 -/

theorem insert_holds {d : PDoc} {ks : List PTree} (ht : IsPageTree d.heap (.node d.root ks))
    (hh : (PTree.node d.root ks).height ≤ d.maxDepth) (i : Nat) (ps : List Ref) (hne : ps ≠ [])
    (hpg : ∀ p ∈ ps, ∃ n, d.heap p = some (.dict n) ∧ n.type = .page) (hfresh : ∀ p ∈ ps, p ∉ pagesOf ks)
    (hnd : ps.Nodup) (hb : (pagesOf ks).length + ps.length < 2147483648) :
    ∃ h' ks' j, d.insertPagesAt i ps =
        (.ok (), { d with heap := h', cache := cacheHoles d.cache j ps.length }) ∧
      IsPageTree h' (.node d.root ks') ∧ (PTree.node d.root ks').height ≤ d.maxDepth ∧
      pagesOf ks' = (pagesOf ks).take i ++ (ps ++ (pagesOf ks).drop i) ∧
      (Linked d.heap (.node d.root ks) → Linked h' (.node d.root ks')) ∧
      (j = i ∧ (i < (pagesOf ks).length ∨ pagesOf ks = []) ∨
        j = (pagesOf ks).length ∧ (pagesOf ks).length ≤ i) := by
  have hcount := getCount_holds ht (by omega)
  have hfr : ∀ p ∈ ps, p ∉ (PTree.node d.root ks).all.map PTree.ref := by
    intro p hp
    obtain ⟨n, h1, h2⟩ := hpg p hp
    exact fresh_of_page ht h1 h2 (hfresh p hp)
  have hnodeform : ∀ (fs : List Frame) (r : Ref) (ks : List PTree), ∃ r' ks', plug (PTree.node r ks) fs = .node r' ks' := by
    intro fs
    induction fs with
    | nil => intro r ks; exact ⟨r, ks, rfl⟩
    | cons g gs ih => intro r ks; exact ih _ _
  by_cases h0 : pagesOf ks = []
  · obtain ⟨h', g1, g2, g3⟩ := insert_core d.heap d.root [] ks [] ps (-1) ht hne hfr hpg hnd hb rfl
    refine ⟨h', ps.map PTree.page ++ ks, i, ?_, g2, ?_, ?_, g3, Or.inl ⟨rfl, Or.inr h0⟩⟩
    · rw [PDoc.insertPagesAt, hcount]
      simp only [h0, List.length_nil, PDoc.pivot]
      simp only [List.map_nil, List.reverse_cons, List.reverse_nil, List.nil_append] at g1
      simp [PDoc.insertAtPivot, g1]
    · simp only [PTree.height, heightOf_append, heightOf_pages] at hh ⊢
      omega
    · rw [pagesOf_append, pagesOf_pages, h0]; simp
  · have hpos : 0 < (pagesOf ks).length := by
      cases h : pagesOf ks with
      | nil => exact absurd h h0
      | cons a b => simp
    by_cases hi : i ≥ (pagesOf ks).length
    · obtain ⟨pg, f, fs, s1, s2, s3⟩ := search ht hh (by omega) ((pagesOf ks).length - 1) (by omega)
      have hsp := split_pages s2
      have hlast : pagesOf f.post ++ after fs = [] := by
        have := congrArg List.length hsp
        rw [List.length_append, s3, List.length_cons] at this
        exact List.eq_nil_of_length_eq_zero (by omega)
      rw [s2] at ht
      have hgp := getPosInKids_eq ht
      rw [ref_page] at hgp
      have ht2 : IsPageTree d.heap (plug (.node f.r ((f.pre ++ [.page pg]) ++ f.post)) fs) := by simpa using ht
      have hpl : plug (.node f.r ((f.pre ++ [PTree.page pg]) ++ f.post)) fs = PTree.node d.root ks := by
        rw [s2]; simp
      obtain ⟨h', g1, g2, g3⟩ := insert_core d.heap f.r (f.pre ++ [.page pg]) f.post fs ps f.pre.length ht2 hne
        (by rw [hpl]; exact hfr) hpg hnd (by rw [hpl]; exact hb) (by simp)
      obtain ⟨r', ks', hform⟩ := hnodeform fs f.r ((f.pre ++ [PTree.page pg]) ++ (ps.map PTree.page ++ f.post))
      have hr' : r' = d.root := by
        have e := plug_ref fs (.node f.r ((f.pre ++ [PTree.page pg]) ++ (ps.map PTree.page ++ f.post)))
          (.node f.r ((f.pre ++ [PTree.page pg]) ++ f.post)) rfl
        rw [hpl, hform] at e
        exact e
      subst hr'
      rw [hform] at g2 g3
      rw [hpl] at g3
      refine ⟨h', ks', (pagesOf ks).length, ?_, g2, ?_, ?_, g3, Or.inr ⟨rfl, hi⟩⟩
      · rw [PDoc.insertPagesAt, hcount]
        simp only [PDoc.pivot, if_neg (show ¬ (pagesOf ks).length = 0 by omega), if_pos hi, s1]
        simp only [PDoc.insertAtPivot, Option.bind_some, List.reverse_cons, lastRef_snoc, Option.map_some, hgp]
        simp only [if_true]
        rw [show (fs.map Frame.r).reverse ++ [f.r] = (f.r :: fs.map Frame.r).reverse by simp, g1]
      · refine Nat.le_trans ?_ hh
        rw [← hform, ← hpl]
        apply height_plug
        simp only [PTree.height, heightOf_append, heightOf_pages]; omega
      · have e := congrArg PTree.pages hform
        rw [pages_plug] at e
        simp only [PTree.pages, pagesOf_append, pagesOf_pages, pagesOf] at e
        rw [← e, List.take_of_length_le hi, List.drop_of_length_le hi, hsp, hlast]
        have h1 : pagesOf f.post = [] := (List.append_eq_nil_iff.1 hlast).1
        have h2 : after fs = [] := (List.append_eq_nil_iff.1 hlast).2
        simp [h1, h2]
    · obtain ⟨pg, f, fs, s1, s2, s3⟩ := search ht hh (by omega) i (by omega)
      have hsp := split_pages s2
      rw [s2] at ht
      have hgp := getPosInKids_eq ht
      rw [ref_page] at hgp
      obtain ⟨h', g1, g2, g3⟩ := insert_core d.heap f.r f.pre (.page pg :: f.post) fs ps (f.pre.length - 1) ht hne
        (by rw [← s2]; exact hfr) hpg hnd (by rw [← s2]; exact hb) (by simp)
      obtain ⟨r', ks', hform⟩ := hnodeform fs f.r (f.pre ++ (ps.map PTree.page ++ .page pg :: f.post))
      have hr' : r' = d.root := by
        have e := plug_ref fs (.node f.r (f.pre ++ (ps.map PTree.page ++ .page pg :: f.post)))
          (.node f.r (f.pre ++ .page pg :: f.post)) rfl
        rw [← s2, hform] at e
        exact e
      subst hr'
      rw [hform] at g2 g3
      rw [← s2] at g3
      refine ⟨h', ks', i, ?_, g2, ?_, ?_, g3, Or.inl ⟨rfl, Or.inl (by omega)⟩⟩
      · rw [PDoc.insertPagesAt, hcount]
        simp only [PDoc.pivot, if_neg (show ¬ (pagesOf ks).length = 0 by omega), if_neg hi, s1]
        simp only [PDoc.insertAtPivot, Option.bind_some, List.reverse_cons, lastRef_snoc, Option.map_some, hgp]
        rw [show (fs.map Frame.r).reverse ++ [f.r] = (f.r :: fs.map Frame.r).reverse by simp]
        simp only [Bool.false_eq_true, if_false, g1]
      · refine Nat.le_trans ?_ hh
        rw [← hform, s2]
        apply height_plug
        simp only [PTree.height, heightOf_append, heightOf_pages, heightOf]; omega
      · have e := congrArg PTree.pages hform
        rw [pages_plug] at e
        simp only [PTree.pages, pagesOf_append, pagesOf_pages, pagesOf] at e
        rw [← e, hsp, List.take_append_of_le_length (by omega), List.drop_append_of_le_length (by omega),
          List.take_of_length_le (by omega), List.drop_of_length_le (by omega)]
        simp

/-- **C46.** `InsertPagesAt(i, ps)` puts the new pages before the page at `i`, or behind the last page when there
is none; the result is a page tree again, with all counts (and, if they were right before, all `/Parent` links)
right. -/
theorem C46_insert_partial {d : PDoc} {l : List Ref} (hd : Holds d l) (i : Nat) (ps : List Ref) (hne : ps ≠ [])
    (hpg : ∀ p ∈ ps, ∃ n, d.heap p = some (.dict n) ∧ n.type = .page) (hfresh : ∀ p ∈ ps, p ∉ l)
    (hnd : ps.Nodup) (hb : l.length + ps.length < 2147483648) :
    ∃ d', d.insertPagesAt i ps = (.ok (), d') ∧ Holds d' (l.take i ++ (ps ++ l.drop i)) ∧
      (HoldsLinked d l → HoldsLinked d' (l.take i ++ (ps ++ l.drop i))) := by
  have hlen : (l.take i ++ (ps ++ l.drop i)).length < 2147483648 := by
    simp only [List.length_append, List.length_take, List.length_drop]; omega
  have key : ∀ ks, IsPageTree d.heap (.node d.root ks) → (PTree.node d.root ks).height ≤ d.maxDepth →
      pagesOf ks = l → ∃ d', d.insertPagesAt i ps = (.ok (), d') ∧
        Holds d' (l.take i ++ (ps ++ l.drop i)) ∧
        (Linked d.heap (.node d.root ks) → HoldsLinked d' (l.take i ++ (ps ++ l.drop i))) := by
    rintro ks ht hh rfl
    obtain ⟨h', ks', j, g1, g2, g3, g4, g5, g6⟩ := insert_holds ht hh i ps hne hpg hfresh hnd hb
    exact ⟨_, g1, ⟨ks', g2, g3, g4, hlen⟩, fun hl => ⟨ks', g2, g3, g4, hlen, g5 hl⟩⟩
  obtain ⟨ks, ht, hh, hl, -⟩ := hd
  obtain ⟨d', h1, h2, -⟩ := key ks ht hh hl
  refine ⟨d', h1, h2, ?_⟩
  rintro ⟨ks2, ht2, hh2, hl2, -, hlk⟩
  obtain ⟨d2, e1, e2, e3⟩ := key ks2 ht2 hh2 hl2
  rw [h1] at e1
  simp only [Prod.mk.injEq, true_and] at e1
  subst e1
  exact e3 hlk

/-! ### C47 -/

theorem remove_holds {d : PDoc} {ks : List PTree} (ht : IsPageTree d.heap (.node d.root ks))
    (hh : (PTree.node d.root ks).height ≤ d.maxDepth) (hb : (pagesOf ks).length < 2147483648) (i : Nat)
    (hi : i < (pagesOf ks).length) :
    ∃ h' ks', d.removePageAt i = (.ok (), { d with heap := h', cache := cacheDelete d.cache i }) ∧
      IsPageTree h' (.node d.root ks') ∧ (PTree.node d.root ks').height ≤ d.maxDepth ∧
      pagesOf ks' = (pagesOf ks).eraseIdx i ∧ OldEmpty (.node d.root ks) (.node d.root ks') ∧
      (Linked d.heap (.node d.root ks) → Linked h' (.node d.root ks')) := by
  obtain ⟨pg, f, fs, s1, s2, s3⟩ := search ht hh hb i hi
  have hsp := split_pages s2
  have ht2 := ht
  rw [s2] at ht2
  have hgp := getPosInKids_eq ht2
  rw [ref_page] at hgp
  obtain ⟨h', r', ks', c1, c2, c3, c4, c5, c6, c7⟩ := remove_core d.heap d.root f.r f.pre f.post pg fs ht2
    (by rw [← s2]; rfl) (by rw [← s2]; exact hb)
  subst c3
  rw [← s2] at c5 c6 c7
  refine ⟨h', ks', ?_, c2, Nat.le_trans c5 hh, ?_, c6, c7⟩
  · simp only [PDoc.removePageAt, PDoc.removeFromTree, s1]
    simp only [List.reverse_cons, lastRef_snoc, hgp]
    rw [show (fs.map Frame.r).reverse ++ [f.r] = (f.r :: fs.map Frame.r).reverse by simp, c1]
  · have e := eraseIdx_mid (before fs ++ pagesOf f.pre) (pagesOf f.post ++ after fs) pg
    rw [s3] at e
    rw [c4, hsp, e]; simp

/-- **C47.** `RemovePageAt(i)` removes the i-th page and nothing else; the result is a page tree again with all
counts right, every node left without pages (other than the root) was without pages before, and an index behind
the last page raises `PageNotFound`. -/
theorem C47_remove_partial {d : PDoc} {ks : List PTree} (ht : IsPageTree d.heap (.node d.root ks))
    (hh : (PTree.node d.root ks).height ≤ d.maxDepth) (hb : (PTree.node d.root ks).pages.length < 2147483648) (i : Nat) :
    (i < (PTree.node d.root ks).pages.length → ∃ d' ks', d.removePageAt i = (.ok (), d') ∧ d'.root = d.root ∧
      IsPageTree d'.heap (.node d.root ks') ∧ (PTree.node d.root ks').height ≤ d.maxDepth ∧
      (PTree.node d.root ks').pages = (PTree.node d.root ks).pages.eraseIdx i ∧
      (∀ s ∈ (PTree.node d.root ks').all, s.pages = [] → s.ref ≠ d.root → s ∈ (PTree.node d.root ks).all) ∧
      (Linked d.heap (.node d.root ks) → Linked d'.heap (.node d.root ks'))) ∧
    ((PTree.node d.root ks).pages.length ≤ i →
      (d.removePageAt i).1 = raise .PageNotFound ∧ (d.removePageAt i).2.heap = d.heap) := by
  constructor
  · intro hi
    obtain ⟨h', ks', g1, g2, g3, g4, g5, g6⟩ := remove_holds ht hh hb i hi
    exact ⟨_, ks', g1, rfl, g2, g3, g4, g5, g6⟩
  · intro hi
    have := search_none ht hh hb i hi
    simp only [PDoc.removePageAt, PDoc.removeFromTree, this, and_self]

end Pdfmm
