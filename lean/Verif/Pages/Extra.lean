import Verif.Pages.History
/-
Page numbers, inherited resources, what goes wrong below the recursion limit, and documents to which the theorems
apply.
-/
set_option autoImplicit false
namespace Pdfmm
open Spec Frame

/-! ### C77: the number of a page -/

theorem numberKids_eq (h : PHeap) (ref : Ref) (b : List PKid) : ∀ (a : List PTree) (n : Nat),
    (∀ s ∈ allOf a, NodeOK h s) → (∀ k ∈ a, k.ref ≠ ref) → n + (pagesOf a).length < 4294967296 →
    numberKids h ref (a.map (fun k => .ref k.ref) ++ .ref ref :: b) n = .ok (n + (pagesOf a).length)
  | [], n, _, _, _ => by simp [numberKids, pagesOf]
  | .page r :: a, n, hok, hne, hb => by
    obtain ⟨m, h1, h2⟩ := hok (.page r) (by simp [allOf, PTree.all])
    have hr : r ≠ ref := hne (.page r) (by simp)
    simp only [pagesOf, PTree.pages, List.length_append, List.length_cons, List.length_nil] at hb
    have ih := numberKids_eq h ref b a (n + 1) (fun s hs => hok s (by simp [allOf, hs]))
      (fun k hk => hne k (by simp [hk])) (by omega)
    simp only [List.map_cons, List.cons_append, ref_page, numberKids, if_neg hr, h1, h2]
    rw [if_neg (by simp), Nat.mod_eq_of_lt (by omega), ih]
    simp only [pagesOf, PTree.pages, List.length_append, List.length_cons, List.length_nil]
    congr 1; omega
  | .node r cs :: a, n, hok, hne, hb => by
    obtain ⟨m, h1, h2, h3, h4⟩ := hok (.node r cs) (by simp [allOf, PTree.all])
    have hr : r ≠ ref := hne (.node r cs) (by simp)
    simp only [pagesOf, PTree.pages, List.length_append] at hb
    have ih := numberKids_eq h ref b a (n + (pagesOf cs).length) (fun s hs => hok s (by simp [allOf, hs]))
      (fun k hk => hne k (by simp [hk])) (by omega)
    simp only [List.map_cons, List.cons_append, ref_node, numberKids, if_neg hr, h1, h2, if_true, h4]
    rw [show (((n : Int) + ((pagesOf cs).length : Int)) % 4294967296).toNat = n + (pagesOf cs).length by omega, ih]
    simp only [pagesOf, PTree.pages, List.length_append]
    congr 1; omega

theorem numberLoop_eq (h : PHeap) : ∀ (fs : List Frame) (t : PTree) (fuel n : Nat) (m : PNode),
    IsPageTree h (plug t fs) → Linked h (plug t fs) → h t.ref = some (.dict m) → fs.length < fuel →
    n + (before fs).length + 1 < 4294967296 →
    numberLoop h fuel m.parent t.ref n = .ok (n + (before fs).length + 1)
  | [], t, fuel, n, m, ht, hl, hm, hf, hb => by
    obtain ⟨k, h1, h2⟩ := hl.root
    have hm' : h (plug t []).ref = some (.dict m) := hm
    rw [hm'] at h1
    simp only [Option.some.injEq, PObj.dict.injEq] at h1
    subst h1
    rw [h2]
    simp only [before, List.length_nil, Nat.add_zero] at hb ⊢
    rw [numberLoop, Nat.mod_eq_of_lt (by omega)]
  | f :: fs, t, fuel, n, m, ht, hl, hm, hf, hb => by
    have hnode : f.fill t ∈ (plug t (f :: fs)).all := by rw [mem_all_plug]; simp [path]
    obtain ⟨k, h1, h2, h3, h4⟩ := ht.ok _ hnode
    have hpar := hl.ok _ hnode t (by simp)
    obtain ⟨m', g1, g2⟩ := hpar
    rw [hm] at g1
    simp only [Option.some.injEq, PObj.dict.injEq] at g1
    subst g1
    simp only [before, List.length_append] at hb
    have hk := numberKids_eq h t.ref (f.post.map (fun k => .ref k.ref)) f.pre n
      (fun s hs => ht.ok s (by rw [mem_all_plug]; right; left; simp [sides, hs]))
      (kid_apart (show IsPageTree h (plug (.node f.r (f.pre ++ t :: f.post)) fs) from ht)).2
      (by omega)
    cases fuel with
    | zero => simp at hf
    | succ fuel =>
      have hf' : fs.length < fuel := by simp only [List.length_cons] at hf; omega
      have ih := numberLoop_eq h fs (f.fill t) fuel (n + (pagesOf f.pre).length) k ht hl h1 hf' (by omega)
      rw [g2, numberLoop]
      simp only [h1, h3, List.map_append, List.map_cons, hk]
      rw [if_neg (by omega)]
      rw [fill_ref] at ih
      rw [ih]
      simp only [before, List.length_append]
      congr 1; omega

/-- **C77.** `GetPageNumber` of the i-th page (counted from 0) is i + 1, in a page tree of any shape with its
`/Parent` links, up to the depth at which the code gives up. -/
theorem C77_page_number_partial {d : PDoc} {l : List Ref} (hd : HoldsLinked d l) (hm : d.maxDepth ≤ 1000)
    (i : Nat) (p : Ref) (hp : l[i]? = some p) : pageNumber d.heap p = .ok (i + 1) := by
  obtain ⟨ks, ht, hh, hl, hb, hlk⟩ := hd
  have hl' : pagesOf ks = l := hl
  subst hl'
  have hi : i < (pagesOf ks).length := by rw [List.getElem?_eq_some_iff] at hp; exact hp.1
  obtain ⟨pg, f, fs, s1, s2, s3⟩ := search ht hh hb i hi
  have hpg : pg = p := by
    rw [split_pages s2, List.getElem?_append_right (by omega), s3] at hp
    simpa using hp
  subst hpg
  have e : PTree.node d.root ks = plug (.page pg) (f :: fs) := s2
  have hdep := plug_height_ge (f :: fs) (.page pg)
  rw [← e] at hdep
  rw [e] at ht hlk
  obtain ⟨n, g1, g2⟩ := ht.ok (.page pg) (by rw [mem_all_plug]; left; exact self_mem_all _)
  have hbl : (before (f :: fs)).length = i := by simpa [before] using s3
  have := numberLoop_eq d.heap (f :: fs) (.page pg) 1001 0 n ht hlk g1
    (by rw [show (PTree.page pg).height = 0 from rfl] at hdep; omega) (by omega)
  rw [ref_page, hbl] at this
  rw [pageNumber]
  simp only [nodeAt, g1, this]
  congr 1; omega

/-! ### C78: the index a page was made with -/

/-- A page taken from the tree, not from the cache, has the index asked for. -/
theorem C78_index_partial {d : PDoc} {l : List Ref} (hd : Holds d l) (i : Nat) (p : Ref)
    (hp : l[i]? = some p) (hc : cacheGet d.cache i = none) :
    ∃ q d', d.getPageAt i = (.ok q, d') ∧ q.obj = p ∧ q.index = i := by
  obtain ⟨ks, ht, hh, hl, hb⟩ := hd
  have hl' : pagesOf ks = l := hl
  subst hl'
  have hi : i < (pagesOf ks).length := by rw [List.getElem?_eq_some_iff] at hp; exact hp.1
  obtain ⟨res, hg⟩ := getPage_fresh ht hh hb i p hp hc
  refine ⟨⟨p, i, res⟩, { d with cache := cacheSet d.cache i ⟨p, i, res⟩ }, ?_, rfl, rfl⟩
  rw [PDoc.getPageAt, getCount_holds ht (by omega)]
  dsimp only
  rw [if_neg (by omega), hg]

/-! ### Documents -/

/-- A new document: an empty page tree, `src/pdfmm/base/PdfPageCollection.cpp:22-28`. -/
def emptyDoc : PDoc :=
  { heap := fun r => if r = ⟨1, 0⟩ then some (.dict ⟨.pages, .arr [], .num 0, none, none⟩) else none
    root := ⟨1, 0⟩, cache := [], maxDepth := 256 }

theorem emptyDoc_holds : HoldsLinked emptyDoc [] := by
  refine ⟨[], ⟨?_, by decide⟩, by decide, rfl, by decide, ?_, ?_⟩
  · intro s hs
    simp only [PTree.all, allOf, List.mem_singleton] at hs
    subst hs
    exact ⟨_, rfl, rfl, rfl, rfl⟩
  · intro s hs
    simp only [PTree.all, allOf, List.mem_singleton] at hs
    subst hs
    intro k hk; simp at hk
  · exact ⟨_, rfl, rfl⟩

theorem emptyDoc_coherent : Coherent emptyDoc.cache [] := by
  intro i p hp; simp [emptyDoc] at hp

/-- The history theorem applies to new documents: pages created, looked up, inserted before others and removed. -/
example : (emptyDoc.runAll [.create ⟨2, 0⟩, .create ⟨3, 0⟩, .createAt 1 ⟨4, 0⟩, .get 1, .remove 0, .get 0, .get 2,
      .insert 7 [⟨2, 0⟩], .find ⟨2, 0⟩]).1 =
    [.ok (some ⟨2, 0⟩), .ok (some ⟨3, 0⟩), .ok (some ⟨4, 0⟩), .ok (some ⟨4, 0⟩), .ok none, .ok (some ⟨4, 0⟩),
      raise .PageNotFound, .ok none, .ok (some ⟨2, 0⟩)] := by
  decide +kernel

example : AllAllowed emptyDoc [] [.create ⟨2, 0⟩, .create ⟨3, 0⟩, .createAt 1 ⟨4, 0⟩, .get 1, .remove 0, .get 0,
    .get 2, .insert 7 [⟨2, 0⟩], .find ⟨2, 0⟩] := by
  refine ⟨⟨by decide +kernel, by decide⟩, ⟨by decide +kernel, by decide⟩, ⟨by decide +kernel, by decide⟩, trivial,
    trivial, trivial, trivial, ⟨?_, by decide +kernel, by decide, by decide⟩, trivial, trivial⟩
  intro p hp
  simp only [List.mem_singleton] at hp
  subst hp
  exact ⟨_, by rfl, by rfl⟩

/-- A tree with nested and empty nodes: pages 3, 5 and 6, and a node 4 without pages. -/
def nestedDoc : PDoc :=
  { heap := fun r => match r with
      | ⟨1, 0⟩ => some (.dict ⟨.pages, .arr [.ref ⟨2, 0⟩, .ref ⟨4, 0⟩, .ref ⟨6, 0⟩], .num 3, none, some ⟨9, 0⟩⟩)
      | ⟨2, 0⟩ => some (.dict ⟨.pages, .arr [.ref ⟨3, 0⟩, .ref ⟨5, 0⟩], .num 2, some ⟨1, 0⟩, none⟩)
      | ⟨3, 0⟩ => some (.dict ⟨.page, .absent, .absent, some ⟨2, 0⟩, none⟩)
      | ⟨4, 0⟩ => some (.dict ⟨.pages, .arr [], .num 0, some ⟨1, 0⟩, none⟩)
      | ⟨5, 0⟩ => some (.dict ⟨.page, .absent, .absent, some ⟨2, 0⟩, some ⟨10, 0⟩⟩)
      | ⟨6, 0⟩ => some (.dict ⟨.page, .absent, .absent, some ⟨1, 0⟩, none⟩)
      | _ => none
    root := ⟨1, 0⟩, cache := [], maxDepth := 256 }

def nestedKids : List PTree := [.node ⟨2, 0⟩ [.page ⟨3, 0⟩, .page ⟨5, 0⟩], .node ⟨4, 0⟩ [], .page ⟨6, 0⟩]

theorem nestedDoc_tree : IsPageTree nestedDoc.heap (.node nestedDoc.root nestedKids) := by
  refine ⟨?_, by decide⟩
  intro s hs
  simp only [nestedKids, PTree.all, allOf, List.append_nil, List.cons_append, List.nil_append, List.mem_cons,
    List.not_mem_nil, or_false] at hs
  rcases hs with hs | hs | hs | hs | hs | hs <;> subst hs
  · exact ⟨_, rfl, rfl, rfl, rfl⟩
  · exact ⟨_, rfl, rfl, rfl, rfl⟩
  · exact ⟨_, rfl, rfl⟩
  · exact ⟨_, rfl, rfl⟩
  · exact ⟨_, rfl, rfl, rfl, rfl⟩
  · exact ⟨_, rfl, rfl⟩

theorem nestedDoc_linked : HoldsLinked nestedDoc [⟨3, 0⟩, ⟨5, 0⟩, ⟨6, 0⟩] := by
  refine ⟨nestedKids, nestedDoc_tree, by decide, by decide, by decide, ?_, ?_⟩
  · intro s hs
    simp only [nestedKids, PTree.all, allOf, List.append_nil, List.cons_append, List.nil_append, List.mem_cons,
      List.not_mem_nil, or_false] at hs
    rcases hs with hs | hs | hs | hs | hs | hs <;> subst hs
    · intro k hk
      simp only [nestedKids, List.mem_cons, List.not_mem_nil, or_false] at hk
      rcases hk with hk | hk | hk <;> subst hk <;> exact ⟨_, rfl, rfl⟩
    · intro k hk
      simp only [List.mem_cons, List.not_mem_nil, or_false] at hk
      rcases hk with hk | hk <;> subst hk <;> exact ⟨_, rfl, rfl⟩
    · trivial
    · trivial
    · intro k hk; simp at hk
    · trivial
  · exact ⟨_, rfl, rfl⟩

theorem nestedDoc_holds : Holds nestedDoc [⟨3, 0⟩, ⟨5, 0⟩, ⟨6, 0⟩] := by
  obtain ⟨ks, h1, h2, h3, h4, h5⟩ := nestedDoc_linked
  exact ⟨ks, h1, h2, h3, h4⟩

theorem nestedDoc_coherent : Coherent nestedDoc.cache [⟨3, 0⟩, ⟨5, 0⟩, ⟨6, 0⟩] := by
  intro i p hp; simp [nestedDoc] at hp

example : ∃ q d', nestedDoc.getPageAt 1 = (.ok q, d') ∧ q.obj = ⟨5, 0⟩ :=
  (C45_page_at_partial nestedDoc_holds nestedDoc_coherent).2.1 1 _ rfl
example : pageNumber nestedDoc.heap ⟨6, 0⟩ = .ok 3 := C77_page_number_partial nestedDoc_linked (by decide) 2 _ rfl
/-- Removing the only two pages of the node 2 removes the node, and leaves the node 4 which was empty before. -/
example : ((nestedDoc.removePageAt 0).2.removePageAt 0).2.heap ⟨2, 0⟩ = none ∧
    ((nestedDoc.removePageAt 0).2.removePageAt 0).2.heap ⟨1, 0⟩ =
      some (.dict ⟨.pages, .arr [.ref ⟨4, 0⟩, .ref ⟨6, 0⟩], .num 1, none, some ⟨9, 0⟩⟩) := by
  decide +kernel

/-- C78 is false: a page that was created before another page was inserted in front of it keeps its old index. -/
theorem C78_index_false :
    (((emptyDoc.createPage ⟨2, 0⟩).2.createPageAt 0 ⟨3, 0⟩).2.getPageAt 1).1 = .ok ⟨⟨2, 0⟩, 0, none⟩ := by
  decide +kernel

/-! ### C79: inherited resources -/

/-- The resources of the nearest node that has some, from a page upwards. -/
def Spec.nearestResources (h : PHeap) : List Ref → Option Ref
  | [] => none
  | x :: up => match h x with
    | some (.dict n) => n.resources.or (nearestResources h up)
    | _ => nearestResources h up

theorem parentResources_last (h : PHeap) (p : Ref) (n : PNode) (hp : h p = some (.dict n)) :
    ∀ (ps : List Ref) (r : Option Ref), (∀ q ∈ ps, ∃ n, h q = some (.dict n)) →
    parentResources h (ps ++ [p]) r = .ok n.resources
  | [], r, _ => by simp [parentResources, nodeAt, hp]
  | q :: ps, r, hq => by
    obtain ⟨m, h1⟩ := hq q (by simp)
    simp only [List.cons_append, parentResources, nodeAt, h1]
    exact parentResources_last h p n hp ps _ (fun x hx => hq x (by simp [hx]))

/-- `getResources` of a page sees the page and its parent only. -/
theorem getResources_eq (h : PHeap) (page p : Ref) (up : List Ref) (m n : PNode) (hm : h page = some (.dict m))
    (hn : h p = some (.dict n)) (hup : ∀ q ∈ up, ∃ n, h q = some (.dict n)) :
    getResources h page (p :: up).reverse = .ok (m.resources.or n.resources) := by
  simp only [getResources, nodeAt, hm]
  cases hr : m.resources with
  | some r => simp
  | none =>
    dsimp only
    rw [List.reverse_cons, parentResources_last h p n hn up.reverse none (by
      intro q hq; exact hup q (by simpa using hq))]
    simp

/-- C79 in part: a page with resources of its own, or whose parent node has some, gets the nearest ones.
Missing: resources of nodes further up, see `C79_inherited_false`. -/
theorem C79_resources_partial (h : PHeap) (page p : Ref) (up : List Ref) (m n : PNode)
    (hm : h page = some (.dict m)) (hn : h p = some (.dict n)) (hup : ∀ q ∈ up, ∃ n, h q = some (.dict n))
    (hres : m.resources ≠ none ∨ n.resources ≠ none) :
    getResources h page (p :: up).reverse = .ok (nearestResources h (page :: p :: up)) := by
  rw [getResources_eq h page p up m n hm hn hup]
  simp only [nearestResources, hm, hn]
  cases hr : m.resources with
  | some r => simp
  | none => cases hr2 : n.resources with
    | some r => simp
    | none => simp [hr, hr2] at hres

/-- C79 is false: a page gets no resources whenever neither it nor its parent node has any, whatever the nodes
above have. -/
theorem C79_inherited_false (h : PHeap) (page p : Ref) (up : List Ref) (m n : PNode)
    (hm : h page = some (.dict m)) (hn : h p = some (.dict n)) (hup : ∀ q ∈ up, ∃ n, h q = some (.dict n))
    (h1 : m.resources = none) (h2 : n.resources = none) :
    getResources h page (p :: up).reverse = .ok none := by
  rw [getResources_eq h page p up m n hm hn hup, h1, h2]; rfl

/-- The first page of the nested document should have the resources of the root. -/
example : (nestedDoc.getPageAt 0).1 = .ok ⟨⟨3, 0⟩, 0, none⟩ ∧
    nearestResources nestedDoc.heap [⟨3, 0⟩, ⟨2, 0⟩, ⟨1, 0⟩] = some ⟨9, 0⟩ ∧
    (nestedDoc.getPageAt 1).1 = .ok ⟨⟨5, 0⟩, 1, some ⟨10, 0⟩⟩ ∧ (nestedDoc.getPageAt 2).1 = .ok ⟨⟨6, 0⟩, 2, some ⟨9, 0⟩⟩ := by
  decide +kernel

/-! ### Deep trees -/

/-- A chain of `n` nodes with one page at its end. -/
def deep : Nat → Nat → PTree
  | 0, k => .page ⟨k, 0⟩
  | n + 1, k => .node ⟨k, 0⟩ [deep n (k + 1)]

/-- A document with a page below `n` nodes of a chain, followed by two pages under the root. -/
def deepDoc (max n : Nat) : PDoc :=
  { heap := fun r =>
      if r.gen = 0 then
        if r.num < n then some (.dict ⟨.pages, .arr [.ref ⟨r.num + 1, 0⟩], .num 1, none, none⟩)
        else if r.num = n then some (.dict ⟨.page, .absent, .absent, none, none⟩) else none
      else if r = ⟨0, 1⟩ then
        some (.dict ⟨.pages, .arr [.ref ⟨0, 0⟩, .ref ⟨1, 1⟩, .ref ⟨2, 1⟩], .num 3, none, none⟩)
      else if r = ⟨1, 1⟩ ∨ r = ⟨2, 1⟩ then some (.dict ⟨.page, .absent, .absent, none, none⟩)
      else none
    root := ⟨0, 1⟩, cache := [], maxDepth := max }

theorem deep_ref (n k : Nat) : (deep n k).ref = ⟨k, 0⟩ := by cases n <;> rfl

theorem deep_pages : ∀ n k, (deep n k).pages = [⟨k + n, 0⟩]
  | 0, k => rfl
  | n + 1, k => by
    rw [deep, PTree.pages, pagesOf, pagesOf, deep_pages n (k + 1)]
    simp; omega

theorem deep_refs : ∀ n k, (deep n k).all.map PTree.ref = (List.range' k (n + 1)).map (fun i => ⟨i, 0⟩)
  | 0, k => rfl
  | n + 1, k => by
    rw [deep, PTree.all, allOf, allOf, List.map_cons, List.append_nil, deep_refs n (k + 1), List.range'_succ]
    rfl

theorem deep_ok (max N : Nat) : ∀ n k, k + n = N → ∀ s ∈ (deep n k).all, NodeOK (deepDoc max N).heap s
  | 0, k, hk, s, hs => by
    simp only [deep, PTree.all, List.mem_singleton] at hs
    subst hs
    have e : k = N := by omega
    exact ⟨⟨.page, .absent, .absent, none, none⟩, by simp [deepDoc, e], rfl⟩
  | n + 1, k, hk, s, hs => by
    simp only [deep, PTree.all, allOf, List.append_nil, List.mem_cons] at hs
    rcases hs with hs | hs
    · subst hs
      refine ⟨⟨.pages, .arr [.ref ⟨k + 1, 0⟩], .num 1, none, none⟩, ?_, rfl, ?_, ?_⟩
      · simp only [deepDoc]
        rw [if_pos trivial, if_pos (by omega)]
      · simp [deep_ref]
      · simp [pagesOf, deep_pages]
    · exact deep_ok max N n (k + 1) (by omega) s hs

theorem deepDoc_tree (max n : Nat) :
    IsPageTree (deepDoc max n).heap (.node (deepDoc max n).root [deep n 0, .page ⟨1, 1⟩, .page ⟨2, 1⟩]) ∧
    (PTree.node (deepDoc max n).root [deep n 0, .page ⟨1, 1⟩, .page ⟨2, 1⟩]).pages = [⟨n, 0⟩, ⟨1, 1⟩, ⟨2, 1⟩] := by
  refine ⟨⟨?_, ?_⟩, ?_⟩
  · intro s hs
    simp only [PTree.all, allOf, List.append_nil, List.mem_cons, List.mem_append, List.not_mem_nil, or_false] at hs
    rcases hs with hs | hs | hs | hs
    · subst hs
      refine ⟨_, rfl, rfl, ?_, ?_⟩
      · simp only [List.map_cons, List.map_nil, deep_ref, ref_page]
      · simp [pagesOf, deep_pages, PTree.pages]
    · exact deep_ok max n n 0 (by omega) s hs
    · subst hs; exact ⟨_, rfl, rfl⟩
    · subst hs; exact ⟨_, rfl, rfl⟩
  · simp only [PTree.all, allOf, List.map_cons, List.map_append, List.map_nil, List.append_nil, deep_refs,
      List.cons_append, List.nil_append, ref_node, ref_page]
    rw [List.nodup_cons, List.nodup_append]
    refine ⟨?_, ?_, by decide, ?_⟩
    · simp [deepDoc]
    · rw [List.Nodup, List.pairwise_map]
      refine (List.nodup_range' (s := 0) (n := n + 1)).imp ?_
      intro a b hab
      simpa using hab
    · intro a ha b hb
      simp only [List.mem_map] at ha
      obtain ⟨i, _, rfl⟩ := ha
      simp only [List.mem_cons, List.not_mem_nil, or_false] at hb
      rcases hb with rfl | rfl <;> simp
  · simp [PTree.pages, pagesOf, deep_pages]

theorem deep_search (max N : Nat) : ∀ (f j : Nat) (ps : List Ref), j + f < N →
    (∀ p ∈ ps, p.gen = 1 ∨ p.num < j) →
    getPageNode (deepDoc max N).heap f 0 ⟨j, 0⟩ ps = raise .InvalidXRef
  | 0, _, _, _, _ => rfl
  | f + 1, j, ps, hj, hps => by
    have h1 : ∀ j, j < N →
        (deepDoc max N).heap ⟨j, 0⟩ = some (.dict ⟨.pages, .arr [.ref ⟨j + 1, 0⟩], .num 1, none, none⟩) := by
      intro j hj
      simp only [deepDoc]
      rw [if_pos trivial, if_pos hj]
    have ih := deep_search max N f (j + 1) (ps ++ [⟨j, 0⟩]) (by omega) (by
      intro p hp
      rw [List.mem_append, List.mem_singleton] at hp
      rcases hp with hp | hp
      · rcases hps p hp with h | h
        · exact Or.inl h
        · exact Or.inr (by omega)
      · subst hp; exact Or.inr (by show j < j + 1; omega))
    have hnot : (⟨j + 1, 0⟩ : Ref) ∉ ps ++ [⟨j, 0⟩] := by
      intro hm
      rw [List.mem_append, List.mem_singleton] at hm
      rcases hm with hm | hm
      · rcases hps _ hm with h | h
        · simp at h
        · have : j + 1 < j := h
          omega
      · simp at hm
    simp only [getPageNode, nodeAt, h1 j (by omega), childCount, scanKids, h1 (j + 1) (by omega)]
    rw [if_neg (by decide), if_neg (by decide), if_neg hnot, ih]

theorem deepDoc_search (max n : Nat) (hm : 0 < max) (hn : max ≤ n) :
    getPageNode (deepDoc max n).heap max 0 ⟨0, 1⟩ [] = raise .InvalidXRef := by
  obtain ⟨m, rfl⟩ : ∃ m, max = m + 1 := ⟨max - 1, by omega⟩
  have hroot : (deepDoc (m + 1) n).heap ⟨0, 1⟩ =
      some (.dict ⟨.pages, .arr [.ref ⟨0, 0⟩, .ref ⟨1, 1⟩, .ref ⟨2, 1⟩], .num 3, none, none⟩) := rfl
  have h0 : (deepDoc (m + 1) n).heap ⟨0, 0⟩ = some (.dict ⟨.pages, .arr [.ref ⟨0 + 1, 0⟩], .num 1, none, none⟩) := by
    simp only [deepDoc]
    rw [if_pos trivial, if_pos (by omega)]
  have ih := deep_search (m + 1) n m 0 [⟨0, 1⟩] (by omega) (by simp)
  simp only [getPageNode, nodeAt, hroot, childCount, scanKids, h0]
  rw [if_neg (by decide), if_neg (by decide), if_neg (by simp)]
  exact ih

theorem deepDoc_count (max n : Nat) : (deepDoc max n).getCount = .ok 3 := rfl

/-- C45 is false for trees deeper than the recursion limit, whatever the limit is: the page at the end of a chain
of that many nodes cannot be had. -/
theorem C45_deep_false (max n : Nat) (hm : 0 < max) (hn : max ≤ n) :
    (∃ ks, IsPageTree (deepDoc max n).heap (.node (deepDoc max n).root ks) ∧
      (PTree.node (deepDoc max n).root ks).pages = [⟨n, 0⟩, ⟨1, 1⟩, ⟨2, 1⟩]) ∧
    (deepDoc max n).getPageAt 0 = (raise .InvalidXRef, deepDoc max n) := by
  refine ⟨⟨_, deepDoc_tree max n⟩, ?_⟩
  rw [PDoc.getPageAt, deepDoc_count]
  dsimp only
  rw [if_neg (by omega), PDoc.getPage]
  rw [show cacheGet (deepDoc max n).cache 0 = none from rfl]
  dsimp only
  rw [show (deepDoc max n).maxDepth = max from rfl, show (deepDoc max n).root = ⟨0, 1⟩ from rfl,
    deepDoc_search max n hm hn]

/-- C48 is false for such trees: when `RemovePageAt` fails in the tree it has already changed the cache, and a
page that was looked up before is then served for an index at which the tree has another one. -/
theorem C48_failed_remove_false (max n : Nat) (hm : 0 < max) (hn : max ≤ n) :
    (∃ ks, IsPageTree (deepDoc max n).heap (.node (deepDoc max n).root ks) ∧
      (PTree.node (deepDoc max n).root ks).pages = [⟨n, 0⟩, ⟨1, 1⟩, ⟨2, 1⟩]) ∧
    ((deepDoc max n).runAll [.get 1, .remove 0, .get 0]).1 =
      [.ok (some ⟨1, 1⟩), raise .InvalidXRef, .ok (some ⟨1, 1⟩)] ∧
    ((deepDoc max n).runAll [.get 1, .remove 0, .get 0]).2.heap = (deepDoc max n).heap := by
  refine ⟨⟨_, deepDoc_tree max n⟩, ?_⟩
  obtain ⟨m, rfl⟩ : ∃ m, max = m + 1 := ⟨max - 1, by omega⟩
  have hroot : (deepDoc (m + 1) n).heap ⟨0, 1⟩ =
      some (.dict ⟨.pages, .arr [.ref ⟨0, 0⟩, .ref ⟨1, 1⟩, .ref ⟨2, 1⟩], .num 3, none, none⟩) := rfl
  have hA : (deepDoc (m + 1) n).heap ⟨1, 1⟩ = some (.dict ⟨.page, .absent, .absent, none, none⟩) := rfl
  have h0 : (deepDoc (m + 1) n).heap ⟨0, 0⟩ = some (.dict ⟨.pages, .arr [.ref ⟨0 + 1, 0⟩], .num 1, none, none⟩) := by
    simp only [deepDoc]
    rw [if_pos trivial, if_pos (by omega)]
  have hs1 : getPageNode (deepDoc (m + 1) n).heap (m + 1) 1 ⟨0, 1⟩ [] = .ok (some (⟨1, 1⟩, [⟨0, 1⟩])) := by
    simp only [getPageNode, nodeAt, hroot, childCount, scanKids, h0, hA]
    rw [if_neg (by decide), if_pos (by decide)]
    rfl
  have hres : getResources (deepDoc (m + 1) n).heap ⟨1, 1⟩ [⟨0, 1⟩] = .ok none := rfl
  have e1 : (deepDoc (m + 1) n).getPageAt 1 = (.ok ⟨⟨1, 1⟩, 1, none⟩,
      { deepDoc (m + 1) n with cache := [none, some ⟨⟨1, 1⟩, 1, none⟩] }) := by
    rw [PDoc.getPageAt, deepDoc_count]
    dsimp only
    rw [if_neg (by omega), PDoc.getPage, show cacheGet (deepDoc (m + 1) n).cache 1 = none from rfl]
    dsimp only
    rw [show (deepDoc (m + 1) n).maxDepth = m + 1 from rfl, show (deepDoc (m + 1) n).root = ⟨0, 1⟩ from rfl, hs1]
    dsimp only
    rw [hres]
    rfl
  have e2 : ({ deepDoc (m + 1) n with cache := [none, some ⟨⟨1, 1⟩, 1, none⟩] } : PDoc).removePageAt 0 =
      (raise .InvalidXRef, { deepDoc (m + 1) n with cache := [some ⟨⟨1, 1⟩, 1, none⟩] }) := by
    have hs := deepDoc_search (m + 1) n hm hn
    rw [PDoc.removePageAt, PDoc.removeFromTree]
    dsimp only
    rw [show (deepDoc (m + 1) n).maxDepth = m + 1 from rfl, show (deepDoc (m + 1) n).root = ⟨0, 1⟩ from rfl, hs]
    rfl
  have e3 : ({ deepDoc (m + 1) n with cache := [some ⟨⟨1, 1⟩, 1, none⟩] } : PDoc).getPageAt 0 =
      (.ok ⟨⟨1, 1⟩, 1, none⟩, { deepDoc (m + 1) n with cache := [some ⟨⟨1, 1⟩, 1, none⟩] }) := rfl
  simp only [PDoc.runAll, PDoc.run, e1, e2, e3, pageObj, noPage]
  exact ⟨trivial, trivial⟩

/-- With the limit of 256 that the code starts with. -/
example : ((deepDoc 256 256).runAll [.get 1, .remove 0, .get 0]).1 =
    [.ok (some ⟨1, 1⟩), raise .InvalidXRef, .ok (some ⟨1, 1⟩)] :=
  (C48_failed_remove_false 256 256 (by omega) (by omega)).2.1

/-- Pages can be inserted into and removed from the nested document. -/
example : ∃ d', ({ nestedDoc with heap := setNode nestedDoc.heap ⟨7, 0⟩ newPage } : PDoc).insertPagesAt 1 [⟨7, 0⟩] =
    (.ok (), d') ∧ Holds d' [⟨3, 0⟩, ⟨7, 0⟩, ⟨5, 0⟩, ⟨6, 0⟩] := by
  have hd : Holds { nestedDoc with heap := setNode nestedDoc.heap ⟨7, 0⟩ newPage } [⟨3, 0⟩, ⟨5, 0⟩, ⟨6, 0⟩] :=
    ⟨nestedKids, (isPageTree_new nestedDoc_tree rfl newPage).1, by decide, by decide, by decide⟩
  obtain ⟨d', h1, h2, -⟩ := C46_insert_partial hd 1 [⟨7, 0⟩] (by simp)
    (by intro p hp; simp only [List.mem_singleton] at hp; subst hp; exact ⟨newPage, by simp [setNode], rfl⟩)
    (by decide) (by decide) (by decide)
  exact ⟨d', h1, h2⟩

example : ∃ d' ks', nestedDoc.removePageAt 1 = (.ok (), d') ∧ (PTree.node nestedDoc.root ks').pages = [⟨3, 0⟩, ⟨6, 0⟩] := by
  obtain ⟨d', ks', h1, -, -, -, h2, -⟩ := (C47_remove_partial nestedDoc_tree (by decide) (by decide) 1).1 (by decide)
  exact ⟨d', ks', h1, h2⟩

end Pdfmm
