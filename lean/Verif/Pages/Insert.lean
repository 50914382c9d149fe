import Verif.Pages.Update
/-
Inserting pages between two children of a node, and removing a page from a node.
-/
set_option autoImplicit false
namespace Pdfmm
open Spec Frame

theorem pagesOf_pages (ps : List Ref) : pagesOf (ps.map PTree.page) = ps := by
  induction ps with
  | nil => rfl
  | cons p ps ih => simp [pagesOf, PTree.pages, ih]

theorem allOf_pages (ps : List Ref) : allOf (ps.map PTree.page) = ps.map PTree.page := by
  induction ps with
  | nil => rfl
  | cons p ps ih => simp [allOf, PTree.all, ih]

theorem heightOf_pages (ps : List Ref) : heightOf (ps.map PTree.page) = 0 := by
  induction ps with
  | nil => rfl
  | cons p ps ih => simp [heightOf, PTree.height, ih]

theorem page_mem_all : ∀ (t : PTree) (p : Ref), PTree.page p ∈ t.all → p ∈ t.pages := by
  have key : ∀ n (ts : List PTree) (p : Ref), sizeOf ts ≤ n → PTree.page p ∈ allOf ts → p ∈ pagesOf ts := by
    intro n
    induction n with
    | zero => intro ts p hs; cases ts <;> simp at hs
    | succ n ih =>
      intro ts p hs hm
      cases ts with
      | nil => simp [allOf] at hm
      | cons t ts =>
        simp only [List.cons.sizeOf_spec] at hs
        rw [allOf, List.mem_append] at hm
        rw [pagesOf, List.mem_append]
        rcases hm with hm | hm
        · left
          cases t with
          | page q => simpa [PTree.all, PTree.pages] using hm
          | node r ks =>
            simp only [PTree.node.sizeOf_spec] at hs
            simp only [PTree.all, List.mem_cons, reduceCtorEq, false_or] at hm
            exact ih ks p (by omega) hm
        · right; exact ih ts p (by omega) hm
  intro t p h
  have := key _ [t] p (Nat.le_refl _) (by simpa [allOf] using h)
  simpa [pagesOf] using this

/-- An object which is a page and not one of the tree's pages is not used by the tree. -/
theorem fresh_of_page {h : PHeap} {t : PTree} (ht : IsPageTree h t) {p : Ref} {n : PNode}
    (hp : h p = some (.dict n)) (hn : n.type = .page) (hm : p ∉ t.pages) : p ∉ t.all.map PTree.ref := by
  intro hmem
  obtain ⟨s, hs, he⟩ := List.mem_map.1 hmem
  cases s with
  | page q => simp only [PTree.ref] at he; subst he; exact hm (page_mem_all t q hs)
  | node r ks =>
    simp only [PTree.ref] at he
    obtain ⟨n', h1, h2, _⟩ := ht.ok _ hs
    subst he
    rw [hp] at h1
    simp only [Option.some.injEq, PObj.dict.injEq] at h1
    subst h1
    rw [hn] at h2; cases h2

/-- The pages of a subtree are at most those of the tree. -/
theorem path_count : ∀ (fs : List Frame) (t s : PTree), s ∈ path t fs →
    s.pages.length ≤ (plug t fs).pages.length ∧ t.pages.length ≤ s.pages.length
  | [], _, _, hs => by simp [path] at hs
  | f :: fs, t, s, hs => by
    rw [path, List.mem_cons] at hs
    have h0 : t.pages.length ≤ (f.fill t).pages.length := by
      rw [fill_pages]; simp only [List.length_append]; omega
    rcases hs with hs | hs
    · subst hs
      refine ⟨?_, h0⟩
      rw [plug, pages_plug]; simp only [List.length_append]; omega
    · have := path_count fs (f.fill t) s hs
      rw [plug]; omega

/-- The nodes from `r` up to the root hold their counts. -/
theorem way_counts {h : PHeap} {r : Ref} {ks : List PTree} {fs : List Frame}
    (ht : IsPageTree h (plug (.node r ks) fs)) : ∀ x ∈ r :: fs.map Frame.r, ∃ n, ∃ c : Nat,
    h x = some (.dict n) ∧ n.count = .num c ∧ c ≤ (plug (.node r ks) fs).pages.length ∧ (pagesOf ks).length ≤ c := by
  intro x hx
  rw [List.mem_cons] at hx
  rcases hx with hx | hx
  · obtain ⟨n, h1, h2, h3, h4⟩ := ht.ok (.node r ks) (by rw [mem_all_plug]; left; exact self_mem_all _)
    refine ⟨n, _, hx ▸ h1, h4, ?_, Nat.le_refl _⟩
    rw [pages_plug]; simp only [List.length_append, PTree.pages]; omega
  · rw [← path_refs fs (.node r ks)] at hx
    obtain ⟨s, hs, he⟩ := List.mem_map.1 hx
    have hok := ht.ok s (by rw [mem_all_plug]; simp [hs])
    have hc := path_count fs _ s hs
    cases s with
    | page q =>
      exfalso
      clear hok hc he hx ht
      have : ∀ (fs : List Frame) (t : PTree) (q : Ref), PTree.page q ∉ path t fs := by
        intro fs
        induction fs with
        | nil => intro t q; simp [path]
        | cons f fs ih => intro t q; simp [path, fill, ih]
      exact this _ _ _ hs
    | node y js =>
      obtain ⟨n, h1, h2, h3, h4⟩ := hok
      exact ⟨n, _, he ▸ h1, h4, hc.1, hc.2⟩

theorem way_nodup {h : PHeap} {r : Ref} {ks : List PTree} {fs : List Frame}
    (ht : IsPageTree h (plug (.node r ks) fs)) : (r :: fs.map Frame.r).Nodup := by
  have hn := ((isPageTree_plug h fs _).1 ht).2
  rw [List.nodup_append, List.nodup_append] at hn
  rw [List.nodup_cons]
  refine ⟨fun hm => hn.2.2 r (by simp [PTree.all, PTree.ref]) r (by simp; right; simpa using hm) rfl, hn.2.1.2.1⟩

/-- The nodes below a node of the tree are nodes of the tree. -/
theorem all_trans {t s k : PTree} (hs : s ∈ t.all) (hk : k ∈ s.all) : k ∈ t.all := by
  have trans : ∀ n (ts : List PTree) (s k : PTree), sizeOf ts ≤ n → s ∈ allOf ts → k ∈ s.all → k ∈ allOf ts := by
    intro n
    induction n with
    | zero => intro ts s k hz; cases ts <;> simp at hz
    | succ n ih =>
      intro ts s k hz hs hk
      cases ts with
      | nil => simp [allOf] at hs
      | cons t ts =>
        simp only [List.cons.sizeOf_spec] at hz
        rw [allOf, List.mem_append] at hs ⊢
        rcases hs with hs | hs
        · left
          cases t with
          | page q =>
            simp only [PTree.all, List.mem_singleton] at hs
            subst hs; exact hk
          | node r ks =>
            simp only [PTree.node.sizeOf_spec] at hz
            simp only [PTree.all, List.mem_cons] at hs
            rcases hs with hs | hs
            · subst hs; exact hk
            · rw [PTree.all, List.mem_cons]; right; exact ih ks s k (by omega) hs hk
        · right; exact ih ts s k (by omega) hs hk
  have := trans _ [t] s k (Nat.le_refl _) (by simpa [allOf] using hs) hk
  simpa [allOf] using this

/-- What keeps the `/Parent` links: every dictionary of the old tree keeps its `/Parent`. -/
theorem linked_keep {h h' : PHeap} {t t' : PTree} (hl : Linked h t)
    (hkeep : ∀ x ∈ t'.all.map PTree.ref, ∀ n, h x = some (.dict n) →
      ∃ n', h' x = some (.dict n') ∧ n'.parent = n.parent)
    (hroot : t'.ref = t.ref)
    (hnodes : ∀ s ∈ t'.all, LinkOK h s) : Linked h' t' := by
  constructor
  · intro s hs
    refine linkOK_congr ?_ (hnodes s hs)
    rintro n x hx ⟨r, ks, rfl, k, hk, rfl⟩
    refine hkeep k.ref ?_ n hx
    refine List.mem_map_of_mem ?_
    exact all_trans hs (all_child rfl hk)
  · obtain ⟨n, h1, h2⟩ := hl.root
    obtain ⟨n', g1, g2⟩ := hkeep t'.ref (List.mem_map_of_mem (self_mem_all _)) n (hroot ▸ h1)
    exact ⟨n', g1, g2.trans h2⟩

end Pdfmm
