import Verif.Pages.Spec
/-
A page tree seen from one of its nodes, and the search for a page by its index.
-/
set_option autoImplicit false
namespace Pdfmm
open Spec

/-- An intermediate node with one child taken out. -/
structure Frame where
  r : Ref
  pre : List PTree
  post : List PTree

namespace Frame

def fill (f : Frame) (t : PTree) : PTree := .node f.r (f.pre ++ t :: f.post)

def plug (t : PTree) : List Frame → PTree
  | [] => t
  | f :: fs => plug (f.fill t) fs

/-- The nodes on the way up. -/
def path (t : PTree) : List Frame → List PTree
  | [] => []
  | f :: fs => f.fill t :: path (f.fill t) fs

/-- The nodes beside the way. -/
def sides : List Frame → List PTree
  | [] => []
  | f :: fs => allOf f.pre ++ allOf f.post ++ sides fs

def before : List Frame → List Ref
  | [] => []
  | f :: fs => before fs ++ pagesOf f.pre

def after : List Frame → List Ref
  | [] => []
  | f :: fs => pagesOf f.post ++ after fs

end Frame
open Frame

theorem pagesOf_append (a b : List PTree) : pagesOf (a ++ b) = pagesOf a ++ pagesOf b := by
  induction a with
  | nil => simp [pagesOf]
  | cons t ts ih => simp [pagesOf, ih]

theorem allOf_append (a b : List PTree) : allOf (a ++ b) = allOf a ++ allOf b := by
  induction a with
  | nil => simp [allOf]
  | cons t ts ih => simp [allOf, ih]

theorem heightOf_append (a b : List PTree) : heightOf (a ++ b) = max (heightOf a) (heightOf b) := by
  induction a with
  | nil => simp [heightOf]
  | cons t ts ih => simp only [List.cons_append, heightOf, ih]; omega

theorem ref_page (r : Ref) : (PTree.page r).ref = r := rfl
theorem ref_node (r : Ref) (ks : List PTree) : (PTree.node r ks).ref = r := rfl

theorem self_mem_all (t : PTree) : t ∈ t.all := by
  cases t <;> simp [PTree.all]

theorem fill_ref (f : Frame) (t : PTree) : (f.fill t).ref = f.r := rfl

theorem fill_pages (f : Frame) (t : PTree) : (f.fill t).pages = pagesOf f.pre ++ (t.pages ++ pagesOf f.post) := by
  simp [fill, PTree.pages, pagesOf_append, pagesOf]

theorem fill_all (f : Frame) (t : PTree) :
    (f.fill t).all = f.fill t :: (allOf f.pre ++ (t.all ++ allOf f.post)) := by
  simp [fill, PTree.all, allOf_append, allOf]

theorem fill_height (f : Frame) (t : PTree) :
    (f.fill t).height = max (heightOf f.pre) (max t.height (heightOf f.post)) + 1 := by
  simp [fill, PTree.height, heightOf_append, heightOf]

theorem pages_plug : ∀ (fs : List Frame) (t : PTree), (plug t fs).pages = before fs ++ (t.pages ++ after fs)
  | [], t => by simp [plug, before, after]
  | f :: fs, t => by rw [plug, pages_plug, fill_pages]; simp [before, after]

theorem mem_all_plug : ∀ (fs : List Frame) (t s : PTree),
    s ∈ (plug t fs).all ↔ s ∈ t.all ∨ s ∈ sides fs ∨ s ∈ path t fs
  | [], t, s => by simp [plug, sides, path]
  | f :: fs, t, s => by
    rw [plug, mem_all_plug, fill_all]
    simp only [sides, path, List.mem_cons, List.mem_append]
    constructor
    · rintro ((h | h | h | h) | h | h) <;> simp [h]
    · rintro (h | ((h | h) | h) | (h | h)) <;> simp [h]

theorem path_refs : ∀ (fs : List Frame) (t : PTree), (path t fs).map PTree.ref = fs.map Frame.r
  | [], _ => rfl
  | f :: fs, t => by simp [path, path_refs fs, fill_ref]

theorem refs_plug : ∀ (fs : List Frame) (t : PTree),
    ((plug t fs).all.map PTree.ref).Perm (t.all.map PTree.ref ++ ((sides fs).map PTree.ref ++ fs.map Frame.r))
  | [], t => by simp [plug, sides]
  | f :: fs, t => by
    rw [plug]
    refine (refs_plug fs (f.fill t)).trans ?_
    rw [List.perm_iff_count]
    intro a
    simp only [fill_all, sides, List.map_cons, List.map_append, List.count_append, List.count_cons, fill_ref]
    omega

theorem height_plug : ∀ (fs : List Frame) (t u : PTree), t.height ≤ u.height →
    (plug t fs).height ≤ (plug u fs).height
  | [], _, _, h => h
  | f :: fs, t, u, h => by
    rw [plug, plug]
    apply height_plug
    rw [fill_height, fill_height]; omega

theorem plug_height_ge : ∀ (fs : List Frame) (t : PTree), t.height + fs.length ≤ (plug t fs).height
  | [], _ => by simp [plug]
  | f :: fs, t => by
    have h1 := plug_height_ge fs (f.fill t)
    have h2 := fill_height f t
    have h3 : (plug t (f :: fs)) = plug (f.fill t) fs := rfl
    rw [h3, List.length_cons]; omega

/-- All of the tree is as it should be, from the point of view of a node. -/
theorem isPageTree_plug (h : PHeap) (fs : List Frame) (t : PTree) : IsPageTree h (plug t fs) ↔
    ((∀ s ∈ t.all, NodeOK h s) ∧ (∀ s ∈ sides fs, NodeOK h s) ∧ (∀ s ∈ path t fs, NodeOK h s)) ∧
    (t.all.map PTree.ref ++ ((sides fs).map PTree.ref ++ fs.map Frame.r)).Nodup := by
  constructor
  · intro ⟨h1, h2⟩
    refine ⟨⟨fun s hs => h1 s ?_, fun s hs => h1 s ?_, fun s hs => h1 s ?_⟩, (refs_plug fs t).nodup_iff.1 h2⟩ <;>
    rw [mem_all_plug] <;> simp [hs]
  · rintro ⟨⟨h1, h2, h3⟩, h4⟩
    refine ⟨fun s hs => ?_, (refs_plug fs t).nodup_iff.2 h4⟩
    rw [mem_all_plug] at hs
    rcases hs with hs | hs | hs
    · exact h1 s hs
    · exact h2 s hs
    · exact h3 s hs

theorem plug_ref : ∀ (fs : List Frame) (t u : PTree), t.ref = u.ref → (plug t fs).ref = (plug u fs).ref
  | [], _, _, h => h
  | f :: fs, t, u, h => by rw [plug, plug]; exact plug_ref fs _ _ rfl

/-! ### The search -/

theorem childCount_node {n : PNode} {k : Nat} (h : n.count = .num k) (hk : k < 4294967296) :
    childCount n = .ok k := by
  rw [childCount, h]; dsimp only; congr 1; omega

/-- The loop over the kids ends without a page when the index is behind them. -/
theorem scanKids_none (h : PHeap) (rec : Nat → Ref → List Ref → Res (Option (Ref × List Ref))) (p : Ref)
    (ps : List Ref) : ∀ (ks : List PTree) (i : Nat), (∀ s ∈ allOf ks, NodeOK h s) →
    (pagesOf ks).length ≤ i → i + 1 < 4294967296 →
    scanKids h rec p (ks.map (fun k => .ref k.ref)) i ps = .ok none
  | [], _, _, _, _ => rfl
  | .page r :: ks, i, hok, hi, hb => by
    obtain ⟨n, h1, h2⟩ := hok (.page r) (by simp [allOf, PTree.all])
    have ih := scanKids_none h rec p ps ks (i - 1) (fun s hs => hok s (by simp [allOf, hs]))
      (by simp [pagesOf, PTree.pages] at hi; omega) (by omega)
    simp only [pagesOf, PTree.pages, List.length_append, List.length_cons, List.length_nil] at hi
    simp only [List.map_cons, ref_page, ref_node, scanKids, h1, h2]
    rw [if_neg (by omega), ih]
  | .node r cs :: ks, i, hok, hi, hb => by
    obtain ⟨n, h1, h2, h3, h4⟩ := hok (.node r cs) (by simp [allOf, PTree.all])
    simp only [pagesOf, PTree.pages, List.length_append] at hi
    have ih := scanKids_none h rec p ps ks (i - (pagesOf cs).length) (fun s hs => hok s (by simp [allOf, hs]))
      (by omega) (by omega)
    simp only [List.map_cons, ref_page, ref_node, scanKids, h1, h2]
    rw [childCount_node h4 (by omega)]
    dsimp only
    rw [if_pos (by omega), ih]

/-- What the search finds: the page at an index, and the way to it. -/
def Found (r : Res (Option (Ref × List Ref))) (t : PTree) (i : Nat) : Prop :=
  ∃ pg f fs, r = .ok (some (pg, ((f :: fs).map Frame.r).reverse)) ∧ plug (.page pg) (f :: fs) = t ∧
    (before (f :: fs)).length = i

theorem found_step (h : PHeap) (f : Nat)
    (IH : ∀ (r : Ref) (ks : List PTree) (fs : List Frame) (i : Nat), IsPageTree h (plug (.node r ks) fs) →
      (PTree.node r ks).height ≤ f → i < (pagesOf ks).length → (pagesOf ks).length < 4294967296 →
      Found (getPageNode h f i r (fs.map Frame.r).reverse) (plug (.node r ks) fs) ((before fs).length + i))
    (r : Ref) (fs : List Frame) : ∀ (ks done : List PTree) (i : Nat),
    IsPageTree h (plug (.node r (done ++ ks)) fs) → heightOf ks ≤ f → i < (pagesOf ks).length →
    (pagesOf ks).length < 4294967296 →
    Found (scanKids h (getPageNode h f) r (ks.map (fun k => .ref k.ref)) i (fs.map Frame.r).reverse)
      (plug (.node r (done ++ ks)) fs) ((before fs).length + ((pagesOf done).length + i))
  | [], _, _, _, _, hi, _ => by simp [pagesOf] at hi
  | .page c :: ks, done, i, ht, hh, hi, hb => by
    have hok := ht.ok (.page c) (by rw [mem_all_plug]; left; simp [PTree.all, allOf_append, allOf])
    obtain ⟨n, h1, h2⟩ := hok
    simp only [pagesOf, PTree.pages, List.length_append, List.length_cons, List.length_nil] at hi hb
    simp only [heightOf] at hh
    have e : plug (.node r (done ++ .page c :: ks)) fs = plug (.page c) (⟨r, done, ks⟩ :: fs) := rfl
    simp only [List.map_cons, ref_page, ref_node, scanKids, h1, h2]
    by_cases h0 : i = 0
    · subst h0
      exact ⟨c, ⟨r, done, ks⟩, fs, by simp, rfl, by simp [before]⟩
    · rw [if_neg h0]
      have := found_step h f IH r fs ks (done ++ [.page c]) (i - 1)
        (by simpa using ht) (by omega) (by omega) (by omega)
      simp only [List.append_assoc, List.cons_append, List.nil_append, pagesOf_append, pagesOf, PTree.pages,
        List.length_append, List.length_cons, List.length_nil] at this
      rwa [show (pagesOf done).length + (0 + 1 + 0) + (i - 1) = (pagesOf done).length + i by omega] at this
  | .node c cs :: ks, done, i, ht, hh, hi, hb => by
    have hok := ht.ok (.node c cs) (by rw [mem_all_plug]; left; simp [PTree.all, allOf_append, allOf])
    obtain ⟨n, h1, h2, h3, h4⟩ := hok
    simp only [pagesOf, PTree.pages, List.length_append] at hi hb
    simp only [heightOf] at hh
    simp only [List.map_cons, ref_page, ref_node, scanKids, h1, h2]
    rw [childCount_node h4 (by omega)]
    dsimp only
    by_cases hlt : (pagesOf cs).length < (i + 1) % 4294967296
    · rw [if_pos hlt]
      have := found_step h f IH r fs ks (done ++ [.node c cs]) (i - (pagesOf cs).length)
        (by simpa using ht) (by omega) (by omega) (by omega)
      simp only [List.append_assoc, List.cons_append, List.nil_append, pagesOf_append, pagesOf, PTree.pages,
        List.length_append, List.length_nil] at this
      rwa [show (pagesOf done).length + ((pagesOf cs).length + 0) + (i - (pagesOf cs).length) =
        (pagesOf done).length + i by omega] at this
    · have ht' : IsPageTree h (plug (.node c cs) (⟨r, done, ks⟩ :: fs)) := ht
      have hnd := ((isPageTree_plug h _ _).1 ht').2
      have hc : c ∉ (fs.map Frame.r).reverse ++ [r] := by
        intro hm
        rw [List.nodup_append] at hnd
        refine hnd.2.2 c (by simp [PTree.all, PTree.ref]) c ?_ rfl
        simp only [List.mem_append, List.mem_reverse, List.mem_singleton] at hm
        simp only [List.mem_append, List.map_cons, List.mem_cons]
        rcases hm with hm | hm <;> simp [hm]
      rw [if_neg hlt, if_neg hc]
      have := IH c cs (⟨r, done, ks⟩ :: fs) i ht' (by omega) (by omega) (by omega)
      simp only [before, List.length_append, List.map_cons, List.reverse_cons, Nat.add_assoc] at this
      exact this

theorem found (h : PHeap) : ∀ (f : Nat) (r : Ref) (ks : List PTree) (fs : List Frame) (i : Nat),
    IsPageTree h (plug (.node r ks) fs) → (PTree.node r ks).height ≤ f → i < (pagesOf ks).length →
    (pagesOf ks).length < 4294967296 →
    Found (getPageNode h f i r (fs.map Frame.r).reverse) (plug (.node r ks) fs) ((before fs).length + i)
  | 0, _, _, _, _, _, hh, _, _ => by simp [PTree.height] at hh
  | f + 1, r, ks, fs, i, ht, hh, hi, hb => by
    obtain ⟨n, h1, h2, h3, h4⟩ := ht.ok (.node r ks) (by rw [mem_all_plug]; left; exact self_mem_all _)
    have hs := found_step h f (found h f) r fs ks [] i ht (by simp [PTree.height] at hh; omega) hi hb
    simp only [List.nil_append, pagesOf, List.length_nil, Nat.zero_add] at hs
    simp only [getPageNode, nodeAt, h1, h3]
    rw [childCount_node h4 hb]
    dsimp only
    rw [if_neg (by omega)]
    exact hs

/-- Behind the last page nothing is found. -/
theorem not_found (h : PHeap) (f : Nat) (r : Ref) (ks : List PTree) (i : Nat) (ps : List Ref)
    (hok : ∀ s ∈ (PTree.node r ks).all, NodeOK h s) (hi : (pagesOf ks).length ≤ i)
    (hb : (pagesOf ks).length + 1 < 4294967296) :
    getPageNode h (f + 1) i r ps = .ok none := by
  obtain ⟨n, h1, h2, h3, h4⟩ := hok (.node r ks) (self_mem_all _)
  simp only [getPageNode, nodeAt, h1, h3]
  rw [childCount_node h4 (by omega)]
  dsimp only
  by_cases hlt : i > (pagesOf ks).length
  · rw [if_pos hlt]
  · rw [if_neg hlt]
    exact scanKids_none h _ r ps ks i (fun s hs => hok s (by simp [PTree.all, hs])) hi (by omega)

end Pdfmm
