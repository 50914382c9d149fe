import Verif.Pages.Zipper
/-
Changes to the page tree: inserting and removing pages.
-/
set_option autoImplicit false
namespace Pdfmm
open Spec Frame

/-! ### Kids arrays -/

theorem insertLoop_true (index : Int) (ps : List PKid) : ∀ (l : List PKid) (i : Int),
    insertLoop index ps l i true = (l, true)
  | [], _ => rfl
  | k :: r, i => by simp [insertLoop, insertLoop_true index ps r]

theorem insertLoop_pass (index : Int) (ps rest : List PKid) : ∀ (a : List PKid) (i : Int),
    i + a.length - 1 ≤ index → insertLoop index ps (a ++ rest) i false =
      (a ++ (insertLoop index ps rest (i + a.length) false).1, (insertLoop index ps rest (i + a.length) false).2)
  | [], i, _ => by simp
  | k :: a, i, h => by
    simp only [List.length_cons] at h
    rw [List.cons_append, insertLoop, if_neg (by omega), insertLoop_pass index ps rest a (i + 1) (by omega)]
    rw [show i + 1 + (a.length : Int) = i + ((k :: a).length : Nat) by simp only [List.length_cons]; omega]
    rfl

theorem insertKids_eq (ps a b : List PKid) (index : Int) (hi : index + 1 = a.length) :
    insertKids index ps (a ++ b) = a ++ (ps ++ b) := by
  have h := insertLoop_pass index ps b a 0 (by omega)
  unfold insertKids
  rw [h]
  cases b with
  | nil =>
    rw [if_pos ⟨rfl, by simpa using hi⟩]
    simp [insertLoop]
  | cons x b =>
    have e : insertLoop index ps (x :: b) (0 + (a.length : Int)) false = (ps ++ x :: b, true) := by
      rw [insertLoop, if_pos ⟨rfl, by omega⟩, insertLoop_true]
    rw [e]; simp

theorem posInKids_eq (p : Ref) (b : List PKid) : ∀ (a : List PTree) (i : Nat), (∀ k ∈ a, k.ref ≠ p) →
    posInKids p (a.map (fun k => .ref k.ref) ++ .ref p :: b) i = .ok ((i + a.length : Nat) : Int)
  | [], i, _ => by simp [posInKids]
  | k :: a, i, h => by
    have ih := posInKids_eq p b a (i + 1) (fun k hk => h k (by simp [hk]))
    simp only [List.map_cons, List.cons_append, posInKids]
    rw [if_neg (h k (by simp)), ih, List.length_cons]
    congr 2; omega

/-! ### Counts and parents -/

def addc (δ : Int) : PCount → PCount
  | .num v => .num (v + δ)
  | c => c

/-- The objects with the counts of some nodes changed. -/
def bumped (δ : Int) (rs : List Ref) (h : PHeap) : PHeap := fun x =>
  if x ∈ rs then match h x with
    | some (.dict n) => some (.dict { n with count := addc δ n.count })
    | o => o
  else h x

theorem changeAll (δ : Int) : ∀ (rs : List Ref) (h : PHeap), rs.Nodup →
    (∀ r ∈ rs, ∃ n, ∃ c : Nat, h r = some (.dict n) ∧ n.count = .num c ∧ c < 2147483648 ∧
      0 ≤ c + δ ∧ c + δ < 2147483648) →
    eachRef (changeCount δ) rs h = .ok (bumped δ rs h)
  | [], h, _, _ => by rw [eachRef]; congr 1
  | r :: rs, h, hn, hr => by
    obtain ⟨n, c, h1, h2, h3, h4, h5⟩ := hr r (by simp)
    rw [List.nodup_cons] at hn
    have e : changeCount δ h r = .ok (setNode h r { n with count := .num (c + δ) }) := by
      simp only [changeCount, nodeAt, h1]
      rw [childCount_node h2 (by omega)]
      dsimp only
      rw [show asInt32 c = c by rw [asInt32, if_pos h3], if_pos (by omega)]
    rw [eachRef, e]
    dsimp only
    rw [changeAll δ rs _ hn.2 (by
      intro x hx
      have : x ≠ r := fun he => hn.1 (he ▸ hx)
      simp only [setNode, if_neg this]
      exact hr x (by simp [hx]))]
    congr 1
    funext x
    by_cases hx : x = r
    · subst hx
      simp [bumped, hn.1, setNode, h1, h2, addc]
    · by_cases hm : x ∈ rs
      · simp [bumped, hm, setNode, hx]
      · simp [bumped, hm, hx, setNode]

def reparented (p : Ref) (rs : List Ref) (h : PHeap) : PHeap := fun x =>
  if x ∈ rs then match h x with
    | some (.dict n) => some (.dict { n with parent := some p })
    | o => o
  else h x

theorem parentAll (p : Ref) : ∀ (rs : List Ref) (h : PHeap), (∀ r ∈ rs, ∃ n, h r = some (.dict n)) →
    eachRef (setParent p) rs h = .ok (reparented p rs h)
  | [], h, _ => by rw [eachRef]; congr 1
  | r :: rs, h, hr => by
    obtain ⟨n, h1⟩ := hr r (by simp)
    have e : setParent p h r = .ok (setNode h r { n with parent := some p }) := by
      simp only [setParent, nodeAt, h1]
    rw [eachRef, e]
    dsimp only
    rw [parentAll p rs _ (by
      intro x hx
      by_cases he : x = r
      · exact ⟨_, by simp only [setNode, if_pos he]; rfl⟩
      · simp only [setNode, if_neg he]; exact hr x (by simp [hx]))]
    congr 1
    funext x
    by_cases hx : x = r
    · subst hx
      by_cases hm : x ∈ rs
      · simp [reparented, hm, setNode]
        rw [h1]
      · simp [reparented, hm, setNode, h1]
    · by_cases hm : x ∈ rs
      · simp [reparented, hm, setNode, hx]
      · simp [reparented, hm, hx, setNode]

/-! ### Trees in changed objects -/

/-- The object at `x` changed in its count only. -/
def Bump (δ : Int) (h h' : PHeap) (x : Ref) : Prop := ∀ n, h x = some (.dict n) →
  ∃ n', h' x = some (.dict n') ∧ n'.type = n.type ∧ n'.kids = n.kids ∧ n'.count = addc δ n.count

theorem path_bump (δ : Int) (h h' : PHeap) : ∀ (fs : List Frame) (t t' : PTree), t'.ref = t.ref →
    (t'.pages.length : Int) = t.pages.length + δ → (∀ x ∈ fs.map Frame.r, Bump δ h h' x) →
    (∀ s ∈ path t fs, NodeOK h s) → ∀ s ∈ path t' fs, NodeOK h' s
  | [], _, _, _, _, _, _ => by simp [path]
  | f :: fs, t, t', hr, hp, hb, hok => by
    intro s hs
    rw [path, List.mem_cons] at hs
    rcases hs with hs | hs
    · obtain ⟨n, h1, h2, h3, h4⟩ := hok (f.fill t) (by simp [path])
      obtain ⟨n', g1, g2, g3, g4⟩ := hb f.r (by simp) n h1
      subst hs
      refine ⟨n', g1, g2.trans h2, ?_, ?_⟩
      · rw [g3, h3]; simp [hr]
      · rw [g4, h4]
        simp only [addc, pagesOf_append, pagesOf, List.length_append]
        congr 1; omega
    · refine path_bump δ h h' fs (f.fill t) (f.fill t') rfl ?_ (fun x hx => hb x (by simp at hx ⊢; simp [hx]))
        (fun s hs => hok s (by simp [path, hs])) s hs
      rw [fill_pages, fill_pages]
      simp only [List.length_append]; omega

theorem nodeOK_congr {h h' : PHeap} {s : PTree} (hs : h' s.ref = h s.ref) (hok : NodeOK h s) : NodeOK h' s := by
  cases s with
  | page r => obtain ⟨n, h1, h2⟩ := hok; exact ⟨n, hs.trans h1, h2⟩
  | node r ks => obtain ⟨n, h1, h2⟩ := hok; exact ⟨n, hs.trans h1, h2⟩

/-- A node gets new children and the counts above it follow. -/
theorem change_node (δ : Int) (h h' : PHeap) (r : Ref) (ks ks' : List PTree) (fs : List Frame)
    (ht : IsPageTree h (plug (.node r ks) fs))
    (hside : ∀ s ∈ sides fs, h' s.ref = h s.ref)
    (hup : ∀ x ∈ fs.map Frame.r, Bump δ h h' x)
    (hnode : NodeOK h' (.node r ks'))
    (hkids : ∀ s ∈ allOf ks', NodeOK h' s)
    (hlen : ((pagesOf ks').length : Int) = (pagesOf ks).length + δ)
    (hnd : ((PTree.node r ks').all.map PTree.ref ++ ((sides fs).map PTree.ref ++ fs.map Frame.r)).Nodup) :
    IsPageTree h' (plug (.node r ks') fs) := by
  rw [isPageTree_plug] at ht ⊢
  obtain ⟨⟨h1, h2, h3⟩, h4⟩ := ht
  refine ⟨⟨?_, fun s hs => nodeOK_congr (hside s hs) (h2 s hs), ?_⟩, hnd⟩
  · intro s hs
    simp only [PTree.all, List.mem_cons] at hs
    rcases hs with hs | hs
    · exact hs ▸ hnode
    · exact hkids s hs
  · exact path_bump δ h h' fs (.node r ks) (.node r ks') rfl hlen hup h3

/-- `/Parent` of the children. -/
theorem linkOK_congr {h h' : PHeap} {s : PTree}
    (hs : ∀ n x, h x = some (.dict n) → (∃ r ks, s = .node r ks ∧ ∃ k ∈ ks, k.ref = x) →
      ∃ n', h' x = some (.dict n') ∧ n'.parent = n.parent) (hok : LinkOK h s) : LinkOK h' s := by
  cases s with
  | page r => trivial
  | node r ks =>
    intro k hk
    obtain ⟨n, h1, h2⟩ := hok k hk
    obtain ⟨n', g1, g2⟩ := hs n k.ref h1 ⟨r, ks, rfl, k, hk, rfl⟩
    exact ⟨n', g1, g2.trans h2⟩

theorem all_child {s k : PTree} {r : Ref} {ks : List PTree} (hs : s = .node r ks) (hk : k ∈ ks) : k ∈ s.all := by
  subst hs
  rw [PTree.all, List.mem_cons]
  right
  obtain ⟨a, b, rfl⟩ := List.append_of_mem hk
  rw [allOf_append, allOf]
  simp [self_mem_all]

end Pdfmm
