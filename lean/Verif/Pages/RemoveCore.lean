import Verif.Pages.InsertCore
/-
`deletePageFromNode` on a page tree.
-/
set_option autoImplicit false
namespace Pdfmm
open Spec Frame

/-- References of the parts of a tree seen from a node do not meet. -/
theorem apart {h : PHeap} {r : Ref} {ks : List PTree} {fs : List Frame}
    (ht : IsPageTree h (plug (.node r ks) fs)) :
    (∀ s ∈ allOf ks, s.ref ∉ r :: fs.map Frame.r) ∧ (∀ s ∈ sides fs, s.ref ∉ r :: fs.map Frame.r) ∧
    (∀ s ∈ allOf ks, s.ref ∉ (sides fs).map PTree.ref) := by
  have htn := ((isPageTree_plug h fs _).1 ht).2
  rw [List.nodup_append] at htn
  have hd := htn.1
  rw [PTree.all, List.map_cons, List.nodup_cons] at hd
  refine ⟨?_, ?_, ?_⟩
  · intro s hs hm
    rw [List.mem_cons] at hm
    rcases hm with hm | hm
    · exact hd.1 (by rw [show (PTree.node r ks).ref = r from rfl, ← hm]; exact List.mem_map_of_mem hs)
    · exact htn.2.2 s.ref (by rw [PTree.all, List.map_cons]; exact List.mem_cons_of_mem _ (List.mem_map_of_mem hs))
        s.ref (by simp only [List.mem_append]; exact Or.inr hm) rfl
  · intro s hs hm
    rw [List.mem_cons] at hm
    rcases hm with hm | hm
    · exact htn.2.2 r (by simp [PTree.all, PTree.ref]) s.ref
        (by simp only [List.mem_append]; exact Or.inl (List.mem_map_of_mem hs)) hm.symm
    · have := htn.2.1
      rw [List.nodup_append] at this
      exact this.2.2 _ (List.mem_map_of_mem hs) _ hm rfl
  · intro s hs hm
    exact htn.2.2 s.ref (by rw [PTree.all, List.map_cons]; exact List.mem_cons_of_mem _ (List.mem_map_of_mem hs))
        s.ref (by simp only [List.mem_append]; exact Or.inl hm) rfl

theorem top_mem_allOf {k : PTree} {ks : List PTree} (hk : k ∈ ks) : k ∈ allOf ks := by
  obtain ⟨a, b, rfl⟩ := List.append_of_mem hk
  rw [allOf_append, allOf]
  simp [self_mem_all]

/-- The children of a node are different objects. -/
theorem kid_apart {h : PHeap} {r : Ref} {a b : List PTree} {c : PTree} {fs : List Frame}
    (ht : IsPageTree h (plug (.node r (a ++ c :: b)) fs)) :
    (∀ s ∈ allOf (a ++ b), s.ref ∉ c.all.map PTree.ref) ∧ (∀ k ∈ a, k.ref ≠ c.ref) := by
  have htn := ((isPageTree_plug h fs _).1 ht).2
  rw [List.nodup_append] at htn
  have hd := htn.1
  rw [PTree.all, List.map_cons, List.nodup_cons, allOf_append, allOf, List.map_append, List.map_append,
    List.nodup_append, List.nodup_append] at hd
  have h1 : ∀ s ∈ allOf (a ++ b), s.ref ∉ c.all.map PTree.ref := by
    intro s hs hm
    rw [allOf_append, List.mem_append] at hs
    rcases hs with hs | hs
    · exact hd.2.2.2 _ (List.mem_map_of_mem hs) _ (by simp only [List.mem_append]; exact Or.inl hm) rfl
    · exact hd.2.2.1.2.2 _ hm _ (List.mem_map_of_mem hs) rfl
  refine ⟨h1, fun k hk he => ?_⟩
  exact h1 k (by rw [allOf_append]; simp [top_mem_allOf hk]) (by rw [he]; exact List.mem_map_of_mem (self_mem_all _))

theorem getPosInKids_eq {h : PHeap} {r : Ref} {a b : List PTree} {c : PTree} {fs : List Frame}
    (ht : IsPageTree h (plug (.node r (a ++ c :: b)) fs)) : getPosInKids h c.ref r = .ok (a.length : Int) := by
  obtain ⟨n, h1, h2, h3, h4⟩ := ht.ok (.node r (a ++ c :: b)) (by rw [mem_all_plug]; left; exact self_mem_all _)
  simp only [getPosInKids, nodeAt, h1, kidsOf, h3, List.map_append, List.map_cons]
  rw [posInKids_eq _ _ _ _ (kid_apart ht).2]
  simp

theorem eraseIdx_mid {α : Type} (a b : List α) (x : α) : (a ++ x :: b).eraseIdx a.length = a ++ b := by
  induction a with
  | nil => rfl
  | cons y a ih => simp [ih]

theorem deleteKid_eq {h : PHeap} {r : Ref} {a b : List PTree} {c : PTree} {n : PNode}
    (h1 : h r = some (.dict n)) (h3 : n.kids = .arr ((a ++ c :: b).map (fun k => .ref k.ref))) :
    deleteKid h r a.length = .ok (setNode h r { n with kids := .arr ((a ++ b).map (fun k => .ref k.ref)) }) := by
  simp only [deleteKid, nodeAt, h1, kidsOf, h3]
  rw [if_pos ⟨by omega, by simp; omega⟩]
  have := eraseIdx_mid (a.map (fun k => PKid.ref k.ref)) (b.map (fun k => PKid.ref k.ref)) (PKid.ref c.ref)
  simp only [List.length_map] at this
  simp only [List.map_append, List.map_cons, Int.toNat_natCast, this]

/-- Nodes of the tree other than the top which hold no page, those of `old` excepted. -/
def OldEmpty (old t : PTree) : Prop := ∀ s ∈ t.all, s.pages = [] → s.ref ≠ t.ref → s ∈ old.all

/-- The loop removing empty nodes keeps the pages. -/
theorem clean_core (root : Ref) (old : PTree) : ∀ (fs : List Frame) (h : PHeap) (r : Ref) (ks : List PTree),
    IsPageTree h (plug (.node r ks) fs) → (plug (.node r ks) fs).ref = root →
    (plug (.node r ks) fs).pages.length < 4294967296 →
    (∀ s ∈ allOf ks, s ∈ old.all) → (∀ s ∈ sides fs, s ∈ old.all) →
    ∃ h' r' ks', cleanLoop root (r :: fs.map Frame.r) h = .ok h' ∧ IsPageTree h' (.node r' ks') ∧
      r' = root ∧ pagesOf ks' = (plug (.node r ks) fs).pages ∧
      (PTree.node r' ks').height ≤ (plug (.node r ks) fs).height ∧
      OldEmpty old (.node r' ks') ∧
      (Linked h (plug (.node r ks) fs) → Linked h' (.node r' ks'))
  | [], h, r, ks, ht, hr, hb, hks, _ => by
    obtain ⟨n, h1, h2, h3, h4⟩ := ht.ok (.node r ks) (by rw [plug]; exact self_mem_all _)
    rw [plug] at hb
    have hr' : r = root := hr
    refine ⟨h, r, ks, ?_, ht, hr, rfl, Nat.le_refl _, ?_, id⟩
    · simp only [List.map_nil, cleanLoop, nodeAt, h1, isEmptyNode, h3]
      rw [childCount_node h4 hb]
      simp [hr']
    · intro s hs _ hne
      simp only [PTree.all, List.mem_cons] at hs
      rcases hs with hs | hs
      · subst hs; exact absurd rfl hne
      · exact hks s hs
  | f :: fs, h, r, ks, ht, hr, hb, hks, hsd => by
    obtain ⟨n, h1, h2, h3, h4⟩ := ht.ok (.node r ks) (by rw [mem_all_plug]; left; exact self_mem_all _)
    have hcl : (pagesOf ks).length < 4294967296 := by
      rw [pages_plug] at hb
      simp only [List.length_append, PTree.pages] at hb; omega
    have hempty : isEmptyNode n = .ok (decide (pagesOf ks = [])) := by
      rw [isEmptyNode, childCount_node h4 hcl]
      simp only [h3, Except.ok.injEq]
      by_cases hp : pagesOf ks = []
      · simp [hp]
      · have : ks ≠ [] := fun e => hp (by rw [e]; rfl)
        simp [hp, this]
    have hroot : r ≠ root := by
      intro he
      have hn := way_nodup ht
      rw [List.nodup_cons] at hn
      have : ∀ (fs : List Frame) (f : Frame) (t : PTree), (plug t (f :: fs)).ref ∈ (f :: fs).map Frame.r := by
        intro fs
        induction fs with
        | nil => intro f t; simp [plug, fill, PTree.ref]
        | cons g fs ih => intro f t; rw [plug]; exact List.mem_cons_of_mem _ (ih g _)
      apply hn.1
      rw [he, ← hr]
      exact this fs f _
    have ht2 : IsPageTree h (plug (.node f.r (f.pre ++ PTree.node r ks :: f.post)) fs) := ht
    by_cases hp : pagesOf ks = []
    · obtain ⟨m, g1, g2, g3, g4⟩ := ht2.ok (.node f.r (f.pre ++ PTree.node r ks :: f.post))
        (by rw [mem_all_plug]; left; exact self_mem_all _)
      have hpos := getPosInKids_eq ht2
      have hdel := deleteKid_eq g1 g3
      rw [ref_node] at hpos
      let h1' := dropObj (setNode h f.r { m with kids := .arr ((f.pre ++ f.post).map (fun k => .ref k.ref)) }) r
      have hstep : cleanLoop root (r :: (f :: fs).map Frame.r) h = cleanLoop root (f.r :: fs.map Frame.r) h1' := by
        rw [cleanLoop.eq_def]
        simp only [nodeAt, h1, hempty, List.map_cons, hpos, hdel, hp]
        rw [if_pos ⟨rfl, hroot⟩]
      have hap := apart ht2
      have hkap := kid_apart ht2
      have hnk : ∀ s ∈ allOf (f.pre ++ f.post), s ∈ allOf (f.pre ++ PTree.node r ks :: f.post) := by
        intro s hs
        rw [allOf_append, List.mem_append] at hs
        rw [allOf_append, allOf, List.mem_append, List.mem_append]
        rcases hs with hs | hs <;> simp [hs]
      have hrr : ∀ x, x = r → x ∈ (PTree.node r ks).all.map PTree.ref := by
        rintro x rfl; exact List.mem_map_of_mem (self_mem_all (.node x ks))
      have hr_out : r ≠ f.r ∧ r ∉ fs.map Frame.r ∧ r ∉ (sides fs).map PTree.ref := by
        have hm : (PTree.node r ks) ∈ allOf (f.pre ++ PTree.node r ks :: f.post) := top_mem_allOf (by simp)
        have e1 := hap.1 _ hm
        have e2 := hap.2.2 _ hm
        rw [ref_node] at e1 e2
        simp only [List.mem_cons, not_or] at e1
        exact ⟨e1.1, e1.2, e2⟩
      have hsame : ∀ x, x ≠ f.r → x ≠ r → h1' x = h x := by
        intro x e1 e2
        simp only [h1', dropObj, if_neg e2, setNode, if_neg e1]
      have hlenEq : (pagesOf (f.pre ++ f.post)) = (pagesOf (f.pre ++ PTree.node r ks :: f.post)) := by
        simp [pagesOf_append, pagesOf, PTree.pages, hp]
      have hfr : h1' f.r = some (.dict { m with kids := .arr ((f.pre ++ f.post).map (fun k => .ref k.ref)) }) := by
        simp [h1', dropObj, setNode, Ne.symm hr_out.1]
      have ht3 : IsPageTree h1' (plug (.node f.r (f.pre ++ f.post)) fs) := by
        refine change_node 0 h h1' f.r _ _ fs ht2 ?_ ?_ ?_ ?_ ?_ ?_
        · intro s hs
          refine hsame _ (fun e => hap.2.1 s hs (by simp [e])) (fun e => hr_out.2.2 (e ▸ List.mem_map_of_mem hs))
        · intro x hx k hk
          refine ⟨k, ?_, rfl, rfl, by cases k.count <;> simp [addc]⟩
          rw [hsame x (fun e => ?_) (fun e => hr_out.2.1 (e ▸ hx))]
          · exact hk
          · have := way_nodup ht2
            rw [List.nodup_cons] at this
            exact this.1 (e ▸ hx)
        · exact ⟨_, hfr, g2, rfl, by rw [hlenEq]; exact g4⟩
        · intro s hs
          refine nodeOK_congr (hsame _ (fun e => hap.1 s (hnk s hs) (by simp [e])) (fun e => hkap.1 s hs (hrr _ e))) ?_
          exact ht2.ok s (by rw [mem_all_plug]; left; rw [PTree.all]; exact List.mem_cons_of_mem _ (hnk s hs))
        · rw [hlenEq]; omega
        · have hnd := ((isPageTree_plug h fs _).1 ht2).2
          have hsub : ((PTree.node f.r (f.pre ++ f.post)).all.map PTree.ref ++
              ((sides fs).map PTree.ref ++ fs.map Frame.r)).Sublist
              ((PTree.node f.r (f.pre ++ PTree.node r ks :: f.post)).all.map PTree.ref ++
              ((sides fs).map PTree.ref ++ fs.map Frame.r)) := by
            refine List.Sublist.append ?_ (List.Sublist.refl _)
            rw [PTree.all, PTree.all, List.map_cons, List.map_cons, allOf_append, allOf_append, allOf]
            refine List.Sublist.cons₂ _ (List.Sublist.map _ ?_)
            exact List.Sublist.append (List.Sublist.refl _) (List.sublist_append_right _ _)
          exact hnd.sublist hsub
      have hpg : (plug (.node f.r (f.pre ++ f.post)) fs).pages = (plug (.node r ks) (f :: fs)).pages := by
        rw [plug, pages_plug, pages_plug, fill_pages]
        simp [PTree.pages, pagesOf_append, hp]
      obtain ⟨h', r', ks', c1, c2, c3, c4, c5, c6, c7⟩ := clean_core root old fs h1' f.r (f.pre ++ f.post) ht3
        ((plug_ref fs (.node f.r (f.pre ++ f.post)) (f.fill (.node r ks)) rfl).trans hr) (by rw [hpg]; exact hb)
        (fun s hs => hsd s (by
          rw [allOf_append, List.mem_append] at hs
          rw [sides, List.mem_append, List.mem_append]; exact Or.inl hs))
        (fun s hs => hsd s (by rw [sides, List.mem_append]; exact Or.inr hs))
      refine ⟨h', r', ks', hstep.trans c1, c2, c3, c4.trans hpg, Nat.le_trans c5 ?_, c6, fun hl => c7 ?_⟩
      · rw [plug]
        apply height_plug
        rw [fill_height]
        simp only [PTree.height, heightOf_append]; omega
      · refine linked_keep hl ?_ (plug_ref fs _ _ rfl) ?_
        · intro x hx k hk
          by_cases hxf : x = f.r
          · subst hxf
            rw [g1] at hk
            simp only [Option.some.injEq, PObj.dict.injEq] at hk
            subst hk
            exact ⟨_, hfr, rfl⟩
          · refine ⟨k, ?_, rfl⟩
            rw [hsame x hxf ?_]
            · exact hk
            · intro e
              obtain ⟨s, hs, rfl⟩ := List.mem_map.1 hx
              have := ht3.ok s hs
              have hnone : h1' r = none := by simp [h1', dropObj]
              cases s with
              | page q =>
                obtain ⟨z, z1, _⟩ := this
                rw [ref_page] at e
                rw [e, hnone] at z1; cases z1
              | node q js =>
                obtain ⟨z, z1, _⟩ := this
                rw [ref_node] at e
                rw [e, hnone] at z1; cases z1
        · intro s hs
          rw [mem_all_plug] at hs
          have hin : ∀ s, s ∈ (plug (.node f.r (f.pre ++ PTree.node r ks :: f.post)) fs).all → LinkOK h s := hl.ok
          rcases hs with hs | hs | hs
          · simp only [PTree.all, List.mem_cons] at hs
            rcases hs with hs | hs
            · subst hs
              intro k hk
              have hn0 := hin (.node f.r (f.pre ++ PTree.node r ks :: f.post))
                (by rw [mem_all_plug]; left; exact self_mem_all _)
              refine hn0 k ?_
              simp only [List.mem_append, List.mem_cons] at hk ⊢
              rcases hk with hk | hk <;> simp [hk]
            · exact hin s (by rw [mem_all_plug]; left; rw [PTree.all]; exact List.mem_cons_of_mem _ (hnk s hs))
          · exact hin s (by rw [mem_all_plug]; simp [hs])
          · exact path_link fs (.node f.r (f.pre ++ PTree.node r ks :: f.post)) (.node f.r (f.pre ++ f.post)) rfl
              (fun s hs => hin s (by rw [mem_all_plug]; simp [hs])) s hs
    · have hstep : cleanLoop root (r :: (f :: fs).map Frame.r) h = cleanLoop root (f.r :: fs.map Frame.r) h := by
        rw [cleanLoop.eq_def]
        simp only [nodeAt, h1, hempty, hp, List.map_cons]
        rw [if_neg (by simp)]
      -- not empty, nor are the nodes above: the rest of the loop does nothing
      have hloop : ∀ (fs : List Frame) (t : PTree), t.pages ≠ [] → (∀ s ∈ path t fs, NodeOK h s) →
          (plug t fs).pages.length < 4294967296 → cleanLoop root (fs.map Frame.r) h = .ok h := by
        intro fs
        induction fs with
        | nil => intro _ _ _ _; rfl
        | cons g gs ih =>
          intro t hne hok hlen
          obtain ⟨m, g1, g2, g3, g4⟩ := hok (g.fill t) (by simp [path])
          have hne' : (g.fill t).pages ≠ [] := by
            rw [fill_pages]; simp [hne]
          have hl2 : (g.fill t).pages.length < 4294967296 := by
            rw [plug, pages_plug] at hlen
            simp only [List.length_append] at hlen; omega
          have he : isEmptyNode m = .ok false := by
            rw [isEmptyNode, childCount_node g4 hl2]
            simp only [g3, Except.ok.injEq]
            have h0 : pagesOf (g.pre ++ t :: g.post) ≠ [] := hne'
            simp [h0]
          rw [List.map_cons, cleanLoop.eq_def]
          simp only [nodeAt, g1, he]
          rw [if_neg (by simp)]
          exact ih (g.fill t) hne' (fun s hs => hok s (by simp [path, hs])) hlen
      have hpl := (isPageTree_plug h (f :: fs) (.node r ks)).1 ht
      have hnodeform : ∃ r' ks', plug (PTree.node r ks) (f :: fs) = .node r' ks' := by
        have : ∀ (fs : List Frame) (r : Ref) (ks : List PTree), ∃ r' ks', plug (PTree.node r ks) fs = .node r' ks' := by
          intro fs
          induction fs with
          | nil => intro r ks; exact ⟨r, ks, rfl⟩
          | cons g gs ih => intro r ks; exact ih _ _
        exact this _ _ _
      obtain ⟨r', ks', hform⟩ := hnodeform
      refine ⟨h, r', ks', hstep.trans (hloop (f :: fs) (.node r ks) hp hpl.1.2.2 hb), hform ▸ ht, ?_, ?_, ?_, ?_, ?_⟩
      · rw [← hr, hform]; rfl
      · rw [hform]; rfl
      · rw [hform]; exact Nat.le_refl _
      · intro s hs hse hsr
        rw [← hform, mem_all_plug] at hs
        rcases hs with hs | hs | hs
        · simp only [PTree.all, List.mem_cons] at hs
          rcases hs with hs | hs
          · subst hs; exact absurd hse hp
          · exact hks s hs
        · exact hsd s hs
        · have hc := path_count (f :: fs) (.node r ks) s hs
          exfalso
          apply hp
          have := hc.2
          rw [hse, List.length_nil] at this
          exact List.eq_nil_of_length_eq_zero (by simpa [PTree.pages] using this)
      · rw [hform]; exact id
termination_by fs => fs.length

/-- `deletePageFromNode` removes one page. -/
theorem remove_core (h : PHeap) (root r : Ref) (a b : List PTree) (pg : Ref) (fs : List Frame)
    (ht : IsPageTree h (plug (.node r (a ++ .page pg :: b)) fs))
    (hroot : (plug (.node r (a ++ .page pg :: b)) fs).ref = root)
    (hlen : (plug (.node r (a ++ .page pg :: b)) fs).pages.length < 2147483648) :
    ∃ h' r' ks', deleteFromNode h root r (r :: fs.map Frame.r).reverse a.length = .ok h' ∧
      IsPageTree h' (.node r' ks') ∧ r' = root ∧
      pagesOf ks' = before fs ++ (pagesOf a ++ (pagesOf b ++ after fs)) ∧
      (PTree.node r' ks').height ≤ (plug (.node r (a ++ .page pg :: b)) fs).height ∧
      OldEmpty (plug (.node r (a ++ .page pg :: b)) fs) (.node r' ks') ∧
      (Linked h (plug (.node r (a ++ .page pg :: b)) fs) → Linked h' (.node r' ks')) := by
  obtain ⟨n, h1, h2, h3, h4⟩ := ht.ok (.node r (a ++ .page pg :: b))
    (by rw [mem_all_plug]; left; exact self_mem_all _)
  have hway := way_counts ht
  have hwnd := way_nodup ht
  have hap := apart ht
  have hkap := kid_apart ht
  have hrn : r ∉ fs.map Frame.r := (List.nodup_cons.1 hwnd).1
  have hdel := deleteKid_eq (h := h) h1 h3
  let h0 := setNode h r { n with kids := .arr ((a ++ b).map (fun k => .ref k.ref)) }
  let h2' := bumped (-1) (r :: fs.map Frame.r) h0
  have hbump : eachRef (changeCount (-1)) (r :: fs.map Frame.r) h0 = .ok h2' := by
    refine changeAll _ _ _ hwnd ?_
    intro x hx
    obtain ⟨m, c, g1, g2, g3, g4⟩ := hway x hx
    have hc : 1 ≤ c := by
      simp only [pagesOf_append, pagesOf, PTree.pages, List.length_append, List.length_cons] at g4; omega
    by_cases hxr : x = r
    · subst hxr
      rw [h1] at g1
      simp only [Option.some.injEq, PObj.dict.injEq] at g1
      subst g1
      exact ⟨{ n with kids := .arr ((a ++ b).map (fun k => .ref k.ref)) }, c, by simp [h0, setNode], g2, by omega, by omega, by omega⟩
    · exact ⟨m, c, by simp [h0, setNode, hxr, g1], g2, by omega, by omega, by omega⟩
  have hoff : ∀ x, x ∉ r :: fs.map Frame.r → h2' x = h x := by
    intro x hx
    simp only [h2', h0, bumped, if_neg hx, setNode]
    rw [if_neg (fun e => hx (by simp [e]))]
  have hnk : ∀ s ∈ allOf (a ++ b), s ∈ allOf (a ++ PTree.page pg :: b) := by
    intro s hs
    rw [allOf_append, List.mem_append] at hs
    rw [allOf_append, allOf, List.mem_append, List.mem_append]
    rcases hs with hs | hs <;> simp [hs]
  have hr' : h2' r = some (.dict { n with kids := .arr ((a ++ b).map (fun k => .ref k.ref)), count := addc (-1) n.count }) := by
    simp [h2', h0, bumped, setNode]
  have hupd : ∀ x ∈ fs.map Frame.r, ∀ m, h x = some (.dict m) →
      h2' x = some (.dict { m with count := addc (-1) m.count }) := by
    intro x hx m hm
    have hxr : x ≠ r := fun e => hrn (e ▸ hx)
    simp only [h2', bumped]
    rw [if_pos (by simp at hx ⊢; simp [hx])]
    simp [h0, setNode, hxr, hm]
  have ht2 : IsPageTree h2' (plug (.node r (a ++ b)) fs) := by
    refine change_node (-1) h h2' r _ _ fs ht ?_ ?_ ?_ ?_ ?_ ?_
    · intro s hs; exact hoff _ (hap.2.1 s hs)
    · intro x hx m hm
      exact ⟨_, hupd x hx m hm, rfl, rfl, rfl⟩
    · refine ⟨_, hr', h2, rfl, ?_⟩
      dsimp only
      rw [h4]
      simp only [addc, pagesOf_append, pagesOf, PTree.pages, List.length_append, List.length_cons, List.length_nil]
      congr 1; omega
    · intro s hs
      exact nodeOK_congr (hoff _ (hap.1 s (hnk s hs)))
        (ht.ok s (by rw [mem_all_plug]; left; rw [PTree.all]; exact List.mem_cons_of_mem _ (hnk s hs)))
    · simp only [pagesOf_append, pagesOf, PTree.pages, List.length_append, List.length_cons, List.length_nil]; omega
    · have hnd := ((isPageTree_plug h fs _).1 ht).2
      refine hnd.sublist (List.Sublist.append ?_ (List.Sublist.refl _))
      rw [PTree.all, PTree.all, List.map_cons, List.map_cons, allOf_append, allOf_append, allOf]
      refine List.Sublist.cons₂ _ (List.Sublist.map _ ?_)
      exact List.Sublist.append (List.Sublist.refl _) (List.sublist_append_right _ _)
  have hpages : (plug (.node r (a ++ b)) fs).pages = before fs ++ (pagesOf a ++ (pagesOf b ++ after fs)) := by
    rw [pages_plug]; simp [PTree.pages, pagesOf_append]
  have hle : (plug (.node r (a ++ b)) fs).pages.length ≤ (plug (.node r (a ++ .page pg :: b)) fs).pages.length := by
    rw [pages_plug, pages_plug]
    simp only [PTree.pages, pagesOf_append, pagesOf, List.length_append]; omega
  obtain ⟨h', r', ks', c1, c2, c3, c4, c5, c6, c7⟩ :=
    clean_core root (plug (.node r (a ++ .page pg :: b)) fs) fs h2' r (a ++ b) ht2
      ((plug_ref fs (.node r (a ++ b)) (.node r (a ++ .page pg :: b)) rfl).trans hroot) (by omega)
      (fun s hs => by rw [mem_all_plug]; left; rw [PTree.all]; exact List.mem_cons_of_mem _ (hnk s hs))
      (fun s hs => by rw [mem_all_plug]; simp [hs])
  refine ⟨h', r', ks', ?_, c2, c3, c4.trans hpages, Nat.le_trans c5 ?_, c6, fun hl => c7 ?_⟩
  · rw [deleteFromNode, hdel]
    dsimp only
    rw [List.reverse_reverse]
    have e : setNode h r { n with kids := .arr ((a ++ b).map (fun k => .ref k.ref)) } = h0 := rfl
    rw [e, hbump]
    exact c1
  · apply height_plug
    simp only [PTree.height, heightOf_append, heightOf]; omega
  · refine linked_keep hl ?_ (plug_ref fs _ _ rfl) ?_
    · intro x hx k hk
      by_cases hxr : x = r
      · subst hxr
        rw [h1] at hk
        simp only [Option.some.injEq, PObj.dict.injEq] at hk
        subst hk
        exact ⟨_, hr', rfl⟩
      · by_cases hf : x ∈ fs.map Frame.r
        · exact ⟨_, hupd x hf k hk, rfl⟩
        · exact ⟨k, by rw [hoff x (by simp only [List.mem_cons, not_or]; exact ⟨hxr, hf⟩)]; exact hk, rfl⟩
    · intro s hs
      rw [mem_all_plug] at hs
      rcases hs with hs | hs | hs
      · simp only [PTree.all, List.mem_cons] at hs
        rcases hs with hs | hs
        · subst hs
          intro k hk
          have hn0 := hl.ok (.node r (a ++ PTree.page pg :: b)) (by rw [mem_all_plug]; left; exact self_mem_all _)
          refine hn0 k ?_
          simp only [List.mem_append, List.mem_cons] at hk ⊢
          rcases hk with hk | hk <;> simp [hk]
        · exact hl.ok s (by rw [mem_all_plug]; left; rw [PTree.all]; exact List.mem_cons_of_mem _ (hnk s hs))
      · exact hl.ok s (by rw [mem_all_plug]; simp [hs])
      · exact path_link fs (.node r (a ++ PTree.page pg :: b)) (.node r (a ++ b)) rfl
          (fun s hs => hl.ok s (by rw [mem_all_plug]; simp [hs])) s hs

end Pdfmm
