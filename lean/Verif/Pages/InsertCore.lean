import Verif.Pages.Insert
/-
`insertPagesIntoNode` on a page tree.
-/
set_option autoImplicit false
namespace Pdfmm
open Spec Frame

theorem path_link {h : PHeap} : ∀ (fs : List Frame) (t t' : PTree), t'.ref = t.ref →
    (∀ s ∈ path t fs, LinkOK h s) → ∀ s ∈ path t' fs, LinkOK h s
  | [], _, _, _, _ => by simp [path]
  | f :: fs, t, t', hr, hok => by
    intro s hs
    rw [path, List.mem_cons] at hs
    rcases hs with hs | hs
    · subst hs
      have h1 : LinkOK h (f.fill t) := hok _ (by simp [path])
      intro k hk
      simp only [List.mem_append, List.mem_cons] at hk
      rcases hk with hk | hk | hk
      · exact h1 k (by simp [hk])
      · subst hk; rw [hr]; exact h1 t (by simp)
      · exact h1 k (by simp [hk])
    · exact path_link fs (f.fill t) (f.fill t') rfl (fun s hs => hok s (by simp [path, hs])) s hs

theorem insert_core (h : PHeap) (r : Ref) (a b : List PTree) (fs : List Frame) (pages : List Ref) (index : Int)
    (ht : IsPageTree h (plug (.node r (a ++ b)) fs)) (hne : pages ≠ [])
    (hfresh : ∀ p ∈ pages, p ∉ (plug (.node r (a ++ b)) fs).all.map PTree.ref)
    (hpg : ∀ p ∈ pages, ∃ n, h p = some (.dict n) ∧ n.type = .page) (hnd : pages.Nodup)
    (hlen : (plug (.node r (a ++ b)) fs).pages.length + pages.length < 2147483648)
    (hi : index + 1 = a.length) :
    ∃ h', insertIntoNode h r (r :: fs.map Frame.r).reverse index pages = .ok h' ∧
      IsPageTree h' (plug (.node r (a ++ (pages.map PTree.page ++ b))) fs) ∧
      (Linked h (plug (.node r (a ++ b)) fs) →
        Linked h' (plug (.node r (a ++ (pages.map PTree.page ++ b))) fs)) := by
  have hroot := ht.ok (.node r (a ++ b)) (by rw [mem_all_plug]; left; exact self_mem_all _)
  obtain ⟨n, h1, h2, h3, h4⟩ := hroot
  have hway := way_counts ht
  have hwnd := way_nodup ht
  have hplug := (isPageTree_plug h fs _).1 ht
  have hrn : r ∉ fs.map Frame.r := (List.nodup_cons.1 hwnd).1
  have hwayref : ∀ x ∈ r :: fs.map Frame.r, x ∈ (plug (.node r (a ++ b)) fs).all.map PTree.ref := by
    intro x hx
    rw [(refs_plug fs _).mem_iff]
    simp only [List.mem_cons] at hx
    simp only [List.mem_append]
    rcases hx with hx | hx
    · left; rw [hx]; simp [PTree.all, PTree.ref]
    · right; right; exact hx
  have hnotway : ∀ p ∈ pages, p ∉ r :: fs.map Frame.r := fun p hp hm => hfresh p hp (hwayref p hm)
  -- the kids
  let kids' : List PKid := (a ++ (pages.map PTree.page ++ b)).map (fun k => PKid.ref k.ref)
  have hk : insertKids index (pages.map .ref) ((a ++ b).map (fun k => .ref k.ref)) = kids' := by
    rw [List.map_append, insertKids_eq _ _ _ _ (by simpa using hi)]
    simp [kids', PTree.ref]
  let h0 := setNode h r { n with kids := .arr kids' }
  let hb := bumped pages.length (r :: fs.map Frame.r) h0
  let h' := reparented r pages hb
  have hrun : insertIntoNode h r (r :: fs.map Frame.r).reverse index pages = .ok h' := by
    rw [insertIntoNode, if_neg hne]
    simp only [nodeAt, h1, kidsOf, h3, hk]
    rw [List.reverse_reverse, changeAll _ _ _ hwnd]
    · dsimp only
      rw [parentAll]
      intro p hp
      obtain ⟨m, g1, g2⟩ := hpg p hp
      have hw := hnotway p hp
      refine ⟨m, ?_⟩
      simp only [bumped, if_neg hw, setNode]
      rw [if_neg (fun e => hw (by simp [e])), g1]
    · intro x hx
      obtain ⟨m, c, g1, g2, g3, g4⟩ := hway x hx
      by_cases hxr : x = r
      · subst hxr
        rw [h1] at g1
        simp only [Option.some.injEq, PObj.dict.injEq] at g1
        subst g1
        exact ⟨{ n with kids := .arr kids' }, c, by simp [setNode], g2, by omega, by omega, by omega⟩
      · exact ⟨m, c, by simp [setNode, hxr, g1], g2, by omega, by omega, by omega⟩
  -- what the objects are afterwards
  have hoff : ∀ x, x ∉ r :: fs.map Frame.r → x ∉ pages → h' x = h x := by
    intro x hx hp
    simp only [h', hb, h0, reparented, if_neg hp, bumped, if_neg hx, setNode]
    rw [if_neg (fun e => hx (by simp [e]))]
  have hup : ∀ x ∈ fs.map Frame.r, Bump pages.length h h' x ∧
      ∀ m, h x = some (.dict m) → ∃ m', h' x = some (.dict m') ∧ m'.parent = m.parent := by
    intro x hx
    have hxr : x ≠ r := fun e => hrn (e ▸ hx)
    have hxp : x ∉ pages := fun hp => hnotway x hp (by simp at hx ⊢; simp [hx])
    constructor <;> intro m hm
    · refine ⟨{ m with count := addc pages.length m.count }, ?_, rfl, rfl, rfl⟩
      simp only [h', hb, h0, reparented, if_neg hxp, bumped]
      rw [if_pos (by simp at hx ⊢; simp [hx])]
      simp [setNode, hxr, hm]
    · refine ⟨{ m with count := addc pages.length m.count }, ?_, rfl⟩
      simp only [h', hb, h0, reparented, if_neg hxp, bumped]
      rw [if_pos (by simp at hx ⊢; simp [hx])]
      simp [setNode, hxr, hm]
  have hr' : h' r = some (.dict { n with kids := .arr kids', count := addc pages.length n.count }) := by
    have hxp : r ∉ pages := fun hp => hnotway r hp (by simp)
    simp only [h', hb, h0, reparented, if_neg hxp, bumped]
    simp [setNode]
  have hnew : ∀ p ∈ pages, ∃ m, h' p = some (.dict m) ∧ m.type = .page ∧ m.parent = some r := by
    intro p hp
    obtain ⟨m, g1, g2⟩ := hpg p hp
    have hw := hnotway p hp
    refine ⟨{ m with parent := some r }, ?_, g2, rfl⟩
    simp only [h', hb, h0, reparented, if_pos hp, bumped, if_neg hw, setNode]
    rw [if_neg (fun e => hw (by simp [e])), g1]
  have hsideref : ∀ s ∈ sides fs, s.ref ∈ (sides fs).map PTree.ref := fun s hs => List.mem_map_of_mem hs
  have htn := hplug.2
  rw [List.nodup_append] at htn
  have htreeref : ∀ s, s ∈ (plug (.node r (a ++ b)) fs).all → s.ref ∉ pages := fun s hs hp =>
    hfresh _ hp (List.mem_map_of_mem hs)
  have hold : ∀ s ∈ allOf (a ++ b), s.ref ∉ r :: fs.map Frame.r ∧ s.ref ∉ pages := by
    intro s hs
    refine ⟨?_, htreeref s (by rw [mem_all_plug]; left; simp [PTree.all, hs])⟩
    have hd := htn.1
    rw [PTree.all, List.map_cons, List.nodup_cons] at hd
    intro hm
    rw [List.mem_cons] at hm
    rcases hm with hm | hm
    · exact hd.1 (by rw [show (PTree.node r (a ++ b)).ref = r from rfl, ← hm]; exact List.mem_map_of_mem hs)
    · exact htn.2.2 s.ref (by rw [PTree.all, List.map_cons]; exact List.mem_cons_of_mem _ (List.mem_map_of_mem hs))
        s.ref (by simp only [List.mem_append]; exact Or.inr hm) rfl
  have hsideout : ∀ s ∈ sides fs, s.ref ∉ r :: fs.map Frame.r := by
    intro s hs hm
    rw [List.mem_cons] at hm
    rcases hm with hm | hm
    · exact htn.2.2 r (by simp [PTree.all, PTree.ref]) s.ref
        (by simp only [List.mem_append]; exact Or.inl (List.mem_map_of_mem hs)) hm.symm
    · have := htn.2.1
      rw [List.nodup_append] at this
      exact this.2.2 _ (List.mem_map_of_mem hs) _ hm rfl
  have hsides : ∀ s ∈ sides fs, h' s.ref = h s.ref := fun s hs =>
    hoff _ (hsideout s hs) (htreeref s (by rw [mem_all_plug]; simp [hs]))
  have hchild : ∀ s, s ∈ allOf (a ++ (pages.map PTree.page ++ b)) →
      s ∈ allOf (a ++ b) ∨ ∃ p ∈ pages, s = .page p := by
    intro s hs
    rw [allOf_append, allOf_append, allOf_pages, List.mem_append, List.mem_append] at hs
    rw [allOf_append, List.mem_append]
    rcases hs with hs | hs | hs
    · simp [hs]
    · right; simpa [eq_comm] using hs
    · simp [hs]
  have htree : IsPageTree h' (plug (.node r (a ++ (pages.map PTree.page ++ b))) fs) := by
    refine change_node pages.length h h' r (a ++ b) _ fs ht hsides (fun x hx => (hup x hx).1) ?_ ?_ ?_ ?_
    · refine ⟨_, hr', h2, rfl, ?_⟩
      dsimp only
      rw [h4]
      simp only [addc, pagesOf_append, pagesOf_pages, List.length_append]
      congr 1; omega
    · intro s hs
      rcases hchild s hs with hs | ⟨p, hp, rfl⟩
      · exact nodeOK_congr (hoff _ (hold s hs).1 (hold s hs).2)
          (ht.ok s (by rw [mem_all_plug]; left; simp [PTree.all, hs]))
      · obtain ⟨m, g1, g2, g3⟩ := hnew p hp
        exact ⟨m, g1, g2⟩
    · simp only [pagesOf_append, pagesOf_pages, List.length_append]; omega
    · have hp2 : ((PTree.node r (a ++ (pages.map PTree.page ++ b))).all.map PTree.ref ++
          ((sides fs).map PTree.ref ++ fs.map Frame.r)).Perm
          (pages ++ ((PTree.node r (a ++ b)).all.map PTree.ref ++ ((sides fs).map PTree.ref ++ fs.map Frame.r))) := by
        rw [List.perm_iff_count]
        intro x
        have : (pages.map PTree.page).map PTree.ref = pages := by simp [Function.comp_def, PTree.ref]
        simp only [PTree.all, allOf_append, allOf_pages, List.map_cons, List.map_append, List.count_append,
          List.count_cons, this, show (PTree.node r (a ++ (pages.map PTree.page ++ b))).ref = r from rfl,
          show (PTree.node r (a ++ b)).ref = r from rfl]
        omega
      rw [hp2.nodup_iff, List.nodup_append]
      refine ⟨hnd, hplug.2, ?_⟩
      intro x hx y hy he
      subst he
      exact hfresh x hx ((refs_plug fs _).mem_iff.2 hy)
  refine ⟨h', hrun, htree, ?_⟩
  intro hl
  have hl1 : ∀ s ∈ (plug (.node r (a ++ b)) fs).all, LinkOK (reparented r pages h) s := by
    intro s hs
    refine linkOK_congr ?_ (hl.ok s hs)
    rintro m x hx ⟨y, ks, rfl, k, hk, rfl⟩
    by_cases hp : k.ref ∈ pages
    · obtain ⟨m2, g1, g2⟩ := hl.ok _ hs k hk
      exfalso
      exact htreeref k (all_trans hs (all_child rfl hk)) hp
    · exact ⟨m, by simp [reparented, hp, hx], rfl⟩
  refine linked_keep (h := reparented r pages h) (t := plug (.node r (a ++ b)) fs) ⟨hl1, ?_⟩ ?_ (plug_ref fs _ _ rfl) ?_
  · obtain ⟨m, g1, g2⟩ := hl.root
    exact ⟨m, by rw [reparented, if_neg (htreeref _ (self_mem_all _))]; exact g1, g2⟩
  · intro x hx m hm
    by_cases hp : x ∈ pages
    · obtain ⟨m', g1, g2, g3⟩ := hnew x hp
      refine ⟨m', g1, ?_⟩
      obtain ⟨m2, k1, k2⟩ := hpg x hp
      simp only [reparented, if_pos hp, k1, Option.some.injEq, PObj.dict.injEq] at hm
      rw [g3, ← hm]
    · simp only [reparented, if_neg hp] at hm
      by_cases hr : x = r
      · subst hr
        rw [h1] at hm
        simp only [Option.some.injEq, PObj.dict.injEq] at hm
        subst hm
        exact ⟨_, hr', rfl⟩
      · by_cases hf : x ∈ fs.map Frame.r
        · exact (hup x hf).2 m hm
        · exact ⟨m, by rw [hoff x (by simp only [List.mem_cons, not_or]; exact ⟨hr, hf⟩) hp]; exact hm, rfl⟩
  · intro s hs
    rw [mem_all_plug] at hs
    rcases hs with hs | hs | hs
    · simp only [PTree.all, List.mem_cons] at hs
      rcases hs with hs | hs
      · subst hs
        intro k hk
        have hn0 : LinkOK (reparented r pages h) (.node r (a ++ b)) :=
          hl1 _ (by rw [mem_all_plug]; left; exact self_mem_all _)
        simp only [List.mem_append, List.mem_map] at hk
        rcases hk with hk | ⟨p, hp, rfl⟩ | hk
        · exact hn0 k (by simp [hk])
        · obtain ⟨m, g1, g2⟩ := hpg p hp
          exact ⟨{ m with parent := some r }, by simp [reparented, PTree.ref, hp, g1], rfl⟩
        · exact hn0 k (by simp [hk])
      · rcases hchild s hs with hs | ⟨p, hp, rfl⟩
        · exact hl1 s (by rw [mem_all_plug]; left; simp [PTree.all, hs])
        · trivial
    · exact hl1 s (by rw [mem_all_plug]; simp [hs])
    · exact path_link fs (.node r (a ++ b)) (.node r (a ++ (pages.map PTree.page ++ b))) rfl (fun s hs => hl1 s (by rw [mem_all_plug]; simp [hs])) s hs

end Pdfmm
