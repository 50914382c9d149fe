import Verif.Document.NameTreeAdd
import Verif.XRef.TextProps
/-
Name trees: the root, and looking values up.
-/
set_option autoImplicit false
namespace Pdfmm
open Spec

variable {V : Type}

/-! ### The root -/

/-- The tree after adding. -/
def RootPost (h : NHeap V) (N root : Nat) (objs : List Nat) (es : List (Bytes × V)) (h' : NHeap V) : Prop :=
  ∃ (n' : NNode V) (d' : Nat) (objs' : List Nat), h'.get root = some n' ∧ n'.limits = none ∧ (root :: objs').Nodup ∧ NameBody h' N d' n' es objs' ∧
    HeapOK h' ∧ h.next ≤ h'.next ∧ (∀ r ∈ objs', r ∈ objs ∨ h.next ≤ r) ∧ ∀ r, r < h.next → r ∉ root :: objs → h'.get r = h.get r

theorem splitRoot_post {h : NHeap V} {N d root : Nat} (hN : 65 ≤ N) (wf : HeapOK h) {n a b : NNode V} {es1 es2 : List (Bytes × V)} {o1 o2 : List Nat}
    (hr : h.get root = some n) (hl : n.limits = none) (hb1 : NameBody h N d a es1 o1) (hb2 : NameBody h N d b es2 o2)
    (hnd : (root :: (o1 ++ o2)).Nodup) :
    ∃ h', splitRoot h root n a b = .ok h' ∧ RootPost h N root (o1 ++ o2) (es1 ++ es2) h' := by
  have hrl : root < h.next := wf _ _ hr
  obtain ⟨hnr, hndo⟩ := List.nodup_cons.1 hnd
  have ho1 : ∀ r ∈ o1, r ≠ root ∧ r ≠ h.next ∧ r ≠ h.next + 1 := by
    intro r hm
    have := hb1.lt wf r hm
    refine ⟨?_, by omega, by omega⟩
    intro e; exact hnr (by rw [← e]; exact List.mem_append_left _ hm)
  have ho2 : ∀ r ∈ o2, r ≠ root ∧ r ≠ h.next ∧ r ≠ h.next + 1 := by
    intro r hm
    have := hb2.lt wf r hm
    refine ⟨?_, by omega, by omega⟩
    intro e; exact hnr (by rw [← e]; exact List.mem_append_right _ hm)
  obtain ⟨rn, hrn⟩ : ∃ x : NNode V, x = ⟨some [h.next, h.next + 1], none, n.limits⟩ := ⟨_, rfl⟩
  obtain ⟨m1, hm1⟩ : ∃ x : NNode V, x = { a with limits := some (limitsOf es1) } := ⟨_, rfl⟩
  obtain ⟨m2, hm2⟩ : ∃ x : NNode V, x = { b with limits := some (limitsOf es2) } := ⟨_, rfl⟩
  obtain ⟨q1, hq1⟩ : ∃ x : NPart V, x = ⟨h.next, es1, o1⟩ := ⟨_, rfl⟩
  obtain ⟨q2, hq2⟩ : ∃ x : NPart V, x = ⟨h.next + 1, es2, o2⟩ := ⟨_, rfl⟩
  obtain ⟨h2, hh2⟩ : ∃ x : NHeap V, x = (((h.alloc a).set root { n with names := none }).alloc b).set root rn := ⟨_, rfl⟩
  have g2 : ∀ r, h2.get r = if r = root then some rn else if r = h.next + 1 then some b else if r = root then some { n with names := none } else
      if r = h.next then some a else h.get r := by
    intro r; rw [hh2]; rfl
  have n2 : h2.next = h.next + 2 := by rw [hh2]; rfl
  have w2 : HeapOK h2 := by
    rw [hh2]
    exact ((((wf.alloc _).set (by rw [next_alloc]; omega) _).alloc _).set (by rw [next_alloc, next_set, next_alloc]; omega) _)
  have s3 : setLimitsOf h2 h.next = .ok (h2.set h.next m1) := by
    rw [hm1]
    refine setLimitsOf_body (N := N) (d := d) (objs := o1) ?_ (hb1.congr rfl rfl ?_)
    · rw [g2, if_neg (by omega), if_neg (by omega), if_neg (by omega), if_pos rfl]
    · intro r hm
      obtain ⟨a1, a2, a3⟩ := ho1 r hm
      rw [g2, if_neg a1, if_neg a3, if_neg a1, if_neg a2]
  have s4 : setLimitsOf (h2.set h.next m1) (h.next + 1) = .ok ((h2.set h.next m1).set (h.next + 1) m2) := by
    rw [hm2]
    refine setLimitsOf_body (N := N) (d := d) (objs := o2) ?_ (hb2.congr rfl rfl ?_)
    · rw [get_set, if_neg (by omega), g2, if_neg (by omega), if_pos rfl]
    · intro r hm
      obtain ⟨a1, a2, a3⟩ := ho2 r hm
      rw [get_set, if_neg a2, g2, if_neg a1, if_neg a3, if_neg a1, if_neg a2]
  obtain ⟨h4, hh4⟩ : ∃ x : NHeap V, x = (h2.set h.next m1).set (h.next + 1) m2 := ⟨_, rfl⟩
  have n4 : h4.next = h.next + 2 := by rw [hh4]; exact n2
  have w4 : HeapOK h4 := by
    rw [hh4]
    exact (w2.set (by omega) _).set (by rw [next_set]; omega) _
  have g4r : h4.get root = some rn := by rw [hh4, get_set, if_neg (by omega), get_set, if_neg (by omega), g2, if_pos rfl]
  have g41 : h4.get h.next = some m1 := by rw [hh4, get_set, if_neg (by omega), get_set, if_pos rfl]
  have g42 : h4.get (h.next + 1) = some m2 := by rw [hh4, get_set, if_pos rfl]
  have g4o : ∀ r, r ≠ root → r ≠ h.next → r ≠ h.next + 1 → h4.get r = h.get r := by
    intro r a1 a2 a3
    rw [hh4, get_set, if_neg a3, get_set, if_neg a2, g2, if_neg a1, if_neg a3, if_neg a1, if_neg a2]
  have hok : ∀ x ∈ [q1, q2], PartOK h4 N d x := by
    intro x hx
    rcases List.mem_cons.1 hx with e | hx
    · subst e; subst hq1
      refine ⟨m1, g41, by rw [hm1], hb1.congr (by rw [hm1]) (by rw [hm1]) ?_⟩
      intro r hm
      obtain ⟨a1, a2, a3⟩ := ho1 r hm
      exact g4o r a1 a2 a3
    · rw [List.mem_singleton] at hx
      subst hx; subst hq2
      refine ⟨m2, g42, by rw [hm2], hb2.congr (by rw [hm2]) (by rw [hm2]) ?_⟩
      intro r hm
      obtain ⟨a1, a2, a3⟩ := ho2 r hm
      exact g4o r a1 a2 a3
  have hkids : rn.kids = some ([q1, q2].map (·.ref)) := by rw [hrn, hq1, hq2]; rfl
  have hrun : splitRoot h root n a b = .ok h4 := by
    rw [splitRoot]
    rw [show ({ n with names := none, kids := some [h.next, h.next + 1] } : NNode V) = rn by rw [hrn], ← hh2, s3]
    simp only
    rw [s4, ← hh4]
    show setLimits h4 root true false = _
    rw [setLimits, g4r]
    simp only
    rw [limitsFor_kids hkids (by simp) hok]
    rfl
  have hes : entriesOf [q1, q2] = es1 ++ es2 := by
    rw [entriesOf_cons, entriesOf_cons, entriesOf_nil, hq1, hq2, List.append_nil]
  have hrefs : refsOf [q1, q2] = h.next :: (o1 ++ (h.next + 1) :: o2) := by
    rw [refsOf_cons, refsOf_cons, refsOf_nil, hq1, hq2, List.append_nil]
  refine ⟨h4, hrun, rn, d + 1, refsOf [q1, q2], g4r, by rw [hrn]; exact hl, ?_, ?_, w4, by omega, ?_, ?_⟩
  · rw [hrefs]
    rw [List.nodup_append] at hndo
    obtain ⟨d1, d2, d3⟩ := hndo
    rw [List.nodup_cons, List.nodup_cons, List.nodup_append, List.nodup_cons]
    refine ⟨?_, ?_, d1, ⟨fun hm => (ho2 _ hm).2.2 rfl, d2⟩, ?_⟩
    · intro hm
      rcases List.mem_cons.1 hm with e | hm
      · omega
      · rcases List.mem_append.1 hm with hm | hm
        · exact (ho1 _ hm).1 rfl
        · rcases List.mem_cons.1 hm with e | hm
          · omega
          · exact (ho2 _ hm).1 rfl
    · intro hm
      rcases List.mem_append.1 hm with hm | hm
      · exact (ho1 _ hm).2.1 rfl
      · rcases List.mem_cons.1 hm with e | hm
        · omega
        · exact (ho2 _ hm).2.1 rfl
    · intro x hx y hy e
      rcases List.mem_cons.1 hy with e2 | hy
      · exact (ho1 x hx).2.2 (by rw [e, e2])
      · exact d3 x hx y hy e
  · rw [← hes]
    exact body_node hkids (by rw [hrn]) (by simp) (by simp; omega) hok
  · intro r hm
    rw [hrefs] at hm
    rcases List.mem_cons.1 hm with e | hm
    · exact Or.inr (by omega)
    · rcases List.mem_append.1 hm with hm | hm
      · exact Or.inl (List.mem_append_left _ hm)
      · rcases List.mem_cons.1 hm with e | hm
        · exact Or.inr (by omega)
        · exact Or.inl (List.mem_append_right _ hm)
  · intro r r1 r2
    exact g4o r (fun e => r2 (by rw [e]; exact List.mem_cons_self)) (by omega) (by omega)

theorem rebalance_root_leaf {h : NHeap V} {N root : Nat} (hN : 65 ≤ N) (wf : HeapOK h) {n : NNode V} {es : List (Bytes × V)} (hs : h.get root = some n)
    (h1 : n.kids = none) (h2 : n.names = some es) (h3 : es ≠ []) (h4 : es.length ≤ N + 1) (h5 : n.limits = none) :
    ∃ h', rebalance h none root false = .ok h' ∧ RootPost h N root [] es h' := by
  rw [rebalance, hs]
  simp only [halves, Bool.false_eq_true, if_false]
  rw [h2]
  simp only
  by_cases hlen : 2 * es.length > 130
  · rw [if_pos hlen]
    simp only
    have e : es.take 33 ++ es.drop 33 = es := List.take_append_drop 33 es
    have b1 : NameBody h N 0 { names := some (es.take 33) } (es.take 33) [] := by
      refine body_leaf ⟨rfl, rfl, ?_, by rw [List.length_take]; omega, rfl⟩
      intro e; have := congrArg List.length e; rw [List.length_take, List.length_nil] at this; omega
    have b2 : NameBody h N 0 { names := some (es.drop 33) } (es.drop 33) [] := by
      refine body_leaf ⟨rfl, rfl, ?_, by rw [List.length_drop]; omega, rfl⟩
      intro e; have := congrArg List.length e; rw [List.length_drop, List.length_nil] at this; omega
    have := splitRoot_post (o1 := []) (o2 := []) hN wf hs h5 b1 b2 (by simp)
    rw [e] at this
    exact this
  · rw [if_neg hlen]
    refine ⟨h, rfl, n, 0, [], hs, h5, by simp, body_leaf ⟨h1, h2, h3, by omega, rfl⟩, wf, Nat.le_refl _, ?_, fun _ _ _ => rfl⟩
    intro r hr; cases hr

theorem rebalance_root_node {h : NHeap V} {N d root : Nat} (hN : 65 ≤ N) (wf : HeapOK h) {n : NNode V} {ps : List (NPart V)} (hs : h.get root = some n)
    (h1 : n.kids = some (ps.map (·.ref))) (h2 : n.names = none) (h3 : ps ≠ []) (h4 : ps.length ≤ N + 1) (h5 : n.limits = none)
    (h6 : ∀ x ∈ ps, PartOK h N d x) (hnd : (root :: refsOf ps).Nodup) :
    ∃ h', rebalance h none root true = .ok h' ∧ RootPost h N root (refsOf ps) (entriesOf ps) h' := by
  rw [rebalance, hs]
  simp only [halves, if_true]
  rw [h1]
  simp only [List.length_map]
  by_cases hlen : ps.length > 65
  · rw [if_pos hlen]
    simp only
    have e : ps.take 33 ++ ps.drop 33 = ps := List.take_append_drop 33 ps
    have e1 : entriesOf (ps.take 33) ++ entriesOf (ps.drop 33) = entriesOf ps := by rw [← entriesOf_append, e]
    have e2 : refsOf (ps.take 33) ++ refsOf (ps.drop 33) = refsOf ps := by rw [← refsOf_append, e]
    have b1 : NameBody h N (d + 1) { kids := some ((ps.map (·.ref)).take 33) } (entriesOf (ps.take 33)) (refsOf (ps.take 33)) := by
      refine body_node (by simp [List.map_take]) rfl ?_ (by rw [List.length_take]; omega) (fun x hx => h6 x (List.mem_of_mem_take hx))
      intro e; have := congrArg List.length e; rw [List.length_take, List.length_nil] at this; omega
    have b2 : NameBody h N (d + 1) { kids := some ((ps.map (·.ref)).drop 33) } (entriesOf (ps.drop 33)) (refsOf (ps.drop 33)) := by
      refine body_node (by simp [List.map_drop]) rfl ?_ (by rw [List.length_drop]; omega) (fun x hx => h6 x (List.mem_of_mem_drop hx))
      intro e; have := congrArg List.length e; rw [List.length_drop, List.length_nil] at this; omega
    have := splitRoot_post hN wf hs h5 b1 b2 (by rw [e2]; exact hnd)
    rw [e1, e2] at this
    exact this
  · rw [if_neg hlen]
    exact ⟨h, rfl, n, d + 1, refsOf ps, hs, h5, hnd, body_node h1 h2 h3 (by omega) h6, wf, Nat.le_refl _, fun r hr => Or.inl hr, fun _ _ _ => rfl⟩

/-- Adding to a tree with entries. -/
theorem add_root {N : Nat} (hN : 65 ≤ N) (key : Bytes) (v : V) {d f root : Nat} (hf : d < f) {h : NHeap V} (wf : HeapOK h) {n : NNode V}
    {es : List (Bytes × V)} {objs : List Nat} (hs : h.get root = some n) (hl : n.limits = none) (hb : NameBody h N d n es objs)
    (hsort : SMap.Sorted es) (hnd : (root :: objs).Nodup) :
    ∃ h', addValue f h none root key v = .ok h' ∧ RootPost h N root objs (SMap.insert key v es) h' := by
  obtain ⟨f', rfl⟩ : ∃ f', f = f' + 1 := ⟨f - 1, by omega⟩
  have leaf : IsLeaf N n es objs → ∃ h', addValue (f' + 1) h none root key v = .ok h' ∧ RootPost h N root objs (SMap.insert key v es) h' := by
    intro hb
    obtain ⟨h1, h2, h3, h4, h5⟩ := hb
    subst h5
    obtain ⟨a, b, ha, hb⟩ := ends_of_ne (insert_ne_nil key v es)
    obtain ⟨n2, hn2⟩ : ∃ n2 : NNode V, n2 = ⟨n.kids, some (SMap.insert key v es), n.limits⟩ := ⟨_, rfl⟩
    have hrun : addValue (f' + 1) h none root key v = rebalance (h.set root n2) none root false := by
      rw [addValue, hs]
      simp only
      rw [h1]
      simp only
      rw [h2]
      simp only
      rw [addToNames]
      simp only [namesAdd_eq]
      rw [hn2, ha, hb]
      rfl
    rw [hrun]
    have := entries_insert_length key v es
    obtain ⟨h', r1, x1, x2, x3, x4, x5, x6, x7, x8, x9, x10, x11⟩ := rebalance_root_leaf hN (wf.set (wf _ _ hs) n2) (n := n2) (es := SMap.insert key v es)
      (by rw [get_set, if_pos rfl]) (by rw [hn2]; exact h1) (by rw [hn2]) (insert_ne_nil _ _ _) (by omega) (by rw [hn2]; exact hl)
    refine ⟨h', r1, x1, x2, x3, x4, x5, x6, x7, x8, x9, x10, ?_⟩
    intro r r1 r2
    rw [x11 r r1 r2, get_set, if_neg (fun e => r2 (by rw [e]; exact List.mem_cons_self))]
  cases d with
  | zero => exact leaf hb
  | succ d =>
    rcases hb with hb | ⟨ps, b1, b2, b3, b4, b5, b6, b7⟩
    · exact leaf hb
    · subst b5; subst b6
      obtain ⟨L', q, R', lim, e1, e2, e3⟩ := pickOrLast_spec key ps b3 b7 hsort
      have hqm : q ∈ ps := by rw [e2.1]; exact List.mem_append_right _ List.mem_cons_self
      obtain ⟨m, m1, m2, m3⟩ := b7 q hqm
      have hqs : SMap.Sorted q.entries := by
        have := hsort
        rw [e2.1] at this
        exact (sorted_middle this).1
      have cq := ctx_of_body wf hs b1 e2.1 b7 hnd
      obtain ⟨h1, qs, n1, r1, P⟩ := add_child hN key v d f' (by omega) (pp := false) cq m1 m2 m3 hqs
      have hes : entriesOf (L' ++ qs ++ R') = SMap.insert key v (entriesOf ps) := by
        rw [place_insert e2, entriesOf_append, entriesOf_append, P.es]
      have hne' : L' ++ qs ++ R' ≠ [] := by
        intro e
        exact P.ne (List.append_eq_nil_iff.1 (List.append_eq_nil_iff.1 e).1).2
      have hl1 : n1.limits = none := by
        rcases P.hl with e | e
        · rw [e, hl]
        · cases e.1
      obtain ⟨h2, n2, f1, f2, f3, f4, f5, f6, _, f8⟩ := fix_limits P.hp P.hk hne' P.ok lim false (by intro _ h; cases h)
      have hnd2 : (root :: refsOf (L' ++ qs ++ R')).Nodup := P.nodup cq
      have hok2 : ∀ x ∈ L' ++ qs ++ R', PartOK h2 N d x := by
        intro x hx
        refine (P.ok x hx).congr ?_
        intro r hr
        refine f6 r ?_
        intro e
        refine (List.nodup_cons.1 hnd2).1 ?_
        rcases List.mem_cons.1 hr with e' | e'
        · rw [← e, e']; exact (mem_refsOf hx).1
        · rw [← e]; exact (mem_refsOf hx).2 r e'
      have wf2 : HeapOK h2 := by
        intro r x hr
        rw [f5]
        by_cases e : r = root
        · rw [e]; exact P.wf _ _ P.hp
        · rw [f6 r e] at hr; exact P.wf _ _ hr
      have hin : ∀ r ∈ refsOf (L' ++ qs ++ R'), r ∈ refsOf ps ∨ h.next ≤ r := by
        intro r hr
        rw [e2.1, refs_split]
        rw [refsOf_append, refsOf_append] at hr
        rcases List.mem_append.1 hr with hr | hr
        · rcases List.mem_append.1 hr with hr | hr
          · exact Or.inl (List.mem_append_left _ hr)
          · rcases P.new r hr with h | h
            · exact Or.inl (List.mem_append_right _ (List.mem_append_left _ h))
            · exact Or.inr h
        · exact Or.inl (List.mem_append_right _ (List.mem_append_right _ hr))
      have hqin : ∀ r ∈ q.ref :: q.objs, r ∈ refsOf ps := by
        intro r hr
        rw [e2.1, refs_split]
        exact List.mem_append_right _ (List.mem_append_left _ hr)
      have hout : ∀ r, r < h.next → r ∉ root :: refsOf ps → h2.get r = h.get r := by
        intro r hr1 hr2
        rw [f6 r (fun e => hr2 (by rw [e]; exact List.mem_cons_self))]
        exact P.frame r hr1 (fun e => hr2 (by rw [e]; exact List.mem_cons_self)) (fun hm => hr2 (List.mem_cons_of_mem _ (hqin r hm)))
      have hlen : (L' ++ qs ++ R').length ≤ N + 1 := by
        have h2 := P.two
        have := congrArg List.length e2.1
        simp only [List.length_append, List.length_cons] at this ⊢
        omega
      have hnn : n2.names = none := by rw [f4, P.hn, b2]
      obtain ⟨h', t1, x1, x2, x3, x4, x5, x6, x7, x8, x9, x10, x11⟩ := rebalance_root_node hN wf2 f2 (by rw [f3, P.hk]) hnn hne' hlen
        (by rw [f8 rfl]; exact hl1) hok2 hnd2
      rw [hes] at x7
      have hnx := P.next
      refine ⟨h', ?_, x1, x2, x3, x4, x5, x6, x7, x8, by omega, ?_, ?_⟩
      · rw [addValue, hs]
        simp only
        rw [b1]
        simp only
        rw [e1]
        simp only [Option.isSome_none]
        rw [r1]
        simp only
        rw [f1]
        exact t1
      · intro r hr
        rcases x10 r hr with h | h
        · exact hin r h
        · exact Or.inr (by omega)
      · intro r r1 r2
        rw [x11 r (by omega) ?_, hout r r1 r2]
        intro hm
        rcases List.mem_cons.1 hm with e | hm
        · exact r2 (by rw [e]; exact List.mem_cons_self)
        · rcases hin r hm with h | h
          · exact r2 (List.mem_cons_of_mem _ h)
          · omega

/-- Adding to a tree without entries. -/
theorem add_empty {N : Nat} (hN : 65 ≤ N) (key : Bytes) (v : V) {f root : Nat} {h : NHeap V} (wf : HeapOK h) {n : NNode V} (hs : h.get root = some n)
    (hl : n.limits = none) (hk : n.kids = none) (hn : n.names = none) :
    ∃ h', addValue (f + 1) h none root key v = .ok h' ∧ RootPost h N root [] [(key, v)] h' := by
  have hr := wf _ _ hs
  obtain ⟨m, hm⟩ : ∃ m : NNode V, m = { names := some [(key, v)], limits := some [key, key] } := ⟨_, rfl⟩
  obtain ⟨rn, hrn⟩ : ∃ x : NNode V, x = ⟨some [h.next], none, none⟩ := ⟨_, rfl⟩
  refine ⟨(h.alloc m).set root rn, ?_, rn, 1, [h.next], ?_, by rw [hrn], ?_, ?_, (wf.alloc _).set (by rw [next_alloc]; omega) _, by rw [next_set, next_alloc]; omega, ?_, ?_⟩
  · rw [addValue, hs]
    simp only
    rw [hk]
    simp only
    rw [hn]
    simp only
    rw [addToEmpty, hm, hrn, ← hl, ← hn]
    rfl
  · rw [get_set, if_pos rfl]
  · simp; omega
  · refine Or.inr ⟨[⟨h.next, [(key, v)], []⟩], by rw [hrn]; rfl, by rw [hrn], by simp, by simp; omega, rfl, rfl, ?_⟩
    intro p hp
    rw [List.mem_singleton] at hp
    subst hp
    refine ⟨m, ?_, by rw [hm]; rfl, by rw [hm], by rw [hm], by simp, by simp; omega, rfl⟩
    simp only
    rw [get_set, if_neg (by omega), get_alloc, if_pos rfl]
  · intro r hr
    rw [List.mem_singleton] at hr
    exact Or.inr (by omega)
  · intro r r1 r2
    rw [get_set, if_neg (fun e => r2 (by rw [e]; exact List.mem_cons_self)), get_alloc, if_neg (by omega)]

/-- There are fewer levels than objects. -/
theorem objs_lt {h : NHeap V} {N d root : Nat} (wf : HeapOK h) {n : NNode V} (hs : h.get root = some n) {es : List (Bytes × V)} {objs : List Nat}
    (hb : NameBody h N d n es objs) (hnd : (root :: objs).Nodup) : objs.length < h.next := by
  have := length_le_of_subset (l₁ := root :: objs) (l₂ := List.range h.next) hnd (by
    intro x hx
    rw [List.mem_range]
    rcases List.mem_cons.1 hx with e | hx
    · rw [e]; exact wf _ _ hs
    · exact hb.lt wf x hx)
  rw [List.length_range, List.length_cons] at this
  omega

theorem add_tree {N : Nat} (hN : 65 ≤ N) {h : NHeap V} (wf : HeapOK h) {root : Nat} {es : List (Bytes × V)} (ht : IsNameTree h N root es)
    (key : Bytes) (v : V) :
    ∃ h', NTree.add ⟨h, some root⟩ key v = .ok ⟨h', some root⟩ ∧ HeapOK h' ∧ IsNameTree h' N root (SMap.insert key v es) := by
  obtain ⟨n, d, objs, h1, h2, h3, h4, h5⟩ := ht
  rcases h5 with h5 | ⟨h5, h6, h7, h8⟩
  · have hlt := objs_lt wf h1 h5 h4
    obtain ⟨h', r1, n', d', objs', x1, x2, x3, x4, x5, _⟩ := add_root hN key v (f := h.next + 1) (by omega) wf h1 h2 h5.height h3 h4
    refine ⟨h', ?_, x5, n', d', objs', x1, x2, SMap.sorted_insert _ _ _ h3, x3, Or.inl x4⟩
    rw [NTree.add, NTree.create]
    simp only
    rw [r1]
  · subst h7
    obtain ⟨h', r1, n', d', objs', x1, x2, x3, x4, x5, _⟩ := add_empty hN key v (f := h.next) wf h1 h2 h5 h6
    refine ⟨h', ?_, x5, n', d', objs', x1, x2, SMap.sorted_insert _ _ _ h3, x3, Or.inl x4⟩
    rw [NTree.add, NTree.create]
    simp only
    rw [r1]

/-! ### Looking up -/

theorem namesGet_eq (deref : V → Option V) (key : Bytes) (es : List (Bytes × V)) : namesGet deref key es = (SMap.find? key es).bind deref := by
  induction es with
  | nil => rfl
  | cons p r ih =>
    obtain ⟨k, v⟩ := p
    simp only [namesGet, SMap.find?]
    by_cases e : k = key
    · subst e; simp
    · rw [if_neg e, if_neg (Ne.symm e), ih]

theorem find_of_after {es : List (Bytes × V)} {key : Bytes} (h : ∀ e ∈ es, bytesLt e.1 key = true) : SMap.find? key es = none := by
  cases hf : SMap.find? key es with
  | none => rfl
  | some v =>
    have := h _ (SMap.find_mem hf)
    exact absurd rfl (SMap.lt_ne (K := Bytes) this)

theorem get_body {N : Nat} (deref : V → Option V) (h : NHeap V) (key : Bytes) : ∀ (d f : Nat), d < f → ∀ {r : Nat} {n : NNode V} {es : List (Bytes × V)}
    {objs : List Nat}, h.get r = some n → (n.limits = none ∨ n.limits = some (limitsOf es)) → NameBody h N d n es objs → SMap.Sorted es →
    getKeyValue deref h key f r = .ok ((SMap.find? key es).bind deref) := by
  intro d
  induction d with
  | zero =>
    intro f hf r n es objs hr hl hb hs
    obtain ⟨f', rfl⟩ : ∃ f', f = f' + 1 := ⟨f - 1, by omega⟩
    rw [getKeyValue, hr]
    simp only
    have inside : (match n.kids with
        | some ks => firstValue h (getKeyValue deref h key f') ks
        | none =>
          match n.names with
          | none => raise .NoObject
          | some es => .ok (namesGet deref key es)) = .ok ((SMap.find? key es).bind deref) := by
      rw [hb.1]; simp only; rw [hb.2.1]; simp only; rw [namesGet_eq]
    rcases hl with hl | hl
    · rw [checkLimits, hl]; exact inside
    · obtain ⟨m, lim, c1, c2, c3, c4, _, _⟩ := checkLimits_part (q := ⟨r, es, objs⟩) ⟨n, hr, hl, hb⟩ hs key
      have e : m = n := by simp only at c1; rw [hr] at c1; exact (Option.some.inj c1).symm
      subst e
      rw [c2]
      cases lim with
      | before => simp only; rw [SMap.find_none_of_lt (c4 rfl)]; rfl
      | after => simp only; rw [find_of_after (c3 rfl)]; rfl
      | inside => exact inside
  | succ d ih =>
    intro f hf r n es objs hr hl hb hs
    obtain ⟨f', rfl⟩ : ∃ f', f = f' + 1 := ⟨f - 1, by omega⟩
    rw [getKeyValue, hr]
    simp only
    have inside : (match n.kids with
        | some ks => firstValue h (getKeyValue deref h key f') ks
        | none =>
          match n.names with
          | none => raise .NoObject
          | some es => .ok (namesGet deref key es)) = .ok ((SMap.find? key es).bind deref) := by
      rcases hb with hb | ⟨ps, b1, b2, b3, b4, b5, b6, b7⟩
      · rw [hb.1]; simp only; rw [hb.2.1]; simp only; rw [namesGet_eq]
      · rw [b1]
        simp only
        subst b5
        clear b1 b2 b3 b4 b6 hl hr
        induction ps with
        | nil => rfl
        | cons p ps ihp =>
          obtain ⟨m, m1, m2, m3⟩ := b7 p List.mem_cons_self
          rw [entriesOf_cons] at hs
          obtain ⟨s1, s2, s3⟩ := SMap.sorted_append.1 hs
          have hrest := ihp (fun x hx => b7 x (List.mem_cons_of_mem _ hx)) s2
          rw [List.map_cons, firstValue, m1]
          simp only
          rw [ih f' (by omega) m1 (Or.inr m2) m3 s1, entriesOf_cons, SMap.find_append]
          cases hf : SMap.find? key p.entries with
          | none => simpa using hrest
          | some v =>
            have hnone : SMap.find? key (entriesOf ps) = none := SMap.find_none_of_lt (s3 _ (SMap.find_mem hf))
            rw [hnone] at hrest
            simp only [Option.bind_some, Option.some_or]
            cases hd : deref v with
            | none => simpa using hrest
            | some w => rfl
    rcases hl with hl | hl
    · rw [checkLimits, hl]; exact inside
    · obtain ⟨m, lim, c1, c2, c3, c4, _, _⟩ := checkLimits_part (q := ⟨r, es, objs⟩) ⟨n, hr, hl, hb⟩ hs key
      have e : m = n := by simp only at c1; rw [hr] at c1; exact (Option.some.inj c1).symm
      subst e
      rw [c2]
      cases lim with
      | before => simp only; rw [SMap.find_none_of_lt (c4 rfl)]; rfl
      | after => simp only; rw [find_of_after (c3 rfl)]; rfl
      | inside => exact inside

theorem get_tree {N : Nat} (deref : V → Option V) {h : NHeap V} (wf : HeapOK h) {root : Nat} {es : List (Bytes × V)} (ht : IsNameTree h N root es)
    (hne : es ≠ []) (key : Bytes) :
    NTree.getValue deref ⟨h, some root⟩ key = .ok (((SMap.find? key es).bind deref).bind deref) := by
  obtain ⟨n, d, objs, h1, h2, h3, h4, h5⟩ := ht
  rcases h5 with h5 | ⟨_, _, h7, _⟩
  · have hlt := objs_lt wf h1 h5 h4
    rw [NTree.getValue]
    simp only
    rw [get_body deref h key objs.length (h.next + 1) (by omega) h1 (Or.inl h2) h5.height h3]
    cases (SMap.find? key es).bind deref <;> rfl
  · exact absurd h7 hne

end Pdfmm
