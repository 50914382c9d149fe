import Verif.Document.NameTreeProps
/-
Adding a value to a name tree keeps it one.
-/
set_option autoImplicit false
namespace Pdfmm
open Spec

variable {V : Type}

theorem get_set (h : NHeap V) (r : Nat) (n : NNode V) (x : Nat) : (h.set r n).get x = if x = r then some n else h.get x := rfl
theorem get_alloc (h : NHeap V) (n : NNode V) (x : Nat) : (h.alloc n).get x = if x = h.next then some n else h.get x := rfl
theorem next_set (h : NHeap V) (r : Nat) (n : NNode V) : (h.set r n).next = h.next := rfl
theorem next_alloc (h : NHeap V) (n : NNode V) : (h.alloc n).next = h.next + 1 := rfl

theorem Spec.HeapOK.set {h : NHeap V} (wf : HeapOK h) {r : Nat} (hr : r < h.next) (n : NNode V) : HeapOK (h.set r n) := by
  intro x m hx
  rw [get_set] at hx
  rw [next_set]
  split at hx
  · omega
  · exact wf x m hx

theorem Spec.HeapOK.alloc {h : NHeap V} (wf : HeapOK h) (n : NNode V) : HeapOK (h.alloc n) := by
  intro x m hx
  rw [get_alloc] at hx
  rw [next_alloc]
  split at hx
  · omega
  · have := wf x m hx; omega

theorem Spec.NameBody.lt {h : NHeap V} {N : Nat} (wf : HeapOK h) {d : Nat} : ∀ {n : NNode V} {es : List (Bytes × V)} {objs : List Nat},
    NameBody h N d n es objs → ∀ r ∈ objs, r < h.next := by
  induction d with
  | zero => intro n es objs hb r hr; rw [hb.2.2.2.2] at hr; cases hr
  | succ d ih =>
    intro n es objs hb r hr
    rcases hb with hb | ⟨ps, _, _, _, _, _, h8, h9⟩
    · rw [hb.2.2.2.2] at hr; cases hr
    · rw [h8] at hr
      obtain ⟨p, hp, hr⟩ := List.mem_flatMap.1 hr
      obtain ⟨m, m1, _, m3⟩ := h9 p hp
      rcases List.mem_cons.1 hr with e | e
      · rw [e]; exact wf _ _ m1
      · exact ih m3 r e

theorem PartOK.lt {h : NHeap V} {N d : Nat} (wf : HeapOK h) {p : NPart V} (hp : PartOK h N d p) : ∀ r ∈ p.ref :: p.objs, r < h.next := by
  obtain ⟨m, m1, _, m3⟩ := hp
  intro r hr
  rcases List.mem_cons.1 hr with e | e
  · rw [e]; exact wf _ _ m1
  · exact m3.lt wf r e

theorem parts_lt {h : NHeap V} {N d : Nat} (wf : HeapOK h) {ps : List (NPart V)} (hp : ∀ p ∈ ps, PartOK h N d p) : ∀ r ∈ refsOf ps, r < h.next := by
  intro r hr
  obtain ⟨p, hpm, hr⟩ := List.mem_flatMap.1 hr
  exact (hp p hpm).lt wf r hr

theorem setLimitsOf_body {h : NHeap V} {N d r : Nat} {n : NNode V} {es : List (Bytes × V)} {objs : List Nat} (hr : h.get r = some n)
    (hb : NameBody h N d n es objs) : setLimitsOf h r = .ok (h.set r { n with limits := some (limitsOf es) }) := by
  rw [setLimitsOf, hr]
  simp only
  rw [setLimits, hr]
  simp only
  rw [limitsFor_body hb]
  rfl

/-! ### The surroundings of a node -/

/-- A node with the number `me` and the nodes `M` below it (and itself) is a kid of the node `p`, between those of `L` and `R`. -/
structure Ctx (h : NHeap V) (N d p : Nat) (pn : NNode V) (L R : List (NPart V)) (me : Nat) (M : List Nat) : Prop where
  hp : h.get p = some pn
  hk : pn.kids = some (L.map (·.ref) ++ me :: R.map (·.ref))
  ok : ∀ x ∈ L ++ R, PartOK h N d x
  nd : (p :: (refsOf L ++ refsOf R)).Nodup
  wf : HeapOK h
  ndM : M.Nodup
  dis : ∀ r ∈ M, r ∉ p :: (refsOf L ++ refsOf R)

/-- After adding: in place of the node there are the nodes `qs`. -/
structure Post (h : NHeap V) (N d p : Nat) (pn : NNode V) (pp : Bool) (L R : List (NPart V)) (M : List Nat) (es : List (Bytes × V))
    (h' : NHeap V) (qs : List (NPart V)) (pn' : NNode V) : Prop where
  ne : qs ≠ []
  two : qs.length ≤ 2
  hp : h'.get p = some pn'
  hk : pn'.kids = some ((L ++ qs ++ R).map (·.ref))
  hn : pn'.names = pn.names
  hl : pn'.limits = pn.limits ∨ (pp = true ∧ pn'.limits = some (limitsOf (entriesOf (L ++ qs ++ R))))
  ok : ∀ x ∈ L ++ qs ++ R, PartOK h' N d x
  es : entriesOf qs = es
  nd : (refsOf qs).Nodup
  new : ∀ r ∈ refsOf qs, r ∈ M ∨ h.next ≤ r
  wf : HeapOK h'
  next : h.next ≤ h'.next
  frame : ∀ r, r < h.next → r ≠ p → r ∉ M → h'.get r = h.get r

theorem insertAfter_middle (self c2 : Nat) (l r : List Nat) (h : self ∉ l) :
    insertAfter self c2 (l ++ self :: r) = some (l ++ self :: c2 :: r) := by
  induction l with
  | nil => simp [insertAfter]
  | cons x l ih =>
    have h1 : x ≠ self := fun e => h (by rw [e]; exact List.mem_cons_self)
    simp only [List.cons_append, insertAfter]
    rw [if_neg h1, ih (fun hm => h (List.mem_cons_of_mem _ hm))]
    rfl

theorem refs_mem_refsOf {ps : List (NPart V)} {r : Nat} (h : r ∈ ps.map (·.ref)) : r ∈ refsOf ps := by
  obtain ⟨p, hp, e⟩ := List.mem_map.1 h
  rw [← e]; exact (mem_refsOf hp).1

theorem splitChild_post {h : NHeap V} {N d p : Nat} {pn : NNode V} {pp : Bool} {L R : List (NPart V)} {self : Nat} {o1 o2 : List Nat}
    (c : Ctx h N d p pn L R self (self :: (o1 ++ o2))) {n a b : NNode V} {es1 es2 : List (Bytes × V)} (hs : h.get self = some n)
    (hb1 : NameBody h N d (n.put a) es1 o1) (hb2 : NameBody h N d b es2 o2) {hasKids : Bool} (hkk : hasKids = (n.put a).kids.isSome) :
    ∃ h' qs pn', splitChild h p pp self hasKids n a b = .ok h' ∧ Post h N d p pn pp L R (self :: (o1 ++ o2)) (es1 ++ es2) h' qs pn' := by
  have hps : p < h.next := c.wf _ _ c.hp
  have hss : self < h.next := c.wf _ _ hs
  have hself := c.dis self List.mem_cons_self
  have hsp : self ≠ p := fun e => hself (by rw [e]; exact List.mem_cons_self)
  have hsLR : self ∉ refsOf L ++ refsOf R := fun e => hself (List.mem_cons_of_mem _ e)
  have hpLR : p ∉ refsOf L ++ refsOf R := (List.nodup_cons.1 c.nd).1
  have ho1 : ∀ r ∈ o1, r ≠ self ∧ r ≠ h.next ∧ r ≠ p := by
    intro r hr
    refine ⟨?_, ?_, ?_⟩
    · intro e; exact (List.nodup_cons.1 c.ndM).1 (by rw [← e]; exact List.mem_append_left _ hr)
    · have := hb1.lt c.wf r hr; omega
    · intro e; exact c.dis r (List.mem_cons_of_mem _ (List.mem_append_left _ hr)) (by rw [e]; exact List.mem_cons_self)
  have ho2 : ∀ r ∈ o2, r ≠ self ∧ r ≠ h.next ∧ r ≠ p := by
    intro r hr
    refine ⟨?_, ?_, ?_⟩
    · intro e; exact (List.nodup_cons.1 c.ndM).1 (by rw [← e]; exact List.mem_append_right _ hr)
    · have := hb2.lt c.wf r hr; omega
    · intro e; exact c.dis r (List.mem_cons_of_mem _ (List.mem_append_right _ hr)) (by rw [e]; exact List.mem_cons_self)
  have hnds : (o1 ++ o2).Nodup := (List.nodup_cons.1 c.ndM).2
  have hins : insertAfter self h.next (L.map (·.ref) ++ self :: R.map (·.ref)) = some (L.map (·.ref) ++ self :: h.next :: R.map (·.ref)) :=
    insertAfter_middle _ _ _ _ (fun hm => hsLR (List.mem_append_left _ (refs_mem_refsOf hm)))
  -- the nodes
  obtain ⟨pn2, hpn2⟩ : ∃ x : NNode V, x = { pn with kids := some (L.map (·.ref) ++ self :: h.next :: R.map (·.ref)) } := ⟨_, rfl⟩
  obtain ⟨m1, hm1⟩ : ∃ x : NNode V, x = { n.put a with limits := some (limitsOf es1) } := ⟨_, rfl⟩
  obtain ⟨m2, hm2⟩ : ∃ x : NNode V, x = { b with limits := some (limitsOf es2) } := ⟨_, rfl⟩
  obtain ⟨q1, hq1⟩ : ∃ x : NPart V, x = ⟨self, es1, o1⟩ := ⟨_, rfl⟩
  obtain ⟨q2, hq2⟩ : ∃ x : NPart V, x = ⟨h.next, es2, o2⟩ := ⟨_, rfl⟩
  have key : ∀ k : NHeap V, k.get self = some m1 → k.get h.next = some m2 → (∀ r, r ≠ self → r ≠ h.next → r ≠ p → k.get r = h.get r) →
      ∀ x ∈ L ++ [q1, q2] ++ R, PartOK k N d x := by
    intro k k1 k2 k3 x hx
    have hLR : x ∈ L ++ R → PartOK k N d x := by
      intro hx
      refine (c.ok x hx).congr ?_
      intro r hr
      have hm : r ∈ refsOf L ++ refsOf R := by
        rw [← refsOf_append]
        rcases List.mem_cons.1 hr with e | e
        · rw [e]; exact (mem_refsOf hx).1
        · exact (mem_refsOf hx).2 r e
      refine k3 r (fun e => hsLR (e ▸ hm)) ?_ (fun e => hpLR (e ▸ hm))
      have := (c.ok x hx).lt c.wf r hr; omega
    rcases List.mem_append.1 hx with hx | hx
    · rcases List.mem_append.1 hx with hx | hx
      · exact hLR (List.mem_append_left _ hx)
      · rcases List.mem_cons.1 hx with e | hx
        · subst e; subst hq1
          refine ⟨m1, k1, by rw [hm1], hb1.congr (by rw [hm1]) (by rw [hm1]) ?_⟩
          intro r hr
          obtain ⟨a1, a2, a3⟩ := ho1 r hr
          exact k3 r a1 a2 a3
        · rw [List.mem_singleton] at hx
          subst hx; subst hq2
          refine ⟨m2, k2, by rw [hm2], hb2.congr (by rw [hm2]) (by rw [hm2]) ?_⟩
          intro r hr
          obtain ⟨a1, a2, a3⟩ := ho2 r hr
          exact k3 r a1 a2 a3
    · exact hLR (List.mem_append_right _ hx)
  have hmap : (L ++ [q1, q2] ++ R).map (·.ref) = L.map (·.ref) ++ self :: h.next :: R.map (·.ref) := by
    rw [hq1, hq2]; simp
  have hes : entriesOf [q1, q2] = es1 ++ es2 := by
    rw [entriesOf_cons, entriesOf_cons, entriesOf_nil, hq1, hq2, List.append_nil]
  have hrefs : refsOf [q1, q2] = self :: (o1 ++ h.next :: o2) := by
    rw [refsOf_cons, refsOf_cons, refsOf_nil, hq1, hq2, List.append_nil]
  have hnd : (refsOf [q1, q2]).Nodup := by
    rw [hrefs]
    rw [List.nodup_cons]
    rw [List.nodup_append] at hnds ⊢
    obtain ⟨n1, n2, n3⟩ := hnds
    refine ⟨?_, n1, ?_, ?_⟩
    · intro hm
      rcases List.mem_append.1 hm with hm | hm
      · exact (ho1 self hm).1 rfl
      · rcases List.mem_cons.1 hm with e | hm
        · omega
        · exact (ho2 self hm).1 rfl
    · exact List.nodup_cons.2 ⟨fun hm => (ho2 _ hm).2.1 rfl, n2⟩
    · intro x hx y hy
      rcases List.mem_cons.1 hy with e | hy
      · rw [e]; exact (ho1 x hx).2.1
      · exact n3 x hx y hy
  have hnew : ∀ r ∈ refsOf [q1, q2], r ∈ self :: (o1 ++ o2) ∨ h.next ≤ r := by
    intro r hr
    rw [hrefs] at hr
    rcases List.mem_cons.1 hr with e | hr
    · exact Or.inl (by rw [e]; exact List.mem_cons_self)
    · rcases List.mem_append.1 hr with hr | hr
      · exact Or.inl (List.mem_cons_of_mem _ (List.mem_append_left _ hr))
      · rcases List.mem_cons.1 hr with e | hr
        · exact Or.inr (by omega)
        · exact Or.inl (List.mem_cons_of_mem _ (List.mem_append_right _ hr))
  -- the heaps
  obtain ⟨h2, hh2⟩ : ∃ x : NHeap V, x = ((h.set self (n.put a)).alloc b).set p pn2 := ⟨_, rfl⟩
  have g2 : ∀ r, h2.get r = if r = p then some pn2 else if r = h.next then some b else if r = self then some (n.put a) else h.get r := by
    intro r; rw [hh2]; rfl
  have n2 : h2.next = h.next + 1 := by rw [hh2]; rfl
  have w2 : HeapOK h2 := by
    rw [hh2]
    exact (((c.wf.set hss _).alloc _).set (by rw [next_alloc, next_set]; omega) _)
  have s3 : setLimitsOf h2 self = .ok (h2.set self m1) := by
    rw [hm1]
    refine setLimitsOf_body (N := N) (d := d) (objs := o1) ?_ (hb1.congr rfl rfl ?_)
    · rw [g2, if_neg hsp, if_neg (by omega), if_pos rfl]
    · intro r hr
      obtain ⟨a1, a2, a3⟩ := ho1 r hr
      rw [g2, if_neg a3, if_neg a2, if_neg a1]
  have s4 : setLimitsOf (h2.set self m1) h.next = .ok ((h2.set self m1).set h.next m2) := by
    rw [hm2]
    refine setLimitsOf_body (N := N) (d := d) (objs := o2) ?_ (hb2.congr rfl rfl ?_)
    · rw [get_set, if_neg (by omega), g2, if_neg (by omega), if_pos rfl]
    · intro r hr
      obtain ⟨a1, a2, a3⟩ := ho2 r hr
      rw [get_set, if_neg a1, g2, if_neg a3, if_neg a2, if_neg a1]
  obtain ⟨h4, hh4⟩ : ∃ x : NHeap V, x = (h2.set self m1).set h.next m2 := ⟨_, rfl⟩
  have w4 : HeapOK h4 := by
    rw [hh4]
    exact (w2.set (by omega) _).set (by rw [next_set]; omega) _
  have g4s : h4.get self = some m1 := by rw [hh4, get_set, if_neg (by omega), get_set, if_pos rfl]
  have g4c : h4.get h.next = some m2 := by rw [hh4, get_set, if_pos rfl]
  have g4p : h4.get p = some pn2 := by rw [hh4, get_set, if_neg (by omega), get_set, if_neg (Ne.symm hsp), g2, if_pos rfl]
  have g4o : ∀ r, r ≠ self → r ≠ h.next → r ≠ p → h4.get r = h.get r := by
    intro r a1 a2 a3
    rw [hh4, get_set, if_neg a2, get_set, if_neg a1, g2, if_neg a3, if_neg a2, if_neg a1]
  have n4 : h4.next = h.next + 1 := by rw [hh4]; exact n2
  have hrun : splitChild h p pp self hasKids n a b = if hasKids then setLimits h4 self true true else setLimits h4 p true pp := by
    rw [splitChild, c.hp]
    simp only
    rw [c.hk]
    simp only [hins, Option.getD_some]
    rw [← hpn2, ← hh2, s3]
    simp only
    rw [s4, ← hh4]
  have ok4 := key h4 g4s g4c g4o
  have hpk : pn2.kids = some ((L ++ [q1, q2] ++ R).map (·.ref)) := by rw [hpn2, hmap]
  have hfr : ∀ k : NHeap V, (∀ r, r ≠ self → r ≠ h.next → r ≠ p → k.get r = h.get r) → ∀ r, r < h.next → r ≠ p → r ∉ self :: (o1 ++ o2) → k.get r = h.get r := by
    intro k hk r r1 r2 r3
    exact hk r (fun e => r3 (by rw [e]; exact List.mem_cons_self)) (by omega) r2
  cases hasKids with
  | true =>
    have hs5 : setLimits h4 self true true = .ok (h4.set self m1) := by
      rw [setLimits, g4s]
      simp only
      have : limitsFor h4 m1 true = .ok (limitsOf es1) := by
        have hb := hb1.congr (h' := h4) (n' := m1) (by rw [hm1]) (by rw [hm1]) (fun r hr => by
          obtain ⟨a1, a2, a3⟩ := ho1 r hr
          exact g4o r a1 a2 a3)
        have := limitsFor_body hb
        have hkm : m1.kids.isSome = true := by rw [hm1]; exact hkk.symm
        rw [hkm] at this; exact this
      rw [this]
      simp only [if_true]
      rw [hm1]
    refine ⟨h4.set self m1, [q1, q2], pn2, by rw [hrun, if_pos rfl, hs5], ?_⟩
    have g5o : ∀ r, r ≠ self → r ≠ h.next → r ≠ p → (h4.set self m1).get r = h.get r := by
      intro r a1 a2 a3; rw [get_set, if_neg a1]; exact g4o r a1 a2 a3
    exact
      { ne := by simp
        two := by simp
        hp := by rw [get_set, if_neg (Ne.symm hsp)]; exact g4p
        hk := hpk
        hn := by rw [hpn2]
        hl := Or.inl (by rw [hpn2])
        ok := key _ (by rw [get_set, if_pos rfl]) (by rw [get_set, if_neg (by omega)]; exact g4c) g5o
        es := hes
        nd := hnd
        new := hnew
        wf := w4.set (by omega) _
        next := by rw [next_set]; omega
        frame := hfr _ g5o }
  | false =>
    have hlim : limitsFor h4 pn2 true = .ok (limitsOf (entriesOf (L ++ [q1, q2] ++ R))) := limitsFor_kids hpk (by simp) ok4
    have hs5 : setLimits h4 p true pp = .ok (if pp then h4.set p { pn2 with limits := some (limitsOf (entriesOf (L ++ [q1, q2] ++ R))) } else h4) := by
      rw [setLimits, g4p]
      simp only
      rw [hlim]
    cases pp with
    | true =>
      refine ⟨_, [q1, q2], { pn2 with limits := some (limitsOf (entriesOf (L ++ [q1, q2] ++ R))) }, by rw [hrun, if_neg (by simp), hs5, if_pos rfl], ?_⟩
      have g5o : ∀ r, r ≠ self → r ≠ h.next → r ≠ p → (h4.set p { pn2 with limits := some (limitsOf (entriesOf (L ++ [q1, q2] ++ R))) }).get r = h.get r := by
        intro r a1 a2 a3; rw [get_set, if_neg a3]; exact g4o r a1 a2 a3
      exact
        { ne := by simp
          two := by simp
          hp := by rw [get_set, if_pos rfl]
          hk := hpk
          hn := by rw [hpn2]
          hl := Or.inr ⟨rfl, rfl⟩
          ok := key _ (by rw [get_set, if_neg hsp]; exact g4s) (by rw [get_set, if_neg (by omega)]; exact g4c) g5o
          es := hes
          nd := hnd
          new := hnew
          wf := w4.set (by omega) _
          next := by rw [next_set]; omega
          frame := hfr _ g5o }
    | false =>
      refine ⟨h4, [q1, q2], pn2, by rw [hrun, if_neg (by simp), hs5, if_neg (by simp)], ?_⟩
      exact
        { ne := by simp
          two := by simp
          hp := g4p
          hk := hpk
          hn := by rw [hpn2]
          hl := Or.inl (by rw [hpn2])
          ok := ok4
          es := hes
          nd := hnd
          new := hnew
          wf := w4
          next := by omega
          frame := hfr _ g4o }

/-- When nothing is split. -/
theorem keep_post {h : NHeap V} {N d p : Nat} {pn : NNode V} {pp : Bool} {L R : List (NPart V)} {self : Nat} {o : List Nat}
    (c : Ctx h N d p pn L R self (self :: o)) {n : NNode V} {es : List (Bytes × V)} (hs : h.get self = some n)
    (hl : n.limits = some (limitsOf es)) (hb : NameBody h N d n es o) :
    Post h N d p pn pp L R (self :: o) es h [⟨self, es, o⟩] pn where
  ne := by simp
  two := by simp
  hp := c.hp
  hk := by rw [c.hk]; simp
  hn := rfl
  hl := Or.inl rfl
  ok := by
    intro x hx
    rcases List.mem_append.1 hx with hx | hx
    · rcases List.mem_append.1 hx with hx | hx
      · exact c.ok x (List.mem_append_left _ hx)
      · rw [List.mem_singleton] at hx; subst hx; exact ⟨n, hs, hl, hb⟩
    · exact c.ok x (List.mem_append_right _ hx)
  es := by rw [entriesOf_cons, entriesOf_nil, List.append_nil]
  nd := by rw [refsOf_cons, refsOf_nil, List.append_nil]; exact c.ndM
  new := by intro r hr; rw [refsOf_cons, refsOf_nil, List.append_nil] at hr; exact Or.inl hr
  wf := c.wf
  next := Nat.le_refl _
  frame := fun _ _ _ _ => rfl

theorem rebalance_leaf {h : NHeap V} {N d p : Nat} (hN : 65 ≤ N) {pn : NNode V} {pp : Bool} {L R : List (NPart V)} {self : Nat}
    (c : Ctx h N d p pn L R self [self]) {n : NNode V} {es : List (Bytes × V)} (hs : h.get self = some n) (h1 : n.kids = none)
    (h2 : n.names = some es) (h3 : es ≠ []) (h4 : es.length ≤ N + 1) (h5 : n.limits = some (limitsOf es)) :
    ∃ h' qs pn', rebalance h (some (p, pp)) self false = .ok h' ∧ Post h N d p pn pp L R [self] es h' qs pn' := by
  rw [rebalance, hs]
  simp only [halves, Bool.false_eq_true, if_false]
  rw [h2]
  simp only
  by_cases hlen : 2 * es.length > 130
  · rw [if_pos hlen]
    simp only
    have e : es.take 33 ++ es.drop 33 = es := List.take_append_drop 33 es
    have b1 : NameBody h N d (n.put { names := some (es.take 33) }) (es.take 33) [] := by
      refine body_leaf ⟨by simp [NNode.put, h1], by simp [NNode.put], ?_, by rw [List.length_take]; omega, rfl⟩
      intro e; have := congrArg List.length e; rw [List.length_take, List.length_nil] at this; omega
    have b2 : NameBody h N d { names := some (es.drop 33) } (es.drop 33) [] := by
      refine body_leaf ⟨rfl, rfl, ?_, by rw [List.length_drop]; omega, rfl⟩
      intro e; have := congrArg List.length e; rw [List.length_drop, List.length_nil] at this; omega
    have := splitChild_post (pp := pp) (hasKids := false) (o1 := []) (o2 := []) c hs b1 b2 (by simp [NNode.put, h1])
    rw [e] at this
    exact this
  · rw [if_neg hlen]
    exact ⟨h, _, pn, rfl, keep_post c hs h5 (body_leaf ⟨h1, h2, h3, by omega, rfl⟩)⟩

theorem rebalance_node {h : NHeap V} {N d p : Nat} (hN : 65 ≤ N) {pn : NNode V} {pp : Bool} {L R : List (NPart V)} {self : Nat} {ps : List (NPart V)}
    (c : Ctx h N (d + 1) p pn L R self (self :: refsOf ps)) {n : NNode V} (hs : h.get self = some n) (h1 : n.kids = some (ps.map (·.ref)))
    (h2 : n.names = none) (h3 : ps ≠ []) (h4 : ps.length ≤ N + 1) (h5 : n.limits = some (limitsOf (entriesOf ps))) (h6 : ∀ x ∈ ps, PartOK h N d x) :
    ∃ h' qs pn', rebalance h (some (p, pp)) self true = .ok h' ∧ Post h N (d + 1) p pn pp L R (self :: refsOf ps) (entriesOf ps) h' qs pn' := by
  rw [rebalance, hs]
  simp only [halves, if_true]
  rw [h1]
  simp only [List.length_map]
  by_cases hlen : ps.length > 65
  · rw [if_pos hlen]
    simp only
    have e : ps.take 33 ++ ps.drop 33 = ps := List.take_append_drop 33 ps
    have e1 : entriesOf (ps.take 33) ++ entriesOf (ps.drop 33) = entriesOf ps := by rw [← entriesOf_append, e]
    have e2 : refsOf (ps.take 33) ++ refsOf (ps.drop 33) = refsOf ps := by rw [← refsOf_append, e]
    have b1 : NameBody h N (d + 1) (n.put { kids := some ((ps.map (·.ref)).take 33) }) (entriesOf (ps.take 33)) (refsOf (ps.take 33)) := by
      refine body_node (by simp [NNode.put, List.map_take]) (by simp [NNode.put, h2]) ?_ (by rw [List.length_take]; omega)
        (fun x hx => h6 x (List.mem_of_mem_take hx))
      intro e; have := congrArg List.length e; rw [List.length_take, List.length_nil] at this; omega
    have b2 : NameBody h N (d + 1) { kids := some ((ps.map (·.ref)).drop 33) } (entriesOf (ps.drop 33)) (refsOf (ps.drop 33)) := by
      refine body_node (by simp [List.map_drop]) rfl ?_ (by rw [List.length_drop]; omega)
        (fun x hx => h6 x (List.mem_of_mem_drop hx))
      intro e; have := congrArg List.length e; rw [List.length_drop, List.length_nil] at this; omega
    rw [← e2] at c
    have := splitChild_post (pp := pp) (hasKids := true) c hs b1 b2 (by simp [NNode.put])
    rw [e1, e2] at this
    exact this
  · rw [if_neg hlen]
    exact ⟨h, _, pn, rfl, keep_post c hs h5 (body_node h1 h2 h3 (by omega) h6)⟩

/-! ### The child to add to -/

theorem keyLt_trans {a b c : Bytes} (h1 : bytesLt a b = true) (h2 : bytesLt b c = true) : bytesLt a c = true :=
  StrictOrd.trans (K := List UInt8) a b c h1 h2

theorem sorted_middle {L : List (NPart V)} {q : NPart V} {R : List (NPart V)} (hs : SMap.Sorted (entriesOf (L ++ q :: R))) :
    SMap.Sorted q.entries ∧ (∀ x ∈ q.entries, ∀ y ∈ entriesOf R, bytesLt x.1 y.1 = true) := by
  rw [entriesOf_append, entriesOf_cons] at hs
  have h1 := (SMap.sorted_append.1 hs).2.1
  have h2 := SMap.sorted_append.1 h1
  exact ⟨h2.1, h2.2.2⟩

/-- The child has the key between its limits. -/
def Between (es : List (Bytes × V)) (key : Bytes) : Prop :=
  ∃ a b, es.head? = some a ∧ es.getLast? = some b ∧ ¬ bytesLt key a.1 = true ∧ ¬ bytesLt b.1 key = true

/-- Where a key goes. -/
def Place (key : Bytes) (ps L : List (NPart V)) (q : NPart V) (R : List (NPart V)) : Prop :=
  ps = L ++ q :: R ∧ (∀ e ∈ entriesOf L, bytesLt e.1 key = true) ∧ (∀ e ∈ entriesOf R, bytesLt key e.1 = true)

theorem checkLimits_part {h : NHeap V} {N d : Nat} {q : NPart V} (hq : PartOK h N d q) (hs : SMap.Sorted q.entries) (key : Bytes) :
    ∃ m lim, h.get q.ref = some m ∧ checkLimits m key = .ok lim ∧
      (lim = .after → ∀ e ∈ q.entries, bytesLt e.1 key = true) ∧
      (lim = .before → ∀ e ∈ q.entries, bytesLt key e.1 = true) ∧
      (lim ≠ .after → ∀ b, q.entries.getLast? = some b → ¬ bytesLt b.1 key = true) ∧
      (lim = .inside → Between q.entries key) := by
  obtain ⟨m, m1, m2, m3⟩ := hq
  obtain ⟨a, b, ha, hb⟩ := ends_of_ne m3.ne_nil
  have hc : checkLimits m key = .ok (if bytesLt key a.1 then .before else if bytesLt b.1 key then .after else .inside) := by
    rw [checkLimits, m2, limitsOf_eq ha hb]
    simp only [List.getElem?_cons_zero, List.getElem?_cons_succ]
    split
    · rfl
    · split <;> rfl
  refine ⟨m, _, m1, hc, ?_, ?_, ?_, ?_⟩
  · intro hl e he
    split at hl
    · cases hl
    · split at hl
      · rename_i hlt
        rcases last_greatest hs hb e he with h1 | h1
        · rw [h1]; exact hlt
        · exact keyLt_trans h1 hlt
      · cases hl
  · intro hl e he
    split at hl
    · rename_i hlt
      rcases head_least hs ha e he with h1 | h1
      · rw [h1]; exact hlt
      · exact keyLt_trans hlt h1
    · split at hl <;> cases hl
  · intro hl b' hb' hlt
    rw [hb] at hb'; cases hb'
    split at hl
    · rename_i hlt2
      have hmem := List.mem_of_getLast? hb
      have : bytesLt key b.1 = true := by
        rcases head_least hs ha b hmem with h1 | h1
        · rw [h1]; exact hlt2
        · exact keyLt_trans hlt2 h1
      have h3 := SMap.lt_asymm (K := Bytes) this
      rw [show StrictOrd.lt b.1 key = bytesLt b.1 key from rfl, hlt] at h3
      cases h3
    · exact hl rfl
  · intro hl
    split at hl
    · cases hl
    · split at hl
      · cases hl
      · exact ⟨a, b, ha, hb, by assumption, by assumption⟩

theorem not_lt_place {q : List (Bytes × V)} (hq : q ≠ []) {key : Bytes} (h : ∀ b, q.getLast? = some b → ¬ bytesLt b.1 key = true) {y : Bytes}
    (hy : ∀ x ∈ q, bytesLt x.1 y = true) : bytesLt key y = true := by
  obtain ⟨a, b, _, hb⟩ := ends_of_ne hq
  have h1 := h b hb
  have h2 := hy b (List.mem_of_getLast? hb)
  by_cases e : key = b.1
  · rw [e]; exact h2
  · rcases StrictOrd.total (K := Bytes) key b.1 e with h3 | h3
    · exact keyLt_trans h3 h2
    · exact absurd h3 h1

theorem pick_spec {h : NHeap V} {N d : Nat} (key : Bytes) (ps : List (NPart V)) (hp : ∀ p ∈ ps, PartOK h N d p) (hs : SMap.Sorted (entriesOf ps)) :
    (∃ L q R lim, pickChild h key (ps.map (·.ref)) = .ok (some (q.ref, lim)) ∧ Place key ps L q R ∧ (lim = .inside → Between q.entries key)) ∨
    (pickChild h key (ps.map (·.ref)) = .ok none ∧ ∀ e ∈ entriesOf ps, bytesLt e.1 key = true) := by
  induction ps with
  | nil => exact Or.inr ⟨rfl, by intro e he; cases he⟩
  | cons q r ih =>
    have hq := hp q List.mem_cons_self
    obtain ⟨s1, s2⟩ := sorted_middle (L := []) (q := q) (R := r) hs
    obtain ⟨m, lim, m1, m2, m3, m4, m5, m6⟩ := checkLimits_part hq s1 key
    have hstep : pickChild h key ((q :: r).map (·.ref)) = if lim = .after then pickChild h key (r.map (·.ref)) else .ok (some (q.ref, lim)) := by
      clear m3 m4 m5 m6
      rw [List.map_cons, pickChild, m1]
      simp only
      rw [m2]
      cases lim <;> rfl
    have here : lim ≠ .after → Place key (q :: r) [] q r := by
      intro hl
      refine ⟨rfl, (by intro e he; cases he), ?_⟩
      intro e he
      exact not_lt_place hq.ne_nil (m5 hl) (fun x hx => s2 x hx e he)
    cases lim with
    | before => exact Or.inl ⟨[], q, r, .before, hstep, here (by simp), by intro hh; cases hh⟩
    | inside => exact Or.inl ⟨[], q, r, .inside, hstep, here (by simp), m6⟩
    | after =>
      have ha := m3 rfl
      have hr : SMap.Sorted (entriesOf r) := by
        rw [entriesOf_cons] at hs; exact (SMap.sorted_append.1 hs).2.1
      rcases ih (fun p hpm => hp p (List.mem_cons_of_mem _ hpm)) hr with ⟨L, x, R, lim, h1, ⟨h2, h3, h4⟩, h5⟩ | ⟨h1, h2⟩
      · refine Or.inl ⟨q :: L, x, R, lim, by rw [hstep]; exact h1, ⟨by rw [h2]; rfl, ?_, h4⟩, h5⟩
        intro e he
        rw [entriesOf_cons] at he
        rcases List.mem_append.1 he with he | he
        · exact ha e he
        · exact h3 e he
      · refine Or.inr ⟨by rw [hstep]; exact h1, ?_⟩
        intro e he
        rw [entriesOf_cons] at he
        rcases List.mem_append.1 he with he | he
        · exact ha e he
        · exact h2 e he

theorem pickOrLast_spec {h : NHeap V} {N d : Nat} (key : Bytes) (ps : List (NPart V)) (hne : ps ≠ []) (hp : ∀ p ∈ ps, PartOK h N d p)
    (hs : SMap.Sorted (entriesOf ps)) :
    ∃ L q R lim, pickOrLast h key (ps.map (·.ref)) = .ok (q.ref, lim) ∧ Place key ps L q R ∧ (lim = .inside → Between q.entries key) := by
  rcases pick_spec key ps hp hs with ⟨L, q, R, lim, h1, h2, h3⟩ | ⟨h1, h2⟩
  · exact ⟨L, q, R, lim, by rw [pickOrLast, h1], h2, h3⟩
  · obtain ⟨q, hq⟩ : ∃ q, ps.getLast? = some q := ⟨_, List.getLast?_eq_some_getLast hne⟩
    obtain ⟨L, hL⟩ := List.getLast?_eq_some_iff.1 hq
    obtain ⟨m, m1, _⟩ := hp q (List.mem_of_getLast? hq)
    refine ⟨L, q, [], .after, ?_, ⟨by rw [hL], ?_, by intro e he; cases he⟩, by intro hh; cases hh⟩
    · rw [pickOrLast, h1]
      simp only [List.getLast?_map, hq, Option.map_some]
      rw [m1]
    · intro e he
      refine h2 e ?_
      rw [hL, entriesOf_append]
      exact List.mem_append_left _ he

theorem place_insert {key : Bytes} {ps L : List (NPart V)} {q : NPart V} {R : List (NPart V)} (h : Place key ps L q R) (v : V) :
    SMap.insert key v (entriesOf ps) = entriesOf L ++ SMap.insert key v q.entries ++ entriesOf R := by
  obtain ⟨h1, h2, h3⟩ := h
  rw [h1, entriesOf_append, entriesOf_cons, insert_after _ _ _ _ h2, insert_before _ _ _ _ h3, List.append_assoc]

theorem place_limits {h : NHeap V} {N d : Nat} {key : Bytes} {ps L : List (NPart V)} {q : NPart V} {R : List (NPart V)} (hpl : Place key ps L q R)
    (hp : ∀ p ∈ ps, PartOK h N d p) (hs : SMap.Sorted (entriesOf ps)) (hb : Between q.entries key) (v : V) :
    limitsOf (SMap.insert key v (entriesOf ps)) = limitsOf (entriesOf ps) := by
  obtain ⟨h1, h2, h3⟩ := hpl
  obtain ⟨a, b, ha, hb, hka, hkb⟩ := hb
  have hne : entriesOf ps ≠ [] := by
    rw [h1, entriesOf_append, entriesOf_cons]
    intro e
    have := (List.append_eq_nil_iff.1 (List.append_eq_nil_iff.1 e).2).1
    rw [this] at ha; cases ha
  obtain ⟨x, y, hx, hy⟩ := ends_of_ne hne
  have ham : a ∈ entriesOf ps := by
    rw [h1, entriesOf_append, entriesOf_cons]
    exact List.mem_append_right _ (List.mem_append_left _ (List.mem_of_mem_head? ha))
  have hbm : b ∈ entriesOf ps := by
    rw [h1, entriesOf_append, entriesOf_cons]
    exact List.mem_append_right _ (List.mem_append_left _ (List.mem_of_getLast? hb))
  refine limitsOf_insert hs key v hx hy ?_ ?_
  · intro hlt
    refine hka ?_
    rcases head_least hs hx a ham with e | e
    · rw [e]; exact hlt
    · exact keyLt_trans hlt e
  · intro hlt
    refine hkb ?_
    rcases last_greatest hs hy b hbm with e | e
    · rw [e]; exact hlt
    · exact keyLt_trans e hlt

/-! ### Below the root -/

theorem Post.from {h0 h : NHeap V} {N d p : Nat} {pn : NNode V} {pp : Bool} {L R : List (NPart V)} {M : List Nat} {es : List (Bytes × V)}
    {h' : NHeap V} {qs : List (NPart V)} {pn' : NNode V} (P : Post h0 N d p pn pp L R M es h' qs pn') (hn : h0.next = h.next)
    (hg : ∀ r, r ∉ M → h0.get r = h.get r) : Post h N d p pn pp L R M es h' qs pn' :=
  { P with
    new := by rw [← hn]; exact P.new
    next := by rw [← hn]; exact P.next
    frame := by
      intro r r1 r2 r3
      rw [← hg r r3]
      exact P.frame r (by rw [hn]; exact r1) r2 r3 }

/-- The surroundings are the same in a heap that differs only inside. -/
theorem Ctx.change {h h2 : NHeap V} {N d p : Nat} {pn : NNode V} {L R : List (NPart V)} {me : Nat} {M M2 : List Nat} (c : Ctx h N d p pn L R me M)
    (hw : HeapOK h2) (hg : ∀ r ∈ p :: (refsOf L ++ refsOf R), h2.get r = h.get r) (hM : M2.Nodup) (hd : ∀ r ∈ M2, r ∉ p :: (refsOf L ++ refsOf R)) :
    Ctx h2 N d p pn L R me M2 where
  hp := by rw [hg p List.mem_cons_self]; exact c.hp
  hk := c.hk
  ok := by
    intro x hx
    refine (c.ok x hx).congr ?_
    intro r hr
    refine hg r (List.mem_cons_of_mem _ ?_)
    rw [← refsOf_append]
    rcases List.mem_cons.1 hr with e | e
    · rw [e]; exact (mem_refsOf hx).1
    · exact (mem_refsOf hx).2 r e
  nd := c.nd
  wf := hw
  ndM := hM
  dis := hd

theorem Ctx.lt {h : NHeap V} {N d p : Nat} {pn : NNode V} {L R : List (NPart V)} {me : Nat} {M : List Nat} (c : Ctx h N d p pn L R me M) :
    ∀ r ∈ p :: (refsOf L ++ refsOf R), r < h.next := by
  intro r hr
  rcases List.mem_cons.1 hr with e | e
  · rw [e]; exact c.wf _ _ c.hp
  · rw [← refsOf_append] at e
    exact parts_lt c.wf c.ok r e

theorem add_leaf {h : NHeap V} {N d p : Nat} (hN : 65 ≤ N) {pn : NNode V} {pp : Bool} {L R : List (NPart V)} {self : Nat} {o : List Nat}
    (c : Ctx h N d p pn L R self (self :: o)) {n : NNode V} {es : List (Bytes × V)} (hs : h.get self = some n)
    (hb : IsLeaf N n es o) (key : Bytes) (v : V) (f : Nat) :
    ∃ h' qs pn', addValue (f + 1) h (some (p, pp)) self key v = .ok h' ∧
      Post h N d p pn pp L R (self :: o) (SMap.insert key v es) h' qs pn' := by
  obtain ⟨h1, h2, h3, h4, h5⟩ := hb
  subst h5
  obtain ⟨a, b, ha, hb⟩ := ends_of_ne (insert_ne_nil key v es)
  obtain ⟨n2, hn2⟩ : ∃ n2 : NNode V, n2 = ⟨n.kids, some (SMap.insert key v es), some (limitsOf (SMap.insert key v es))⟩ := ⟨_, rfl⟩
  have hrun : addValue (f + 1) h (some (p, pp)) self key v = rebalance (h.set self n2) (some (p, pp)) self false := by
    rw [addValue, hs]
    simp only
    rw [h1]
    simp only
    rw [h2]
    simp only
    rw [addToNames]
    simp only [namesAdd_eq]
    rw [hn2, limitsOf_eq ha hb, ha, hb]
    rfl
  rw [hrun]
  have hself := c.dis self List.mem_cons_self
  have c2 : Ctx (h.set self n2) N d p pn L R self [self] := by
    refine c.change (c.wf.set (c.wf _ _ hs) _) ?_ c.ndM c.dis
    intro r hr
    rw [get_set, if_neg]
    intro e
    rw [e] at hr
    exact hself hr
  have := entries_insert_length key v es
  obtain ⟨h', qs, pn', r1, r2⟩ := rebalance_leaf hN (pp := pp) c2 (n := n2) (es := SMap.insert key v es)
    (by rw [get_set, if_pos rfl]) (by rw [hn2]; exact h1) (by rw [hn2]) (insert_ne_nil _ _ _) (by omega) (by rw [hn2])
  refine ⟨h', qs, pn', r1, r2.from rfl ?_⟩
  intro r hr
  rw [get_set, if_neg (fun e => hr (by rw [e]; exact List.mem_singleton.2 rfl))]

theorem refs_split {L : List (NPart V)} {q : NPart V} {R : List (NPart V)} : refsOf (L ++ q :: R) = refsOf L ++ ((q.ref :: q.objs) ++ refsOf R) := by
  rw [refsOf_append, refsOf_cons]; rfl

/-- What a child looks like from its parent. -/
theorem ctx_of_body {h : NHeap V} {N d self : Nat} {n : NNode V} (wf : HeapOK h) (hs : h.get self = some n) {ps L : List (NPart V)} {q : NPart V}
    {R : List (NPart V)} (hk : n.kids = some (ps.map (·.ref))) (hps : ps = L ++ q :: R) (hok : ∀ x ∈ ps, PartOK h N d x)
    (hnd : (self :: refsOf ps).Nodup) : Ctx h N d self n L R q.ref (q.ref :: q.objs) := by
  subst hps
  rw [refs_split, List.nodup_cons, List.nodup_append, List.nodup_append] at hnd
  obtain ⟨d1, d2, ⟨d3, d4, d5⟩, d6⟩ := hnd
  refine ⟨hs, by rw [hk]; simp, ?_, ?_, wf, d3, ?_⟩
  · intro x hx
    refine hok x ?_
    rcases List.mem_append.1 hx with h | h
    · exact List.mem_append_left _ h
    · exact List.mem_append_right _ (List.mem_cons_of_mem _ h)
  · rw [List.nodup_cons, List.nodup_append]
    refine ⟨?_, d2, d4, fun a ha b hb => d6 a ha b (List.mem_append_right _ hb)⟩
    intro hm
    rcases List.mem_append.1 hm with h | h
    · exact d1 (List.mem_append_left _ h)
    · exact d1 (List.mem_append_right _ (List.mem_append_right _ h))
  · intro r hr hm
    rcases List.mem_cons.1 hm with e | hm
    · exact d1 (List.mem_append_right _ (List.mem_append_left _ (e ▸ hr)))
    · rcases List.mem_append.1 hm with h | h
      · exact d6 r h r (List.mem_append_left _ hr) rfl
      · exact d5 r hr r h rfl

/-- The nodes of the parent after adding to a child. -/
theorem Post.nodup {h : NHeap V} {N d p : Nat} {pn : NNode V} {pp : Bool} {L R : List (NPart V)} {me : Nat} {M : List Nat} {es : List (Bytes × V)}
    {h' : NHeap V} {qs : List (NPart V)} {pn' : NNode V} (P : Post h N d p pn pp L R M es h' qs pn') (c : Ctx h N d p pn L R me M) :
    (p :: refsOf (L ++ qs ++ R)).Nodup := by
  have hlt := c.lt
  have hq : ∀ r ∈ refsOf qs, r ∉ p :: (refsOf L ++ refsOf R) := by
    intro r hr hm
    rcases P.new r hr with h | h
    · exact c.dis r h hm
    · have := hlt r hm; omega
  have hnd := c.nd
  rw [List.nodup_cons, List.nodup_append] at hnd
  obtain ⟨d1, d2, d3, d4⟩ := hnd
  rw [refsOf_append, refsOf_append, List.nodup_cons, List.nodup_append, List.nodup_append]
  refine ⟨?_, ⟨d2, P.nd, ?_⟩, d3, ?_⟩
  · intro hm
    rcases List.mem_append.1 hm with hm | hm
    · rcases List.mem_append.1 hm with hm | hm
      · exact d1 (List.mem_append_left _ hm)
      · exact hq p hm List.mem_cons_self
    · exact d1 (List.mem_append_right _ hm)
  · intro a ha b hb e
    exact hq b hb (by rw [← e]; exact List.mem_cons_of_mem _ (List.mem_append_left _ ha))
  · intro a ha b hb e
    rcases List.mem_append.1 ha with ha | ha
    · exact d4 a ha b hb e
    · exact hq a ha (by rw [e]; exact List.mem_cons_of_mem _ (List.mem_append_right _ hb))

/-- The step after adding to the child: the limits of the node are right again. -/
theorem fix_limits {h1 : NHeap V} {N d self : Nat} {n1 : NNode V} {ps' : List (NPart V)} (hs : h1.get self = some n1) (hk : n1.kids = some (ps'.map (·.ref)))
    (hne : ps' ≠ []) (hok : ∀ x ∈ ps', PartOK h1 N d x) (lim : NLim) (hasParent : Bool)
    (hl : lim = .inside → hasParent = true → n1.limits = some (limitsOf (entriesOf ps'))) :
    ∃ h2 n2, (if lim ≠ .inside then setLimits h1 self true hasParent else .ok h1) = .ok h2 ∧ h2.get self = some n2 ∧ n2.kids = n1.kids ∧
      n2.names = n1.names ∧ h2.next = h1.next ∧ (∀ r, r ≠ self → h2.get r = h1.get r) ∧
      (hasParent = true → n2.limits = some (limitsOf (entriesOf ps'))) ∧ (hasParent = false → n2.limits = n1.limits) := by
  by_cases e : lim = .inside
  · rw [if_neg (by simp [e])]
    exact ⟨h1, n1, rfl, hs, rfl, rfl, rfl, fun _ _ => rfl, hl e, fun _ => rfl⟩
  · rw [if_pos e, setLimits, hs]
    simp only
    rw [limitsFor_kids hk hne hok]
    cases hasParent with
    | true =>
      refine ⟨h1.set self { n1 with limits := some (limitsOf (entriesOf ps')) }, { n1 with limits := some (limitsOf (entriesOf ps')) }, rfl, ?_, rfl, rfl, rfl, ?_, ?_, ?_⟩
      · rw [get_set, if_pos rfl]
      · intro r hr; rw [get_set, if_neg hr]
      · intro _; rfl
      · intro h; cases h
    | false => exact ⟨h1, n1, rfl, hs, rfl, rfl, rfl, fun _ _ => rfl, (fun h => by cases h), fun _ => rfl⟩

theorem add_child {N : Nat} (hN : 65 ≤ N) (key : Bytes) (v : V) : ∀ (d f : Nat), d < f → ∀ {h : NHeap V} {p : Nat} {pn : NNode V} {pp : Bool}
    {L R : List (NPart V)} {self : Nat} {o : List Nat} {n : NNode V} {es : List (Bytes × V)}, Ctx h N d p pn L R self (self :: o) →
    h.get self = some n → n.limits = some (limitsOf es) → NameBody h N d n es o → SMap.Sorted es →
    ∃ h' qs pn', addValue f h (some (p, pp)) self key v = .ok h' ∧
      Post h N d p pn pp L R (self :: o) (SMap.insert key v es) h' qs pn' := by
  intro d
  induction d with
  | zero =>
    intro f hf h p pn pp L R self o n es c hs hl hb hsort
    obtain ⟨f', rfl⟩ : ∃ f', f = f' + 1 := ⟨f - 1, by omega⟩
    exact add_leaf hN c hs hb key v f'
  | succ d ih =>
    intro f hf h p pn pp L R self o n es c hs hl hb hsort
    obtain ⟨f', rfl⟩ : ∃ f', f = f' + 1 := ⟨f - 1, by omega⟩
    rcases hb with hb | ⟨ps, b1, b2, b3, b4, b5, b6, b7⟩
    · exact add_leaf hN c hs hb key v f'
    · subst b5; subst b6
      obtain ⟨L', q, R', lim, e1, e2, e3⟩ := pickOrLast_spec key ps b3 b7 hsort
      have hqm : q ∈ ps := by rw [e2.1]; exact List.mem_append_right _ List.mem_cons_self
      obtain ⟨m, m1, m2, m3⟩ := b7 q hqm
      have hndps : (self :: refsOf ps).Nodup := c.ndM
      have hqs : SMap.Sorted q.entries := by
        have := hsort
        rw [e2.1] at this
        exact (sorted_middle this).1
      have cq := ctx_of_body c.wf hs b1 e2.1 b7 hndps
      obtain ⟨h1, qs, n1, r1, P⟩ := ih f' (by omega) (pp := true) cq m1 m2 m3 hqs
      have hes : entriesOf (L' ++ qs ++ R') = SMap.insert key v (entriesOf ps) := by
        rw [place_insert e2, entriesOf_append, entriesOf_append, P.es]
      have hne' : L' ++ qs ++ R' ≠ [] := by
        intro e
        exact P.ne (List.append_eq_nil_iff.1 (List.append_eq_nil_iff.1 e).1).2
      have hlim1 : lim = .inside → true = true → n1.limits = some (limitsOf (entriesOf (L' ++ qs ++ R'))) := by
        intro hi _
        rcases P.hl with e | e
        · rw [e, hl, hes, place_limits e2 b7 hsort (e3 hi)]
        · exact e.2
      obtain ⟨h2, n2, f1, f2, f3, f4, f5, f6, f7, _⟩ := fix_limits P.hp P.hk hne' P.ok lim true hlim1
      have hnd2 : (self :: refsOf (L' ++ qs ++ R')).Nodup := P.nodup cq
      have hok2 : ∀ x ∈ L' ++ qs ++ R', PartOK h2 N d x := by
        intro x hx
        refine (P.ok x hx).congr ?_
        intro r hr
        refine f6 r ?_
        intro e
        refine (List.nodup_cons.1 hnd2).1 ?_
        rcases List.mem_cons.1 hr with e' | e'
        · rw [← e, e']; exact (mem_refsOf hx).1
        · rw [← e]; exact (mem_refsOf hx).2 r e'
      have wf2 : HeapOK h2 := by
        intro r x hr
        rw [f5]
        by_cases e : r = self
        · rw [e]; exact P.wf _ _ P.hp
        · rw [f6 r e] at hr; exact P.wf _ _ hr
      -- where the numbers come from
      have hin : ∀ r ∈ refsOf (L' ++ qs ++ R'), r ∈ refsOf ps ∨ h.next ≤ r := by
        intro r hr
        rw [e2.1, refs_split]
        rw [refsOf_append, refsOf_append] at hr
        rcases List.mem_append.1 hr with hr | hr
        · rcases List.mem_append.1 hr with hr | hr
          · exact Or.inl (List.mem_append_left _ hr)
          · rcases P.new r hr with h | h
            · exact Or.inl (List.mem_append_right _ (List.mem_append_left _ h))
            · exact Or.inr h
        · exact Or.inl (List.mem_append_right _ (List.mem_append_right _ hr))
      have hqin : ∀ r ∈ q.ref :: q.objs, r ∈ refsOf ps := by
        intro r hr
        rw [e2.1, refs_split]
        exact List.mem_append_right _ (List.mem_append_left _ hr)
      have hout : ∀ r, r < h.next → r ∉ self :: refsOf ps → h2.get r = h.get r := by
        intro r hr1 hr2
        rw [f6 r (fun e => hr2 (by rw [e]; exact List.mem_cons_self))]
        exact P.frame r hr1 (fun e => hr2 (by rw [e]; exact List.mem_cons_self)) (fun hm => hr2 (List.mem_cons_of_mem _ (hqin r hm)))
      have c2 : Ctx h2 N (d + 1) p pn L R self (self :: refsOf (L' ++ qs ++ R')) := by
        refine c.change wf2 ?_ hnd2 ?_
        · intro r hr
          exact hout r (c.lt r hr) (fun hm => c.dis r hm hr)
        · intro r hr hm
          rcases List.mem_cons.1 hr with e | hr
          · exact c.dis r (by rw [e]; exact List.mem_cons_self) hm
          · rcases hin r hr with h | h
            · exact c.dis r (List.mem_cons_of_mem _ h) hm
            · have := c.lt r hm; omega
      have hlen : (L' ++ qs ++ R').length ≤ N + 1 := by
        have h2 := P.two
        have := congrArg List.length e2.1
        simp only [List.length_append, List.length_cons] at this ⊢
        omega
      have hnn : n2.names = none := by rw [f4, P.hn, b2]
      obtain ⟨h', qs2, pn', t1, t2⟩ := rebalance_node hN (pp := pp) c2 f2 (by rw [f3, P.hk]) hnn hne' hlen (f7 rfl) hok2
      refine ⟨h', qs2, pn', ?_, ?_⟩
      · rw [addValue, hs]
        simp only
        rw [b1]
        simp only
        rw [e1]
        simp only [Option.isSome_some]
        rw [r1]
        simp only
        rw [f1]
        exact t1
      · rw [hes] at t2
        exact
          { t2 with
            new := by
              intro r hr
              rcases t2.new r hr with h | h
              · rcases List.mem_cons.1 h with e | h
                · exact Or.inl (by rw [e]; exact List.mem_cons_self)
                · rcases hin r h with h | h
                  · exact Or.inl (List.mem_cons_of_mem _ h)
                  · exact Or.inr h
              · have := P.next; exact Or.inr (by omega)
            next := by have h1 := P.next; have h2 := t2.next; omega
            frame := by
              intro r h1 h2 h3
              rw [t2.frame r (by have := P.next; omega) h2 ?_, hout r h1 h3]
              intro hm
              rcases List.mem_cons.1 hm with e | hm
              · exact h3 (by rw [e]; exact List.mem_cons_self)
              · rcases hin r hm with h | h
                · exact h3 (List.mem_cons_of_mem _ h)
                · omega }

end Pdfmm
