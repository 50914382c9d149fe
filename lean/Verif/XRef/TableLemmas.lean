import Verif.XRef.Model
/-
Lemmas on the collection of cross-reference blocks.
-/
set_option autoImplicit false
set_option linter.unusedVariables false
namespace Pdfmm

theorem sortIns_perm {α : Type} (lt : α → α → Bool) (x : α) (l : List α) : (sortIns lt x l).Perm (x :: l) := by
  induction l with
  | nil => exact List.Perm.refl _
  | cons y r ih =>
    rw [sortIns]; split
    · exact (List.Perm.cons y ih).trans (List.Perm.swap x y r)
    · exact List.Perm.refl _

theorem stdSort_perm {α : Type} (lt : α → α → Bool) (l : List α) : (stdSort lt l).Perm l := by
  induction l with
  | nil => exact List.Perm.refl _
  | cons y r ih => exact (sortIns_perm lt y _).trans (List.Perm.cons y ih)

theorem sortIns_sorted {α : Type} (f : α → Nat) (x : α) (l : List α) (h : l.Pairwise (fun a b => f a ≤ f b)) :
    (sortIns (fun a b => decide (f a < f b)) x l).Pairwise (fun a b => f a ≤ f b) := by
  induction l with
  | nil => simp [sortIns]
  | cons y r ih =>
    rw [List.pairwise_cons] at h
    rw [sortIns]; split
    · rename_i hlt
      simp at hlt
      rw [List.pairwise_cons]
      refine ⟨fun z hz => ?_, ih h.2⟩
      have := (sortIns_perm _ x r).mem_iff.1 hz
      rcases List.mem_cons.1 this with h' | h'
      · subst h'; omega
      · exact h.1 z h'
    · rename_i hlt
      simp at hlt
      rw [List.pairwise_cons]
      refine ⟨fun z hz => ?_, List.pairwise_cons.2 h⟩
      rcases List.mem_cons.1 hz with h' | h'
      · subst h'; exact hlt
      · have := h.1 z h'; omega

theorem stdSort_sorted {α : Type} (f : α → Nat) (l : List α) :
    (stdSort (fun a b => decide (f a < f b)) l).Pairwise (fun a b => f a ≤ f b) := by
  induction l with
  | nil => simp [stdSort]
  | cons y r ih => exact sortIns_sorted f y _ ih

/-- The object numbers with an entry in a block. -/
def XBlock.nums (b : XBlock) : List Nat := b.items.map (·.1.num) ++ b.free.map Ref.num

/-- The number after the last of a block. -/
def XBlock.stop (b : XBlock) : Nat := b.first + b.count

/-- A block lists the numbers of its range, 0 excepted, once each. -/
structure XBlock.Ok (b : XBlock) : Prop where
  pos : 1 ≤ b.count
  bound : b.stop ≤ 4294967295
  items : b.items.Pairwise (fun x y => x.1.num < y.1.num)
  free : b.free.Pairwise (fun x y => x.num < y.num)
  mem : ∀ n, n ∈ b.nums ↔ 1 ≤ n ∧ b.first ≤ n ∧ n < b.stop
  disj : ∀ x ∈ b.items, ∀ f ∈ b.free, x.1.num ≠ f.num

theorem mem_nums {b : XBlock} {n : Nat} :
    n ∈ b.nums ↔ (∃ x ∈ b.items, x.1.num = n) ∨ (∃ f ∈ b.free, f.num = n) := by
  simp [XBlock.nums]

/-- What is in the block after an insertion. -/
def Added (r : Ref) (off : Option Nat) (items items' : List (Ref × Nat)) (free free' : List Ref) : Prop :=
  (∀ x, x ∈ items' ↔ (x ∈ items ∨ (x.1 = r ∧ off = some x.2))) ∧
  (∀ f, f ∈ free' ↔ (f ∈ free ∨ (f = r ∧ off = none)))

theorem u32_of_lt {n : Nat} (h : n < 4294967296) : u32 n = n := Nat.mod_eq_of_lt h

theorem insertItem_some {b b' : XBlock} (h : b.Ok) {r : Ref} {off : Option Nat} (h1 : 1 ≤ r.num)
    (h2 : r.num < 4294967295) (hn : r.num ∉ b.nums) (hi : b.insertItem r off = some b') :
    b'.Ok ∧ Added r off b.items b'.items b.free b'.free ∧
      ((b'.first = b.first ∧ b'.stop = b.stop + 1 ∧ r.num = b.stop) ∨
       (b'.first + 1 = b.first ∧ b'.stop = b.stop ∧ r.num = b'.first)) := by
  have hpos := h.pos
  have hb := h.bound
  have hm := h.mem
  rw [hm] at hn
  simp only [XBlock.stop] at hb hn hm
  have e1 : u32 (b.first + b.count) = b.first + b.count := u32_of_lt (by omega)
  have e2 : u32 (b.count + 1) = b.count + 1 := u32_of_lt (by omega)
  unfold XBlock.insertItem at hi
  rw [e1, e2] at hi
  have hitems : ∀ x ∈ b.items, b.first ≤ x.1.num ∧ x.1.num < b.first + b.count := by
    intro x hx
    have := (hm x.1.num).1 (mem_nums.2 (.inl ⟨x, hx, rfl⟩))
    omega
  have hfree : ∀ x ∈ b.free, b.first ≤ x.num ∧ x.num < b.first + b.count := by
    intro x hx
    have := (hm x.num).1 (mem_nums.2 (.inr ⟨x, hx, rfl⟩))
    omega
  by_cases hback : r.num = b.first + b.count
  · rw [if_pos hback] at hi
    cases off with
    | some o =>
      simp only [Option.some.injEq] at hi
      subst hi
      refine ⟨⟨by simp, ?_, ?_, h.free, ?_, ?_⟩, ?_, .inl ⟨rfl, rfl, hback⟩⟩
      · simp only [XBlock.stop]; omega
      · dsimp only
        rw [List.pairwise_append]
        refine ⟨h.items, by simp, fun x hx y hy => ?_⟩
        simp at hy; subst hy; have := hitems x hx; dsimp only; omega
      · intro n
        have := hm n
        rw [mem_nums] at this ⊢
        simp only [XBlock.stop, List.mem_append, List.mem_singleton]
        constructor
        · rintro (⟨x, hx | rfl, rfl⟩ | hf)
          · have q := this.1 (.inl ⟨x, hx, rfl⟩); clear this; omega
          · dsimp only; omega
          · have q := this.1 (.inr hf); clear this; omega
        · intro hh
          by_cases e : n = r.num
          · exact .inl ⟨(r, o), .inr rfl, e.symm⟩
          · rcases this.2 (by omega) with ⟨x, hx, rfl⟩ | hf
            · exact .inl ⟨x, .inl hx, rfl⟩
            · exact .inr hf
      · intro x hx f hf
        simp only [List.mem_append, List.mem_singleton] at hx
        rcases hx with hx | rfl
        · exact h.disj x hx f hf
        · have := hfree f hf; dsimp only; omega
      · refine ⟨fun x => ?_, fun f => by simp⟩
        simp only [List.mem_append, List.mem_singleton, Option.some.injEq]
        constructor
        · rintro (hx | rfl)
          · exact .inl hx
          · exact .inr ⟨rfl, rfl⟩
        · rintro (hx | ⟨h3, h4⟩)
          · exact .inl hx
          · exact .inr (Prod.ext h3 h4.symm)
    | none =>
      simp only [Option.some.injEq] at hi
      subst hi
      refine ⟨⟨by simp, ?_, h.items, ?_, ?_, ?_⟩, ?_, .inl ⟨rfl, rfl, hback⟩⟩
      · simp only [XBlock.stop]; omega
      · dsimp only
        rw [List.pairwise_append]
        refine ⟨h.free, by simp, fun x hx y hy => ?_⟩
        simp at hy; subst hy; have := hfree x hx; omega
      · intro n
        have := hm n
        rw [mem_nums] at this ⊢
        simp only [XBlock.stop, List.mem_append, List.mem_singleton]
        constructor
        · rintro (hf | ⟨x, hx | rfl, rfl⟩)
          · have q := this.1 (.inl hf); clear this; omega
          · have q := this.1 (.inr ⟨x, hx, rfl⟩); clear this; omega
          · omega
        · intro hh
          by_cases e : n = r.num
          · exact .inr ⟨r, .inr rfl, e.symm⟩
          · rcases this.2 (by omega) with hf | ⟨x, hx, rfl⟩
            · exact .inl hf
            · exact .inr ⟨x, .inl hx, rfl⟩
      · intro x hx f hf
        simp only [List.mem_append, List.mem_singleton] at hf
        rcases hf with hf | rfl
        · exact h.disj x hx f hf
        · have := hitems x hx; omega
      · exact ⟨fun x => by simp, fun f => by simp⟩
  · rw [if_neg hback] at hi
    by_cases hfirst : b.first = 0
    · have e3 : u32 (b.first + 4294967295) = 4294967295 := by rw [hfirst]; rfl
      rw [e3, if_neg (by omega), if_neg (by omega)] at hi
      exact absurd hi (by simp)
    have e3 : u32 (b.first + 4294967295) = b.first - 1 := by
      unfold u32
      have : b.first + 4294967295 = (b.first - 1) + 4294967296 := by omega
      rw [this, Nat.add_mod_right]
      exact Nat.mod_eq_of_lt (by omega)
    rw [e3] at hi
    by_cases hfront : r.num = b.first - 1
    · rw [if_pos hfront] at hi
      cases off with
      | some o =>
        simp only [Option.some.injEq] at hi
        subst hi
        refine ⟨⟨by simp, ?_, ?_, h.free, ?_, ?_⟩, ?_, .inr ⟨by simp; omega, by simp [XBlock.stop]; omega, hfront⟩⟩
        · simp only [XBlock.stop]; omega
        · dsimp only
          rw [List.pairwise_cons]
          refine ⟨fun x hx => ?_, h.items⟩
          have := hitems x hx; dsimp only; omega
        · intro n
          have := hm n
          rw [mem_nums] at this ⊢
          simp only [XBlock.stop, List.mem_cons]
          constructor
          · rintro (⟨x, rfl | hx, rfl⟩ | hf)
            · dsimp only; omega
            · have q := this.1 (.inl ⟨x, hx, rfl⟩); clear this; omega
            · have q := this.1 (.inr hf); clear this; omega
          · intro hh
            by_cases e : n = r.num
            · exact .inl ⟨(r, o), .inl rfl, e.symm⟩
            · rcases this.2 (by omega) with ⟨x, hx, rfl⟩ | hf
              · exact .inl ⟨x, .inr hx, rfl⟩
              · exact .inr hf
        · intro x hx f hf
          simp only [List.mem_cons] at hx
          rcases hx with rfl | hx
          · have := hfree f hf; dsimp only; omega
          · exact h.disj x hx f hf
        · refine ⟨fun x => ?_, fun f => by simp⟩
          simp only [List.mem_cons, Option.some.injEq]
          constructor
          · rintro (rfl | hx)
            · exact .inr ⟨rfl, rfl⟩
            · exact .inl hx
          · rintro (hx | ⟨h3, h4⟩)
            · exact .inr hx
            · exact .inl (Prod.ext h3 h4.symm)
      | none =>
        simp only [Option.some.injEq] at hi
        subst hi
        refine ⟨⟨by simp, ?_, h.items, ?_, ?_, ?_⟩, ?_, .inr ⟨by simp; omega, by simp [XBlock.stop]; omega, hfront⟩⟩
        · simp only [XBlock.stop]; omega
        · dsimp only
          rw [List.pairwise_cons]
          refine ⟨fun x hx => ?_, h.free⟩
          have := hfree x hx; omega
        · intro n
          have := hm n
          rw [mem_nums] at this ⊢
          simp only [XBlock.stop, List.mem_cons]
          constructor
          · rintro (hf | ⟨x, rfl | hx, rfl⟩)
            · have q := this.1 (.inl hf); clear this; omega
            · omega
            · have q := this.1 (.inr ⟨x, hx, rfl⟩); clear this; omega
          · intro hh
            by_cases e : n = r.num
            · exact .inr ⟨r, .inl rfl, e.symm⟩
            · rcases this.2 (by omega) with hf | ⟨x, hx, rfl⟩
              · exact .inl hf
              · exact .inr ⟨x, .inr hx, rfl⟩
        · intro x hx f hf
          simp only [List.mem_cons] at hf
          rcases hf with rfl | hf
          · have := hitems x hx; omega
          · exact h.disj x hx f hf
        · exact ⟨fun x => by simp, fun f => by
            simp only [List.mem_cons, and_true]
            exact Or.comm⟩
    · rw [if_neg hfront, if_neg (by omega)] at hi
      exact absurd hi (by simp)

/-- The blocks are in order and do not overlap. -/
def Ordered (bs : List XBlock) : Prop := bs.Pairwise (fun a b => a.stop ≤ b.first)

/-- Everything known of the blocks while objects are added. -/
structure BlocksOk (bs : List XBlock) : Prop where
  ordered : Ordered bs
  ok : ∀ b ∈ bs, b.Ok

def allItems (bs : List XBlock) : List (Ref × Nat) := bs.flatMap XBlock.items
def allFree (bs : List XBlock) : List Ref := bs.flatMap XBlock.free

theorem insertInto_some {r : Ref} {off : Option Nat} (h1 : 1 ≤ r.num) (h2 : r.num < 4294967295) :
    ∀ {bs bs' : List XBlock}, BlocksOk bs → (∀ b ∈ bs, r.num ∉ b.nums) → insertInto r off bs = some bs' →
      BlocksOk bs' ∧ Added r off (allItems bs) (allItems bs') (allFree bs) (allFree bs') ∧
      ∀ c' ∈ bs', c' ∈ bs ∨ (∃ c ∈ bs, c'.first = c.first ∨ (c'.first + 1 = c.first ∧ r.num = c'.first))
  | [], bs', _, _, hi => by simp [insertInto] at hi
  | b :: bs, bs', hok, hn, hi => by
    obtain ⟨hord, hall⟩ := hok
    have hord' := List.pairwise_cons.1 hord
    rw [insertInto] at hi
    cases hb : b.insertItem r off with
    | some b' =>
      rw [hb] at hi
      simp only [Option.some.injEq] at hi
      subst hi
      have hbok := hall b (by simp)
      obtain ⟨hok', hadd, hcase⟩ := insertItem_some hbok h1 h2 (hn b (by simp)) hb
      refine ⟨⟨?_, ?_⟩, ?_, ?_⟩
      · refine List.pairwise_cons.2 ⟨fun c hc => ?_, hord'.2⟩
        have h3 := hord'.1 c hc
        rcases hcase with ⟨h4, h5, h6⟩ | ⟨h4, h5, h6⟩
        · have hcok := hall c (by simp [hc])
          have h7 := hn c (by simp [hc])
          rw [hcok.mem] at h7
          have := hcok.pos
          simp only [XBlock.stop] at *
          omega
        · omega
      · intro c hc
        rcases List.mem_cons.1 hc with rfl | hc
        · exact hok'
        · exact hall c (by simp [hc])
      · refine ⟨fun x => ?_, fun f => ?_⟩
        · have := hadd.1 x
          simp only [allItems, List.flatMap_cons, List.mem_append]
          rw [this, or_right_comm]
        · have := hadd.2 f
          simp only [allFree, List.flatMap_cons, List.mem_append]
          rw [this, or_right_comm]
      · intro c hc
        rcases List.mem_cons.1 hc with rfl | hc
        · right
          refine ⟨b, by simp, ?_⟩
          rcases hcase with h4 | h4
          · exact .inl h4.1
          · exact .inr ⟨h4.1, h4.2.2⟩
        · exact .inl (by simp [hc])
    | none =>
      rw [hb] at hi
      simp only [Option.map_eq_some_iff] at hi
      obtain ⟨bs1, hi1, rfl⟩ := hi
      obtain ⟨hok', hadd, hcase⟩ := insertInto_some h1 h2 ⟨hord'.2, fun c hc => hall c (by simp [hc])⟩
        (fun c hc => hn c (by simp [hc])) hi1
      refine ⟨⟨?_, ?_⟩, ?_, ?_⟩
      · refine List.pairwise_cons.2 ⟨fun c hc => ?_, hok'.ordered⟩
        rcases hcase c hc with h3 | ⟨d, hd, h3 | ⟨h3, h4⟩⟩
        · exact hord'.1 c h3
        · rw [h3]; exact hord'.1 d hd
        · have h5 := hord'.1 d hd
          have hbok := hall b (by simp)
          have h7 := hn b (by simp)
          rw [hbok.mem] at h7
          have := hbok.pos
          simp only [XBlock.stop] at *
          omega
      · intro c hc
        rcases List.mem_cons.1 hc with rfl | hc
        · exact hall _ (by simp)
        · exact hok'.ok c hc
      · refine ⟨fun x => ?_, fun f => ?_⟩
        · have := hadd.1 x
          simp only [allItems, List.flatMap_cons, List.mem_append] at this ⊢
          rw [this, or_assoc]
        · have := hadd.2 f
          simp only [allFree, List.flatMap_cons, List.mem_append] at this ⊢
          rw [this, or_assoc]
      · intro c hc
        rcases List.mem_cons.1 hc with rfl | hc
        · exact .inl (by simp)
        · rcases hcase c hc with h3 | ⟨d, hd, h3⟩
          · exact .inl (by simp [h3])
          · exact .inr ⟨d, by simp [hd], h3⟩

theorem single_ok {r : Ref} {off : Option Nat} (h1 : 1 ≤ r.num) (h2 : r.num < 4294967295) :
    (XBlock.single r off).Ok ∧ Added r off [] (XBlock.single r off).items [] (XBlock.single r off).free ∧
      (XBlock.single r off).first = r.num ∧ (XBlock.single r off).stop = r.num + 1 := by
  cases off with
  | some o =>
    refine ⟨⟨by simp [XBlock.single], by simp [XBlock.single, XBlock.stop]; omega, by simp [XBlock.single],
      by simp [XBlock.single], ?_, by simp [XBlock.single]⟩, ⟨fun x => ?_, fun f => ?_⟩, rfl, rfl⟩
    · intro n; simp [XBlock.single, XBlock.stop, XBlock.nums]; omega
    · simp only [XBlock.single, List.mem_singleton, List.not_mem_nil, false_or, Option.some.injEq]
      constructor
      · rintro rfl; exact ⟨rfl, rfl⟩
      · rintro ⟨h, h'⟩; exact Prod.ext h h'.symm
    · simp [XBlock.single]
  | none =>
    refine ⟨⟨by simp [XBlock.single], by simp [XBlock.single, XBlock.stop]; omega, by simp [XBlock.single],
      by simp [XBlock.single], ?_, by simp [XBlock.single]⟩, ⟨fun x => ?_, fun f => ?_⟩, rfl, rfl⟩
    · intro n; simp [XBlock.single, XBlock.stop, XBlock.nums]; omega
    · simp [XBlock.single]
    · simp [XBlock.single]

theorem addBlock_ok {bs : List XBlock} (h : BlocksOk bs) {r : Ref} {off : Option Nat} (h1 : 1 ≤ r.num)
    (h2 : r.num < 4294967295) (hn : ∀ b ∈ bs, r.num ∉ b.nums) :
    BlocksOk (addBlock bs r off) ∧
      Added r off (allItems bs) (allItems (addBlock bs r off)) (allFree bs) (allFree (addBlock bs r off)) := by
  cases hi : insertInto r off bs with
  | some bs' =>
    have := insertInto_some h1 h2 h hn hi
    rw [addBlock, hi]
    exact ⟨this.1, this.2.1⟩
  | none =>
    rw [addBlock, hi]
    have hp := stdSort_perm (fun a b : XBlock => decide (a.first < b.first)) (bs ++ [XBlock.single r off])
    have hs := stdSort_sorted XBlock.first (bs ++ [XBlock.single r off])
    obtain ⟨hok, hadd, hf, hst⟩ := single_ok (off := off) h1 h2
    have hmem : ∀ c, c ∈ stdSort (fun a b : XBlock => decide (a.first < b.first)) (bs ++ [XBlock.single r off]) ↔
        c ∈ bs ∨ c = XBlock.single r off := by
      intro c; rw [hp.mem_iff]; simp
    have hokall : ∀ c ∈ stdSort (fun a b : XBlock => decide (a.first < b.first)) (bs ++ [XBlock.single r off]),
        c.Ok := by
      intro c hc
      rcases (hmem c).1 hc with hc | rfl
      · exact h.ok c hc
      · exact hok
    refine ⟨⟨?_, hokall⟩, ⟨fun x => ?_, fun f => ?_⟩⟩
    · have hD : (bs ++ [XBlock.single r off]).Pairwise
          (fun a b => a.stop ≤ b.first ∨ b.stop ≤ a.first) := by
        rw [List.pairwise_append]
        refine ⟨h.ordered.imp fun h => .inl h, by simp, fun b hb c hc => ?_⟩
        simp only [List.mem_singleton] at hc
        subst hc
        have h3 := hn b hb
        have hbo := h.ok b hb
        rw [hbo.mem] at h3
        rw [hf, hst]
        simp only [XBlock.stop] at *
        omega
      have hD' := (hp.pairwise_iff (R := fun a b : XBlock => a.stop ≤ b.first ∨ b.stop ≤ a.first)
        (fun h => h.symm)).2 hD
      have := List.pairwise_and_iff.2 ⟨hs, hD'⟩
      refine List.Pairwise.imp_of_mem ?_ this
      intro a b ha hb hab
      have hbo := (hokall b hb).pos
      rcases hab with ⟨h3, h4 | h4⟩
      · exact h4
      · simp only [XBlock.stop] at h4 ⊢
        omega
    · have := hadd.1 x
      simp only [List.not_mem_nil, false_or] at this
      simp only [allItems, List.mem_flatMap, hmem]
      rw [← this]
      constructor
      · rintro ⟨c, hc | rfl, hx⟩
        · exact .inl ⟨c, hc, hx⟩
        · exact .inr hx
      · rintro (⟨c, hc, hx⟩ | hx)
        · exact ⟨c, .inl hc, hx⟩
        · exact ⟨_, .inr rfl, hx⟩
    · have := hadd.2 f
      simp only [List.not_mem_nil, false_or] at this
      simp only [allFree, List.mem_flatMap, hmem]
      rw [← this]
      constructor
      · rintro ⟨c, hc | rfl, hx⟩
        · exact .inl ⟨c, hc, hx⟩
        · exact .inr hx
      · rintro (⟨c, hc, hx⟩ | hx)
        · exact ⟨c, .inl hc, hx⟩
        · exact ⟨_, .inr rfl, hx⟩

end Pdfmm
