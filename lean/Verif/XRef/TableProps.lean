import Verif.XRef.TableLemmas
/-
C34, C35: the table written for a set of objects.
-/
set_option autoImplicit false
set_option linter.unusedVariables false
set_option linter.unusedSimpArgs false
namespace Pdfmm

/-! ### Lemmas: merging and writing -/

theorem ok_items_range {b : XBlock} (h : b.Ok) {x : Ref × Nat} (hx : x ∈ b.items) :
    1 ≤ x.1.num ∧ b.first ≤ x.1.num ∧ x.1.num < b.stop := (h.mem _).1 (mem_nums.2 (.inl ⟨x, hx, rfl⟩))
theorem ok_free_range {b : XBlock} (h : b.Ok) {x : Ref} (hx : x ∈ b.free) :
    1 ≤ x.num ∧ b.first ≤ x.num ∧ x.num < b.stop := (h.mem _).1 (mem_nums.2 (.inr ⟨x, hx, rfl⟩))

theorem merge_ok {c n : XBlock} (hc : c.Ok) (hn : n.Ok) (h : n.first = c.stop) :
    (XBlock.mk c.first (c.count + n.count) (c.items ++ n.items) (c.free ++ n.free)).Ok where
  pos := by have := hc.pos; dsimp only; omega
  bound := by have := hn.bound; simp only [XBlock.stop] at *; omega
  items := by
    dsimp only
    rw [List.pairwise_append]
    refine ⟨hc.items, hn.items, fun x hx y hy => ?_⟩
    have := ok_items_range hc hx
    have := ok_items_range hn hy
    omega
  free := by
    dsimp only
    rw [List.pairwise_append]
    refine ⟨hc.free, hn.free, fun x hx y hy => ?_⟩
    have := ok_free_range hc hx
    have := ok_free_range hn hy
    omega
  mem := by
    intro k
    have h1 := hc.mem k
    have h2 := hn.mem k
    have e : k ∈ (XBlock.mk c.first (c.count + n.count) (c.items ++ n.items) (c.free ++ n.free)).nums ↔
        k ∈ c.nums ∨ k ∈ n.nums := by
      simp only [XBlock.nums, List.mem_append, List.map_append]
      constructor
      · rintro ((h | h) | (h | h))
        · exact .inl (.inl h)
        · exact .inr (.inl h)
        · exact .inl (.inr h)
        · exact .inr (.inr h)
      · rintro ((h | h) | (h | h))
        · exact .inl (.inl h)
        · exact .inr (.inl h)
        · exact .inl (.inr h)
        · exact .inr (.inr h)
    rw [e, h1, h2]
    have := hc.pos
    have := hn.pos
    simp only [XBlock.stop] at *
    omega
  disj := by
    intro x hx f hf
    rcases List.mem_append.1 hx with hx | hx <;> rcases List.mem_append.1 hf with hf | hf
    · exact hc.disj x hx f hf
    · have := ok_items_range hc hx; have := ok_free_range hn hf; omega
    · have := ok_items_range hn hx; have := ok_free_range hc hf; omega
    · exact hn.disj x hx f hf

/-- The blocks are in order and never adjacent. -/
def Apart (bs : List XBlock) : Prop := bs.Pairwise (fun a b => a.stop < b.first)

theorem mergeFrom_spec : ∀ (bs : List XBlock) (c : XBlock), BlocksOk (c :: bs) →
    Apart (mergeFrom c bs) ∧ (∀ b ∈ mergeFrom c bs, b.Ok) ∧
    (∃ h t, mergeFrom c bs = h :: t ∧ h.first = c.first) ∧
    allItems (mergeFrom c bs) = allItems (c :: bs) ∧ allFree (mergeFrom c bs) = allFree (c :: bs)
  | [], c, h => by
    refine ⟨by simp [mergeFrom, Apart], by simpa [mergeFrom] using h.ok, ⟨c, [], rfl, rfl⟩, rfl, rfl⟩
  | n :: bs, c, h => by
    have ho := List.pairwise_cons.1 h.ordered
    have hc := h.ok c (by simp)
    have hn := h.ok n (by simp)
    have e : u32 (c.first + c.count) = c.stop := u32_of_lt (by have := hc.bound; simp only [XBlock.stop] at this; omega)
    rw [mergeFrom, e]
    by_cases hf : n.first = c.stop
    · rw [if_pos hf]
      have e2 : u32 (c.count + n.count) = c.count + n.count :=
        u32_of_lt (by have := hn.bound; simp only [XBlock.stop] at *; omega)
      rw [e2]
      have hm := merge_ok hc hn hf
      have hon := List.pairwise_cons.1 ho.2
      have := mergeFrom_spec bs _ (BlocksOk.mk (bs := XBlock.mk c.first (c.count + n.count) (c.items ++ n.items) (c.free ++ n.free) :: bs)
        (List.pairwise_cons.2 ⟨fun b hb => by
          have := hon.1 b hb; simp only [XBlock.stop] at *; omega, hon.2⟩)
        (fun b hb => by
          rcases List.mem_cons.1 hb with rfl | hb
          · exact hm
          · exact h.ok b (by simp [hb])))
      obtain ⟨h1, h2, h3, h4, h5⟩ := this
      refine ⟨h1, h2, h3, ?_, ?_⟩
      · rw [h4]; simp [allItems]
      · rw [h5]; simp [allFree]
    · rw [if_neg hf]
      obtain ⟨h1, h2, ⟨hd, tl, h3, h3'⟩, h4, h5⟩ := mergeFrom_spec bs n ⟨ho.2, fun b hb => h.ok b (by simp [hb])⟩
      refine ⟨?_, ?_, ⟨c, _, rfl, rfl⟩, ?_, ?_⟩
      · refine List.pairwise_cons.2 ⟨fun b hb => ?_, h1⟩
        have hlt : c.stop < n.first := by have := ho.1 n (by simp); omega
        rw [h3] at hb h1 h2
        rcases List.mem_cons.1 hb with rfl | hb
        · omega
        · have h6 := (List.pairwise_cons.1 h1).1 b hb
          have := (h2 hd (by simp)).pos
          simp only [XBlock.stop] at *
          omega
      · intro b hb
        rcases List.mem_cons.1 hb with rfl | hb
        · exact hc
        · exact h2 b hb
      · have : allItems (c :: mergeFrom n bs) = c.items ++ allItems (mergeFrom n bs) := by simp [allItems]
        rw [this, h4]; simp [allItems]
      · have : allFree (c :: mergeFrom n bs) = c.free ++ allFree (mergeFrom n bs) := by simp [allFree]
        rw [this, h5]; simp [allFree]

/-- The free entries of one block. -/
def freeEntries (later : List XBlock) : List Ref → List (Ref × XEntry)
  | [] => []
  | f :: fs => (f, freeEntry f.gen (nextFreeRef fs later)) :: freeEntries later fs

/-- The free entries of the whole table: each points to the one after it. -/
def links : List Ref → List (Ref × XEntry)
  | [] => []
  | f :: fs => (f, freeEntry f.gen fs.head?) :: links fs

theorem nextFreeRef_eq : ∀ (later : List XBlock) (fs : List Ref),
    nextFreeRef fs later = (fs ++ allFree later).head?
  | later, f :: fs => by simp [nextFreeRef]
  | [], [] => by simp [nextFreeRef, allFree]
  | b :: bs, [] => by
    rw [nextFreeRef, nextFreeRef_eq bs b.free]; simp [allFree]

theorem links_append (later : List XBlock) : ∀ fs : List Ref,
    freeEntries later fs ++ links (allFree later) = links (fs ++ allFree later)
  | [] => rfl
  | f :: fs => by
    rw [freeEntries, List.cons_append, links_append later fs, nextFreeRef_eq]; rfl

def isFree (e : Ref × XEntry) : Bool := decide (e.2.type = .free)

theorem emit_free (later : List XBlock) : ∀ (is : List (Ref × Nat)) (fs : List Ref),
    (emit later is fs).filter isFree = freeEntries later fs
  | [], [] => by rw [emit]; rfl
  | [], f :: fs => by
    rw [emit, List.filter_cons_of_pos (by simp [isFree, freeEntry]), emit_free later [] fs]; rfl
  | i :: is, [] => by
    rw [emit, List.filter_cons_of_neg (by simp [isFree]), emit_free later is []]
  | i :: is, f :: fs => by
    rw [emit]; split
    · rw [List.filter_cons_of_pos (by simp [isFree, freeEntry]), emit_free later (i :: is) fs]; rfl
    · rw [List.filter_cons_of_neg (by simp [isFree]), emit_free later is (f :: fs)]
termination_by is fs => is.length + fs.length

theorem emit_mem (later : List XBlock) (r : Ref) (e : XEntry) : ∀ (is : List (Ref × Nat)) (fs : List Ref),
    (r, e) ∈ emit later is fs ↔ (∃ i ∈ is, r = i.1 ∧ e = ⟨.inUse, i.2, i.1.gen⟩) ∨ (r, e) ∈ freeEntries later fs
  | [], [] => by simp [emit, freeEntries]
  | [], f :: fs => by
    rw [emit, List.mem_cons, emit_mem later r e [] fs]; simp [freeEntries]
  | i :: is, [] => by
    rw [emit, List.mem_cons, emit_mem later r e is []]; simp [freeEntries]
  | i :: is, f :: fs => by
    rw [emit]; split
    · rw [List.mem_cons, emit_mem later r e (i :: is) fs, freeEntries, List.mem_cons, or_left_comm]
    · rw [List.mem_cons, emit_mem later r e is (f :: fs)]
      simp only [List.mem_cons, Prod.mk.injEq, exists_eq_or_imp, or_assoc]
termination_by is fs => is.length + fs.length

theorem freeEntries_mem {later : List XBlock} {r : Ref} {e : XEntry} : ∀ {fs : List Ref},
    (r, e) ∈ freeEntries later fs → r ∈ fs ∧ e.type = .free ∧ e.gen = r.gen
  | [], h => by simp [freeEntries] at h
  | f :: fs, h => by
    rw [freeEntries, List.mem_cons] at h
    rcases h with h | h
    · simp only [Prod.mk.injEq] at h
      rw [h.1, h.2]; exact ⟨by simp, rfl, rfl⟩
    · have := freeEntries_mem h; exact ⟨by simp [this.1], this.2⟩

theorem mem_freeEntries {later : List XBlock} {r : Ref} : ∀ {fs : List Ref},
    r ∈ fs → ∃ e, (r, e) ∈ freeEntries later fs
  | [], h => by simp at h
  | f :: fs, h => by
    rw [freeEntries]
    rcases List.mem_cons.1 h with rfl | h
    · exact ⟨_, by simp; left; rfl⟩
    · obtain ⟨e, he⟩ := mem_freeEntries (later := later) h
      exact ⟨e, by simp [he]⟩

theorem emit_sorted (later : List XBlock) : ∀ (is : List (Ref × Nat)) (fs : List Ref),
    is.Pairwise (fun x y => x.1.num < y.1.num) → fs.Pairwise (fun x y => x.num < y.num) →
    (∀ x ∈ is, ∀ f ∈ fs, x.1.num ≠ f.num) →
    (emit later is fs).Pairwise (fun x y => x.1.num < y.1.num)
  | [], [], _, _, _ => by simp [emit]
  | [], f :: fs, h1, h2, h3 => by
    rw [emit, List.pairwise_cons]
    have h2' := List.pairwise_cons.1 h2
    refine ⟨fun x hx => ?_, emit_sorted later [] fs h1 h2'.2 (by simp)⟩
    obtain ⟨r, e⟩ := x
    rw [emit_mem] at hx
    rcases hx with ⟨_, h, _⟩ | hx
    · simp at h
    · exact h2'.1 r (freeEntries_mem hx).1
  | i :: is, [], h1, h2, h3 => by
    rw [emit, List.pairwise_cons]
    have h1' := List.pairwise_cons.1 h1
    refine ⟨fun x hx => ?_, emit_sorted later is [] h1'.2 h2 (by simp)⟩
    obtain ⟨r, e⟩ := x
    rw [emit_mem] at hx
    rcases hx with ⟨x, hx, rfl, _⟩ | hx
    · exact h1'.1 x hx
    · simp [freeEntries] at hx
  | i :: is, f :: fs, h1, h2, h3 => by
    have h1' := List.pairwise_cons.1 h1
    have h2' := List.pairwise_cons.1 h2
    have hne := h3 i (by simp) f (by simp)
    rw [emit]; split
    · rename_i hlt
      have hlt' : f.num < i.1.num := by
        rw [Ref.lt] at hlt
        rw [if_neg (fun h => hne h.symm)] at hlt
        simpa using hlt
      rw [List.pairwise_cons]
      refine ⟨fun x hx => ?_, emit_sorted later (i :: is) fs h1 h2'.2
        (fun x hx g hg => h3 x hx g (by simp [hg]))⟩
      obtain ⟨r, e⟩ := x
      rw [emit_mem] at hx
      rcases hx with ⟨x, hx, rfl, _⟩ | hx
      · rcases List.mem_cons.1 hx with rfl | hx
        · exact hlt'
        · exact Nat.lt_trans hlt' (h1'.1 x hx)
      · exact h2'.1 r (freeEntries_mem hx).1
    · rename_i hlt
      have hlt' : i.1.num < f.num := by
        rw [Ref.lt] at hlt
        rw [if_neg (fun h => hne h.symm)] at hlt
        simp at hlt; omega
      rw [List.pairwise_cons]
      refine ⟨fun x hx => ?_, emit_sorted later is (f :: fs) h1'.2 h2
        (fun x hx g hg => h3 x (by simp [hx]) g hg)⟩
      obtain ⟨r, e⟩ := x
      rw [emit_mem] at hx
      rcases hx with ⟨x, hx, rfl, _⟩ | hx
      · exact h1'.1 x hx
      · have := (freeEntries_mem hx).1
        rcases List.mem_cons.1 this with rfl | h
        · exact hlt'
        · exact Nat.lt_trans hlt' (h2'.1 r h)
termination_by is fs => is.length + fs.length

/-- An ascending list of numbers that are exactly those of an interval is the interval. -/
theorem sorted_interval : ∀ (n a : Nat) (l : List Nat), l.Pairwise (· < ·) →
    (∀ k, k ∈ l ↔ a ≤ k ∧ k < a + n) → l = List.range' a n
  | 0, a, l, _, hm => by
    cases l with
    | nil => rfl
    | cons x r => have := (hm x).1 (by simp); omega
  | n + 1, a, l, hs, hm => by
    cases l with
    | nil => have := (hm a).2 (by omega); simp at this
    | cons x r =>
      have hs' := List.pairwise_cons.1 hs
      have hx : x = a := by
        have h1 := (hm x).1 (by simp)
        have h2 := (hm a).2 (by omega)
        rcases List.mem_cons.1 h2 with h | h
        · exact h.symm
        · have := hs'.1 a h; omega
      subst hx
      rw [List.range'_succ]
      congr 1
      refine sorted_interval n (x + 1) r hs'.2 fun k => ?_
      have h1 := hm k
      constructor
      · intro hk
        have := hs'.1 k hk
        have := h1.1 (by simp [hk])
        omega
      · intro hk
        rcases List.mem_cons.1 (h1.2 (by omega)) with h | h
        · omega
        · exact h

theorem sectionOf_spec {b : XBlock} (h : b.Ok) (later : List XBlock) :
    (sectionOf b later).entries.map (·.1.num) =
      List.range' (sectionOf b later).first (sectionOf b later).count ∧
    (sectionOf b later).first = (if b.first = 1 then 0 else b.first) ∧
    (sectionOf b later).first + (sectionOf b later).count = b.stop := by
  have hp := h.pos
  have hb := h.bound
  have hs := emit_sorted later b.items b.free h.items h.free h.disj
  have hmem : ∀ k, k ∈ (emit later b.items b.free).map (·.1.num) ↔ 1 ≤ k ∧ b.first ≤ k ∧ k < b.stop := by
    intro k
    rw [← h.mem k, mem_nums]
    simp only [List.mem_map]
    constructor
    · rintro ⟨⟨r, e⟩, hx, rfl⟩
      rw [emit_mem] at hx
      rcases hx with ⟨x, hx, rfl, _⟩ | hx
      · exact .inl ⟨x, hx, rfl⟩
      · exact .inr ⟨r, (freeEntries_mem hx).1, rfl⟩
    · rintro (⟨x, hx, rfl⟩ | ⟨f, hf, rfl⟩)
      · exact ⟨(x.1, _), (emit_mem later _ _ _ _).2 (.inl ⟨x, hx, rfl, rfl⟩), rfl⟩
      · obtain ⟨e, he⟩ := mem_freeEntries (later := later) hf
        exact ⟨(f, e), (emit_mem later _ _ _ _).2 (.inr he), rfl⟩
  have hs' : ((emit later b.items b.free).map (·.1.num)).Pairwise (· < ·) := List.pairwise_map.2 hs
  simp only [XBlock.stop] at *
  have hzero : ∀ n : Nat, List.range' 0 (n + 1) = 0 :: List.range' 1 n := fun n => by rw [List.range'_succ]
  by_cases h1 : b.first = 1
  · have e : u32 (b.count + 1) = b.count + 1 := u32_of_lt (by omega)
    simp only [sectionOf, h1, if_true, e]
    refine ⟨?_, trivial, by omega⟩
    rw [hzero]
    simp only [Nat.sub_self, if_true, List.map_append, List.map_cons, List.map_nil, List.singleton_append]
    congr 1
    refine sorted_interval _ _ _ hs' fun k => ?_
    rw [hmem]; omega
  · simp only [sectionOf, if_neg h1]
    by_cases h0 : b.first = 0
    · simp only [h0, if_true, List.map_append, List.map_cons, List.map_nil, List.singleton_append]
      refine ⟨?_, trivial, trivial⟩
      obtain ⟨c, hc⟩ : ∃ c, b.count = c + 1 := ⟨b.count - 1, by omega⟩
      rw [hc, hzero]
      congr 1
      refine sorted_interval _ _ _ hs' fun k => ?_
      rw [hmem]; omega
    · simp only [if_neg h0, List.nil_append]
      refine ⟨?_, trivial, trivial⟩
      refine sorted_interval _ _ _ hs' fun k => ?_
      rw [hmem]; omega

/-! ### Collecting -/

/-- The reference an entry is written for. -/
def XAdd.written : XAdd → Option Ref
  | .inUse r _ => some r
  | .old _ => none
  | .free r => some r

def XAdd.ref : XAdd → Ref
  | .inUse r _ => r
  | .old r => r
  | .free r => r

namespace Spec
/-- The objects a save can have: numbers from 1 on, each given at most one entry. -/
structure Adds (adds : List XAdd) : Prop where
  range : ∀ a ∈ adds, 1 ≤ a.ref.num ∧ a.ref.num < 4294967295
  distinct : ((adds.filterMap XAdd.written).map Ref.num).Nodup
end Spec

theorem collect_inv : ∀ (todo : List XAdd) (done : List XAdd) (x : XRefW),
    (∀ a ∈ todo, 1 ≤ a.ref.num ∧ a.ref.num < 4294967295) →
    (((done ++ todo).filterMap XAdd.written).map Ref.num).Nodup →
    BlocksOk x.blocks →
    (∀ y, y ∈ allItems x.blocks ↔ XAdd.inUse y.1 y.2 ∈ done) →
    (∀ f, f ∈ allFree x.blocks ↔ XAdd.free f ∈ done) →
    BlocksOk (todo.foldl XRefW.add x).blocks ∧
    (∀ y, y ∈ allItems (todo.foldl XRefW.add x).blocks ↔ XAdd.inUse y.1 y.2 ∈ done ++ todo) ∧
    (∀ f, f ∈ allFree (todo.foldl XRefW.add x).blocks ↔ XAdd.free f ∈ done ++ todo)
  | [], done, x, _, _, h1, h2, h3 => by rw [List.append_nil]; exact ⟨h1, h2, h3⟩
  | a :: todo, done, x, hr, hd, h1, h2, h3 => by
    have hra := hr a (by simp)
    have key : ∀ (r : Ref) (off : Option Nat), a.written = some r → a.ref = r →
        ∀ b ∈ x.blocks, r.num ∉ b.nums := by
      intro r off hw hrr b hb hn
      rw [List.filterMap_append, List.map_append, List.nodup_append] at hd
      have hmem : r.num ∈ (done.filterMap XAdd.written).map Ref.num := by
        rcases mem_nums.1 hn with ⟨y, hy, e⟩ | ⟨f, hf, e⟩
        · have := (h2 y).1 (List.mem_flatMap.2 ⟨b, hb, hy⟩)
          exact List.mem_map.2 ⟨y.1, List.mem_filterMap.2 ⟨_, this, rfl⟩, e⟩
        · have := (h3 f).1 (List.mem_flatMap.2 ⟨b, hb, hf⟩)
          exact List.mem_map.2 ⟨f, List.mem_filterMap.2 ⟨_, this, rfl⟩, e⟩
      exact hd.2.2 _ hmem _ (List.mem_map.2 ⟨r, List.mem_filterMap.2 ⟨a, by simp, hw⟩, rfl⟩) rfl
    rw [List.foldl_cons]
    have happ : done ++ a :: todo = (done ++ [a]) ++ todo := by simp
    rw [happ] at hd ⊢
    have go := fun h1 h2 h3 => collect_inv todo (done ++ [a]) (x.add a) (fun a ha => hr a (by simp [ha])) hd h1 h2 h3
    cases a with
    | inUse r off =>
      obtain ⟨hok, hadd⟩ := addBlock_ok h1 (r := r) (off := some off) hra.1 hra.2 (key r (some off) rfl rfl)
      refine go hok (fun y => ?_) (fun f => ?_)
      · have := hadd.1 y
        rw [XRefW.add, this, h2]
        simp only [List.mem_append, List.mem_singleton, XAdd.inUse.injEq, Option.some.injEq]
        constructor
        · rintro (h | ⟨e1, e2⟩)
          · exact .inl h
          · exact .inr ⟨e1, e2.symm⟩
        · rintro (h | ⟨e1, e2⟩)
          · exact .inl h
          · exact .inr ⟨e1, e2.symm⟩
      · have := hadd.2 f
        rw [XRefW.add, this, h3]
        simp
    | old r =>
      refine go h1 (fun y => ?_) (fun f => ?_)
      · rw [XRefW.add, h2]; simp
      · rw [XRefW.add, h3]; simp
    | free r =>
      obtain ⟨hok, hadd⟩ := addBlock_ok h1 (r := r) (off := none) hra.1 hra.2 (key r none rfl rfl)
      refine go hok (fun y => ?_) (fun f => ?_)
      · have := hadd.1 y
        rw [XRefW.add, this, h2]
        simp
      · have := hadd.2 f
        rw [XRefW.add, this, h3]
        simp

theorem empty_block_ok : (XBlock.mk 0 1 [] []).Ok := by
  refine ⟨by simp, by simp [XBlock.stop], by simp, by simp, fun n => ?_, by simp⟩
  simp [XBlock.nums, XBlock.stop]
  omega

theorem collect_spec {adds : List XAdd} (h : Spec.Adds adds) (inc : Bool) :
    BlocksOk (collect inc adds).blocks ∧
    (∀ y, y ∈ allItems (collect inc adds).blocks ↔ XAdd.inUse y.1 y.2 ∈ adds) ∧
    (∀ f, f ∈ allFree (collect inc adds).blocks ↔ XAdd.free f ∈ adds) ∧
    (inc = true → ∃ t, (collect inc adds).blocks = ⟨0, 1, [], []⟩ :: t) ∧
    (inc = false → ∀ b ∈ (collect inc adds).blocks, 1 ≤ b.first) := by
  have := collect_inv adds [] ⟨[], 0⟩ h.range (by simpa using h.distinct) ⟨List.Pairwise.nil, by simp⟩
    (by simp [allItems]) (by simp [allFree])
  simp only [List.nil_append] at this
  obtain ⟨h1, h2, h3⟩ := this
  have hfirst : ∀ b ∈ (adds.foldl XRefW.add ⟨[], 0⟩).blocks, 1 ≤ b.first := by
    suffices ∀ (l : List XAdd) (x : XRefW), (∀ a ∈ l, 1 ≤ a.ref.num ∧ a.ref.num < 4294967295) →
        (∀ b ∈ x.blocks, 1 ≤ b.first) → ∀ b ∈ (l.foldl XRefW.add x).blocks, 1 ≤ b.first from
      this adds ⟨[], 0⟩ h.range (by simp)
    intro l
    induction l with
    | nil => intro x _ hx; exact hx
    | cons a l ih =>
      intro x hr hx
      have hins : ∀ (r : Ref) (off : Option Nat), 1 ≤ r.num → ∀ b ∈ addBlock x.blocks r off, 1 ≤ b.first := by
        intro r off h1
        have hii : ∀ (bs : List XBlock), (∀ b ∈ bs, 1 ≤ b.first) → ∀ bs', insertInto r off bs = some bs' →
            ∀ b ∈ bs', 1 ≤ b.first := by
          intro bs
          induction bs with
          | nil => intro _ bs' hi; simp [insertInto] at hi
          | cons c bs ihb =>
            intro hb bs' hi
            rw [insertInto] at hi
            cases hc : c.insertItem r off with
            | some c' =>
              rw [hc] at hi
              simp only [Option.some.injEq] at hi
              subst hi
              intro b hbm
              rcases List.mem_cons.1 hbm with rfl | hbm
              · have h0 := hb c (by simp)
                unfold XBlock.insertItem at hc
                split at hc
                · cases off <;> simp only [Option.some.injEq] at hc <;> subst hc <;> exact h0
                · split at hc
                  · rename_i he
                    cases off <;> simp only [Option.some.injEq] at hc <;> subst hc <;> dsimp only <;> omega
                  · split at hc
                    · cases off <;> simp only [Option.some.injEq] at hc <;> subst hc <;> exact h0
                    · exact absurd hc (by simp)
              · exact hb b (by simp [hbm])
            | none =>
              rw [hc] at hi
              simp only [Option.map_eq_some_iff] at hi
              obtain ⟨bs1, hi1, rfl⟩ := hi
              intro b hbm
              rcases List.mem_cons.1 hbm with rfl | hbm
              · exact hb _ (by simp)
              · exact ihb (fun b h => hb b (by simp [h])) bs1 hi1 b hbm
        cases hi : insertInto r off x.blocks with
        | some bs' => rw [addBlock, hi]; exact hii _ hx _ hi
        | none =>
          rw [addBlock, hi]
          intro b hb
          have := (stdSort_perm _ _).mem_iff.1 hb
          rcases List.mem_append.1 this with hb | hb
          · exact hx b hb
          · simp only [List.mem_singleton] at hb
            subst hb
            cases off <;> exact h1
      have hra := (hr a (by simp)).1
      refine ih (x.add a) (fun b hb => hr b (by simp [hb])) ?_
      cases a with
      | inUse r off => exact hins r (some off) hra
      | old r => exact hx
      | free r => exact hins r none hra
  cases inc with
  | false =>
    exact ⟨h1, h2, h3, by simp, fun _ => hfirst⟩
  | true =>
    refine ⟨⟨?_, ?_⟩, ?_, ?_, fun _ => ⟨_, rfl⟩, by simp⟩
    · exact List.pairwise_cons.2 ⟨fun b hb => hfirst b hb, h1.ordered⟩
    · intro b hb
      rcases List.mem_cons.1 hb with rfl | hb
      · exact empty_block_ok
      · exact h1.ok b hb
    · intro y
      rw [← h2 y]
      simp [collect, XRefW.setFirstEmpty, allItems]
    · intro y
      rw [← h3 y]
      simp [collect, XRefW.setFirstEmpty, allFree]

/-! ### Specification -/
namespace Spec

/-- All entries of the subsections, in the order they are written. -/
def allEntries (ss : List XSection) : List (Ref × XEntry) := ss.flatMap XSection.entries

/-- The subsections list every object exactly once, at its own number. -/
structure IsTable (adds : List XAdd) (ss : List XSection) : Prop where
  /-- the entries of a subsection are those of the numbers `first`, `first + 1`, ..., `count` of them -/
  consecutive : ∀ s ∈ ss, s.entries.map (·.1.num) = List.range' s.first s.count
  /-- the subsections are disjoint and ascending, with a gap between them -/
  apart : ss.Pairwise (fun a b => a.first + a.count < b.first)
  /-- no number occurs twice -/
  increasing : (allEntries ss).Pairwise (fun x y => x.1.num < y.1.num)
  /-- the objects in use, each with its offset and generation -/
  inUse : ∀ r off, XAdd.inUse r off ∈ adds ↔ (r, ⟨.inUse, off, r.gen⟩) ∈ allEntries ss
  /-- the free objects, each with its generation -/
  free : ∀ r, r.num ≠ 0 → (XAdd.free r ∈ adds ↔ ∃ next, (r, ⟨.free, next, r.gen⟩) ∈ allEntries ss)
  /-- nothing else is listed but entry 0, and a free entry points to a free object or to 0 -/
  only : ∀ r e, (r, e) ∈ allEntries ss → e.gen = r.gen ∧
    ((r = ⟨0, 65535⟩ ∧ e.type = .free) ∨ ∃ a ∈ adds, a.written = some r) ∧
    (e.type = .inUse ∨ e.type = .free ∧ (e.variant = 0 ∨ ∃ f, XAdd.free f ∈ adds ∧ e.variant = f.num))

/-- Where the free entry of a number points. -/
def nextOf (ss : List XSection) (n : Nat) : Option Nat :=
  ((allEntries ss).find? (fun e => decide (e.2.type = .free) && decide (e.1.num = n))).map (·.2.variant)

/-- Following the numbers from `n` on visits the list and ends at 0. -/
inductive FreeChain (next : Nat → Option Nat) : Nat → List Nat → Prop
  | last (n : Nat) : next n = some 0 → FreeChain next n [n]
  | step (n m : Nat) (l : List Nat) : next n = some m → m ≠ 0 → FreeChain next m l → FreeChain next n (n :: l)

end Spec
open Spec

/-! ### The theorems -/

theorem sectionsOf_cons (b : XBlock) (bs : List XBlock) :
    allEntries (sectionsOf (b :: bs)) = (sectionOf b bs).entries ++ allEntries (sectionsOf bs) := by
  simp [sectionsOf, allEntries]

/-- The entry of object 0, if the block has one. -/
def headOf (b : XBlock) (later : List XBlock) : List (Ref × XEntry) :=
  if b.first ≤ 1 then [(⟨0, 65535⟩, freeEntry 65535 (nextFreeRef b.free later))] else []

theorem sectionOf_entries (b : XBlock) (later : List XBlock) :
    (sectionOf b later).entries = headOf b later ++ emit later b.items b.free := by
  simp only [sectionOf, headOf]
  by_cases h1 : b.first = 1
  · simp [h1]
  · by_cases h0 : b.first = 0
    · simp [h0]
    · rw [if_neg h1, if_neg h0, if_neg (by omega)]

theorem freeEntry_variant (g : Nat) (later : List XBlock) (fs : List Ref) :
    (freeEntry g (nextFreeRef fs later)).variant = 0 ∨
      ∃ f ∈ fs ++ allFree later, (freeEntry g (nextFreeRef fs later)).variant = f.num := by
  rw [nextFreeRef_eq]
  cases h : fs ++ allFree later with
  | nil => exact .inl rfl
  | cons f t => exact .inr ⟨f, by simp, rfl⟩

theorem freeEntries_variant {later : List XBlock} {r : Ref} {e : XEntry} : ∀ {fs : List Ref},
    (r, e) ∈ freeEntries later fs → e.variant = 0 ∨ ∃ f ∈ fs ++ allFree later, e.variant = f.num
  | [], h => by simp [freeEntries] at h
  | f :: fs, h => by
    rw [freeEntries, List.mem_cons] at h
    rcases h with h | h
    · simp only [Prod.mk.injEq] at h
      rw [h.2]
      rcases freeEntry_variant f.gen later fs with h | ⟨g, hg, h⟩
      · exact .inl h
      · exact .inr ⟨g, by simp only [List.cons_append, List.mem_cons]; exact .inr hg, h⟩
    · rcases freeEntries_variant h with h | ⟨g, hg, h⟩
      · exact .inl h
      · exact .inr ⟨g, by simp only [List.cons_append, List.mem_cons]; exact .inr hg, h⟩

theorem headOf_variant {b : XBlock} {later : List XBlock} {r : Ref} {e : XEntry} (h : (r, e) ∈ headOf b later) :
    e.variant = 0 ∨ ∃ f ∈ b.free ++ allFree later, e.variant = f.num := by
  unfold headOf at h
  split at h
  · simp only [List.mem_singleton, Prod.mk.injEq] at h
    rw [h.2]; exact freeEntry_variant _ _ _
  · simp at h

theorem headOf_mem {b : XBlock} {later : List XBlock} {r : Ref} {e : XEntry} (h : (r, e) ∈ headOf b later) :
    r = ⟨0, 65535⟩ ∧ e.type = .free ∧ e.gen = 65535 := by
  unfold headOf at h
  split at h
  · simp only [List.mem_singleton, Prod.mk.injEq] at h
    rw [h.1, h.2]; exact ⟨rfl, rfl, rfl⟩
  · simp at h

theorem sections_mem {r : Ref} {e : XEntry} : ∀ {bs : List XBlock},
    (r, e) ∈ allEntries (sectionsOf bs) ↔ ∃ pre b later, bs = pre ++ b :: later ∧
      ((r, e) ∈ headOf b later ∨ (r, e) ∈ emit later b.items b.free)
  | [] => by simp [sectionsOf, allEntries]
  | b :: bs => by
    rw [sectionsOf_cons, List.mem_append, sectionOf_entries, List.mem_append, sections_mem]
    constructor
    · rintro (h | ⟨pre, c, later, rfl, h⟩)
      · exact ⟨[], b, bs, rfl, h⟩
      · exact ⟨b :: pre, c, later, rfl, h⟩
    · rintro ⟨pre, c, later, h, h'⟩
      cases pre with
      | nil =>
        simp only [List.nil_append, List.cons.injEq] at h
        obtain ⟨rfl, rfl⟩ := h
        exact .inl h'
      | cons d pre =>
        simp only [List.cons_append, List.cons.injEq] at h
        exact .inr ⟨pre, c, later, h.2, h'⟩

theorem sectionsOf_increasing : ∀ {bs : List XBlock}, Apart bs → (∀ b ∈ bs, b.Ok) →
    (sectionsOf bs).Pairwise (fun a b => a.first + a.count < b.first) ∧
    (allEntries (sectionsOf bs)).Pairwise (fun x y => x.1.num < y.1.num) ∧
    (∀ x ∈ allEntries (sectionsOf bs), ∃ s ∈ sectionsOf bs, s.first ≤ x.1.num ∧ x.1.num < s.first + s.count) ∧
    (∀ s ∈ sectionsOf bs, (∃ b ∈ bs, s.first = (if b.first = 1 then 0 else b.first)) ∧
      s.entries.map (·.1.num) = List.range' s.first s.count)
  | [], _, _ => by simp [sectionsOf, allEntries]
  | b :: bs, ha, hok => by
    have ha' := List.pairwise_cons.1 ha
    have hb := hok b (by simp)
    obtain ⟨h1, h2, h3, h4⟩ := sectionsOf_increasing ha'.2 (fun c hc => hok c (by simp [hc]))
    obtain ⟨g1, g2, g3⟩ := sectionOf_spec hb bs
    have hfar : ∀ s ∈ sectionsOf bs, b.stop < s.first := by
      intro s hs
      obtain ⟨⟨c, hc, e⟩, _⟩ := h4 s hs
      have h5 := ha'.1 c hc
      have h6 := hb.pos
      rw [e]
      simp only [XBlock.stop] at *
      split <;> omega
    have hin : ∀ x ∈ (sectionOf b bs).entries, (sectionOf b bs).first ≤ x.1.num ∧
        x.1.num < (sectionOf b bs).first + (sectionOf b bs).count := by
      intro x hx
      have : x.1.num ∈ (sectionOf b bs).entries.map (·.1.num) := List.mem_map.2 ⟨x, hx, rfl⟩
      rw [g1, List.mem_range'_1] at this
      exact this
    refine ⟨?_, ?_, ?_, ?_⟩
    · rw [sectionsOf, List.pairwise_cons]
      refine ⟨fun s hs => ?_, h1⟩
      rw [g3]; exact hfar s hs
    · rw [sectionsOf_cons, List.pairwise_append]
      refine ⟨?_, h2, fun x hx y hy => ?_⟩
      · have : ((sectionOf b bs).entries.map (·.1.num)).Pairwise (· < ·) := by
          rw [g1]; exact List.pairwise_lt_range'
        exact List.pairwise_map.1 this
      · obtain ⟨s, hs, h5, _⟩ := h3 y hy
        have h6 := hfar s hs
        have := hin x hx
        omega
    · intro x hx
      rw [sectionsOf_cons, List.mem_append] at hx
      rcases hx with hx | hx
      · exact ⟨_, by rw [sectionsOf]; simp, hin x hx⟩
      · obtain ⟨s, hs, h5⟩ := h3 x hx
        exact ⟨s, by rw [sectionsOf]; simp [hs], h5⟩
    · intro s hs
      rw [sectionsOf] at hs
      rcases List.mem_cons.1 hs with rfl | hs
      · exact ⟨⟨b, by simp, g2⟩, g1⟩
      · obtain ⟨⟨c, hc, e⟩, h5⟩ := h4 s hs
        exact ⟨⟨c, by simp [hc], e⟩, h5⟩

theorem mem_sections_inUse {r : Ref} {off : Nat} {bs : List XBlock} :
    (r, ⟨.inUse, off, r.gen⟩) ∈ allEntries (sectionsOf bs) ↔ (r, off) ∈ allItems bs := by
  rw [sections_mem]
  simp only [allItems, List.mem_flatMap]
  constructor
  · rintro ⟨pre, b, later, rfl, h | h⟩
    · exact absurd (headOf_mem h).2.1 (by simp)
    · rw [emit_mem] at h
      rcases h with ⟨x, hx, e1, e2⟩ | h
      · simp only [XEntry.mk.injEq, true_and] at e2
        exact ⟨b, by simp, by rw [e1, e2.1]; exact hx⟩
      · exact absurd (freeEntries_mem h).2.1 (by simp)
  · rintro ⟨b, hb, hx⟩
    obtain ⟨pre, later, rfl⟩ := List.append_of_mem hb
    exact ⟨pre, b, later, rfl, .inr ((emit_mem _ _ _ _ _).2 (.inl ⟨_, hx, rfl, rfl⟩))⟩

theorem mem_sections_free {r : Ref} (h0 : r.num ≠ 0) {bs : List XBlock} :
    (∃ next, (r, ⟨.free, next, r.gen⟩) ∈ allEntries (sectionsOf bs)) ↔ r ∈ allFree bs := by
  simp only [allFree, List.mem_flatMap]
  constructor
  · rintro ⟨next, h⟩
    obtain ⟨pre, b, later, rfl, h | h⟩ := sections_mem.1 h
    · exact absurd (by rw [(headOf_mem h).1]) h0
    · rw [emit_mem] at h
      rcases h with ⟨x, hx, e1, e2⟩ | h
      · simp at e2
      · exact ⟨b, by simp, (freeEntries_mem h).1⟩
  · rintro ⟨b, hb, hx⟩
    obtain ⟨pre, later, rfl⟩ := List.append_of_mem hb
    obtain ⟨e, he⟩ := mem_freeEntries (later := later) hx
    obtain ⟨_, ht, hg⟩ := freeEntries_mem he
    refine ⟨e.variant, sections_mem.2 ⟨pre, b, later, rfl, .inr ((emit_mem _ _ _ _ _).2 (.inr ?_))⟩⟩
    have : e = ⟨.free, e.variant, r.gen⟩ := by
      cases e; simp_all
    rw [← this]; exact he

/-- The blocks that are written. -/
theorem written_blocks {adds : List XAdd} (h : Spec.Adds adds) (inc : Bool)
    (hne : inc = true ∨ ∃ a ∈ adds, a.written ≠ none) :
    ∃ bs, mergeBlocks (collect inc adds).blocks = .ok bs ∧ Apart bs ∧ (∀ b ∈ bs, b.Ok) ∧
      (∀ y, y ∈ allItems bs ↔ XAdd.inUse y.1 y.2 ∈ adds) ∧ (∀ f, f ∈ allFree bs ↔ XAdd.free f ∈ adds) ∧
      (inc = true → ∃ b t, bs = b :: t ∧ b.first = 0) ∧ (inc = false → ∀ b ∈ bs, 1 ≤ b.first) := by
  obtain ⟨h1, h2, h3, h4, h5⟩ := collect_spec h inc
  cases hb : (collect inc adds).blocks with
  | nil =>
    exfalso
    rw [hb] at h2 h3 h4
    rcases hne with rfl | ⟨a, ha, hw⟩
    · obtain ⟨t, ht⟩ := h4 rfl; simp at ht
    · cases a with
      | inUse r off => simpa [allItems] using (h2 (r, off)).2 ha
      | old r => exact hw rfl
      | free r => simpa [allFree] using (h3 r).2 ha
  | cons b t =>
    rw [hb] at h1 h2 h3 h4 h5
    obtain ⟨g1, g2, ⟨hd, tl, g3, g3'⟩, g4, g5⟩ := mergeFrom_spec t b h1
    refine ⟨_, rfl, g1, g2, ?_, ?_, ?_, ?_⟩
    · rw [g4]; exact h2
    · rw [g5]; exact h3
    · intro hi
      obtain ⟨t', ht⟩ := h4 hi
      simp only [List.cons.injEq] at ht
      exact ⟨hd, tl, g3, by rw [g3', ht.1]⟩
    · intro hi c hc
      have hf := h5 hi b (by simp)
      rw [g3] at hc g1 g2
      rcases List.mem_cons.1 hc with rfl | hc
      · omega
      · have := (List.pairwise_cons.1 g1).1 c hc
        have := (g2 hd (by simp)).pos
        simp only [XBlock.stop] at *
        omega

/-- **C34.** The table written by a save lists every object exactly once at its own number, whatever the
order the objects were given in. -/
theorem C34_table {adds : List XAdd} (h : Spec.Adds adds) (inc : Bool)
    (hne : inc = true ∨ ∃ a ∈ adds, a.written ≠ none) :
    ∃ ss, writeSections inc adds = .ok ss ∧ Spec.IsTable adds ss := by
  obtain ⟨bs, hm, h1, h2, h3, h4, h5, h6⟩ := written_blocks h inc hne
  refine ⟨sectionsOf bs, by rw [writeSections, hm], ?_⟩
  obtain ⟨g1, g2, g3, g4⟩ := sectionsOf_increasing h1 h2
  refine ⟨fun s hs => (g4 s hs).2, g1, g2, fun r off => ?_, fun r h0 => ?_, fun r e he => ?_⟩
  · rw [mem_sections_inUse, h3]
  · rw [mem_sections_free h0, h4]
  · obtain ⟨pre, b, later, rfl, he | he⟩ := sections_mem.1 he
    · obtain ⟨e1, e2, e3⟩ := headOf_mem he
      refine ⟨by rw [e3, e1], .inl ⟨e1, e2⟩, .inr ⟨e2, ?_⟩⟩
      rcases headOf_variant he with h | ⟨f, hf, h⟩
      · exact .inl h
      · refine .inr ⟨f, (h4 f).1 ?_, h⟩
        simp only [allFree, List.flatMap_append, List.flatMap_cons, List.mem_append] at hf ⊢
        exact .inr hf
    · rw [emit_mem] at he
      rcases he with ⟨x, hx, e1, e2⟩ | he
      · refine ⟨by rw [e2, e1], .inr ⟨.inUse x.1 x.2, (h3 x).1 ?_, by rw [e1]; rfl⟩, .inl (by rw [e2])⟩
        simp only [allItems, List.mem_flatMap]
        exact ⟨b, by simp, hx⟩
      · obtain ⟨e1, e2, e3⟩ := freeEntries_mem he
        refine ⟨e3, .inr ⟨.free r, (h4 r).1 ?_, rfl⟩, .inr ⟨e2, ?_⟩⟩
        · simp only [allFree, List.mem_flatMap]
          exact ⟨b, by simp, e1⟩
        · rcases freeEntries_variant he with h | ⟨f, hf, h⟩
          · exact .inl h
          · refine .inr ⟨f, (h4 f).1 ?_, h⟩
            simp only [allFree, List.flatMap_append, List.flatMap_cons, List.mem_append] at hf ⊢
            exact .inr hf

/-- The trailer's `/Size` is one more than the greatest object number of the save. -/
theorem C34_size {adds : List XAdd} (h : Spec.Adds adds) (inc : Bool) (hne : adds ≠ []) :
    (∀ a ∈ adds, a.ref.num < (collect inc adds).size) ∧ (∃ a ∈ adds, a.ref.num + 1 = (collect inc adds).size) := by
  have key : ∀ (l : List XAdd) (x : XRefW), (∀ a ∈ l, a.ref.num ≤ (l.foldl XRefW.add x).max) ∧
      x.max ≤ (l.foldl XRefW.add x).max ∧
      ((l.foldl XRefW.add x).max = x.max ∨ ∃ a ∈ l, a.ref.num = (l.foldl XRefW.add x).max) := by
    intro l
    induction l with
    | nil => intro x; simp
    | cons a l ih =>
      intro x
      obtain ⟨i1, i2, i3⟩ := ih (x.add a)
      have hx : (x.add a).max = if a.ref.num > x.max then a.ref.num else x.max := by cases a <;> rfl
      have hge : a.ref.num ≤ (x.add a).max ∧ x.max ≤ (x.add a).max ∧
          ((x.add a).max = x.max ∨ (x.add a).max = a.ref.num) := by
        rw [hx]; split <;> omega
      rw [List.foldl_cons]
      refine ⟨fun b hb => ?_, by omega, ?_⟩
      · rcases List.mem_cons.1 hb with rfl | hb
        · omega
        · exact i1 b hb
      · rcases i3 with i3 | ⟨b, hb, e⟩
        · rcases hge.2.2 with e | e
          · left; omega
          · right; exact ⟨a, by simp, by omega⟩
        · right; exact ⟨b, by simp [hb], e⟩
  obtain ⟨k1, k2, k3⟩ := key adds ⟨[], 0⟩
  have hmax : (collect inc adds).max = (adds.foldl XRefW.add ⟨[], 0⟩).max := by cases inc <;> rfl
  have hex : ∃ a ∈ adds, a.ref.num = (adds.foldl XRefW.add ⟨[], 0⟩).max := by
    dsimp only at k3
    rcases k3 with k3 | k3
    · cases adds with
      | nil => exact absurd rfl hne
      | cons a t =>
        have := k1 a (by simp)
        have := (h.range a (by simp)).1
        omega
    · exact k3
  obtain ⟨a, ha, e⟩ := hex
  have hr := h.range a ha
  have hs : (collect inc adds).size = (adds.foldl XRefW.add ⟨[], 0⟩).max + 1 := by
    rw [XRefW.size, hmax]; exact u32_of_lt (by omega)
  rw [hs]
  exact ⟨fun b hb => by have := k1 b hb; omega, a, ha, by omega⟩

/-! #### The free list -/

theorem sections_isFree : ∀ {bs : List XBlock}, (∀ b ∈ bs, 2 ≤ b.first) →
    (allEntries (sectionsOf bs)).filter isFree = links (allFree bs)
  | [], _ => by simp [sectionsOf, allEntries, allFree, links]
  | b :: bs, h => by
    have hb := h b (by simp)
    rw [sectionsOf_cons, sectionOf_entries, List.filter_append, List.filter_append, emit_free,
      sections_isFree (fun c hc => h c (by simp [hc])), headOf, if_neg (by omega)]
    simp only [List.filter_nil, List.nil_append]
    rw [links_append]
    simp [allFree]

theorem sections_isFree_zero {b : XBlock} {bs : List XBlock} (h0 : b.first ≤ 1) (h : ∀ c ∈ bs, 2 ≤ c.first) :
    (allEntries (sectionsOf (b :: bs))).filter isFree = links (⟨0, 65535⟩ :: allFree (b :: bs)) := by
  rw [sectionsOf_cons, sectionOf_entries, List.filter_append, List.filter_append, emit_free, sections_isFree h,
    headOf, if_pos h0, List.filter_cons_of_pos (by simp [isFree, freeEntry]), List.filter_nil, links,
    List.append_assoc, links_append, nextFreeRef_eq]
  simp [allFree]

theorem links_find : ∀ (pre : List Ref) (f : Ref) (fs : List Ref),
    (pre ++ f :: fs).Pairwise (fun x y => x.num < y.num) →
    (links (pre ++ f :: fs)).find? (fun e => decide (e.1.num = f.num)) = some (f, freeEntry f.gen fs.head?)
  | [], f, fs, _ => by simp [links]
  | p :: pre, f, fs, h => by
    have h' := List.pairwise_cons.1 h
    have := h'.1 f (by simp)
    rw [List.cons_append, links, List.find?_cons_of_neg (by simp; omega)]
    exact links_find pre f fs h'.2

theorem links_chain : ∀ (fs pre : List Ref) (f : Ref),
    (pre ++ f :: fs).Pairwise (fun x y => x.num < y.num) →
    FreeChain (fun n => ((links (pre ++ f :: fs)).find? (fun e => decide (e.1.num = n))).map (·.2.variant)) f.num
      ((f :: fs).map Ref.num)
  | [], pre, f, h => by
    refine .last _ ?_
    rw [links_find pre f [] h]; rfl
  | g :: fs, pre, f, h => by
    refine .step f.num g.num _ ?_ ?_ ?_
    · rw [links_find pre f (g :: fs) h]; rfl
    · have := (List.pairwise_cons.1 (List.pairwise_append.1 h).2.1).1 g (by simp)
      omega
    · have e : pre ++ f :: g :: fs = (pre ++ [f]) ++ g :: fs := by simp
      rw [e] at h ⊢
      exact links_chain fs (pre ++ [f]) g h

/-- **C35.** When the table has an entry 0, that is after an incremental save or when object 1 is listed,
following the next-free numbers from entry 0 visits every free object once, in ascending order, and ends
at 0. -/
theorem C35_free_chain_partial {adds : List XAdd} (h : Spec.Adds adds) (inc : Bool)
    (hz : inc = true ∨ ∃ a ∈ adds, ∃ r, a.written = some r ∧ r.num = 1) :
    ∃ ss l, writeSections inc adds = .ok ss ∧ Spec.FreeChain (Spec.nextOf ss) 0 (0 :: l) ∧
      l.Pairwise (· < ·) ∧ ∀ n, n ∈ l ↔ ∃ r, XAdd.free r ∈ adds ∧ r.num = n := by
  obtain ⟨bs, hm, h1, h2, h3, h4, h5, h6⟩ := written_blocks h inc (by
    rcases hz with hz | ⟨a, ha, r, hr, _⟩
    · exact .inl hz
    · exact .inr ⟨a, ha, by rw [hr]; simp⟩)
  obtain ⟨g1, g2, g3, g4⟩ := sectionsOf_increasing h1 h2
  -- the first block starts at 0 or 1
  obtain ⟨b, t, rfl, hb1⟩ : ∃ b t, bs = b :: t ∧ b.first ≤ 1 := by
    cases inc with
    | true => obtain ⟨b, t, e, hf⟩ := h5 rfl; exact ⟨b, t, e, by omega⟩
    | false =>
      rcases hz with hz | ⟨a, ha, r, hr, hr1⟩
      · simp at hz
      have hmem : ∃ b ∈ bs, 1 ∈ b.nums := by
        cases a with
        | inUse s off =>
          simp only [XAdd.written, Option.some.injEq] at hr
          subst hr
          obtain ⟨b, hb, hx⟩ := List.mem_flatMap.1 ((h3 (s, off)).2 ha)
          exact ⟨b, hb, mem_nums.2 (.inl ⟨_, hx, hr1⟩)⟩
        | old s => simp [XAdd.written] at hr
        | free s =>
          simp only [XAdd.written, Option.some.injEq] at hr
          subst hr
          obtain ⟨b, hb, hx⟩ := List.mem_flatMap.1 ((h4 s).2 ha)
          exact ⟨b, hb, mem_nums.2 (.inr ⟨_, hx, hr1⟩)⟩
      obtain ⟨b, hb, h1b⟩ := hmem
      have hb2 := ((h2 b hb).mem 1).1 h1b
      cases bs with
      | nil => simp at hb
      | cons c t =>
        refine ⟨c, t, rfl, ?_⟩
        rcases List.mem_cons.1 hb with rfl | hb
        · omega
        · have := (List.pairwise_cons.1 h1).1 b hb
          simp only [XBlock.stop] at *
          omega
  have hrest : ∀ c ∈ t, 2 ≤ c.first := by
    intro c hc
    have := (List.pairwise_cons.1 h1).1 c hc
    have := (h2 b (by simp)).pos
    simp only [XBlock.stop] at *
    omega
  have hfree := sections_isFree_zero hb1 hrest
  have hsorted : (⟨0, 65535⟩ :: allFree (b :: t) : List Ref).Pairwise (fun x y => x.num < y.num) := by
    have h7 := g2.filter isFree
    rw [hfree] at h7
    have : ∀ l : List Ref, (links l).map (·.1) = l := by
      intro l
      induction l with
      | nil => rfl
      | cons f fs ih => simp [links, ih]
    have h8 : ((links (⟨0, 65535⟩ :: allFree (b :: t))).map (·.1)).Pairwise (fun x y => x.num < y.num) :=
      List.pairwise_map.2 h7
    rw [this] at h8
    exact h8
  have hnext : Spec.nextOf (sectionsOf (b :: t)) =
      fun n => ((links ([] ++ ⟨0, 65535⟩ :: allFree (b :: t))).find? (fun e => decide (e.1.num = n))).map (·.2.variant) := by
    funext n
    rw [Spec.nextOf, List.nil_append, ← hfree, List.find?_filter]
    simp only [isFree]
    congr 2
    funext a
    by_cases u : a.2.type = .free <;> by_cases v : a.1.num = n <;> simp [u, v]
  refine ⟨sectionsOf (b :: t), (allFree (b :: t)).map Ref.num, by rw [writeSections, hm], ?_, ?_, ?_⟩
  · rw [hnext]
    exact links_chain (allFree (b :: t)) [] ⟨0, 65535⟩ hsorted
  · exact List.pairwise_map.2 (List.pairwise_cons.1 hsorted).2
  · intro n
    simp only [List.mem_map, h4]

/-- A full save whose object 1 has no entry (it was removed while numbers are not reused, say) writes a table
without entry 0, so that its free list has no head. -/
theorem C35_no_head_false {adds : List XAdd} (h : Spec.Adds adds)
    (hne : ∃ a ∈ adds, a.written ≠ none) (hz : ∀ a ∈ adds, ∀ r, a.written = some r → r.num ≠ 1) :
    ∃ ss, writeSections false adds = .ok ss ∧ ∀ x ∈ Spec.allEntries ss, x.1.num ≠ 0 := by
  obtain ⟨bs, hm, h1, h2, h3, h4, h5, h6⟩ := written_blocks h false (.inr hne)
  refine ⟨sectionsOf bs, by rw [writeSections, hm], ?_⟩
  have hfirst : ∀ b ∈ bs, 2 ≤ b.first := by
    intro b hb
    have hb1 := h6 rfl b hb
    rcases Nat.lt_or_ge 1 b.first with h | h
    · exact h
    have hok := h2 b hb
    have : 1 ∈ b.nums := (hok.mem 1).2 ⟨by omega, by omega, by have := hok.pos; simp only [XBlock.stop]; omega⟩
    rcases mem_nums.1 this with ⟨x, hx, e⟩ | ⟨f, hf, e⟩
    · exact absurd e (hz _ ((h3 x).1 (List.mem_flatMap.2 ⟨b, hb, hx⟩)) x.1 rfl)
    · exact absurd e (hz _ ((h4 f).1 (List.mem_flatMap.2 ⟨b, hb, hf⟩)) f rfl)
  rintro ⟨r, e⟩ hx
  obtain ⟨pre, b, later, rfl, he | he⟩ := sections_mem.1 hx
  · rw [headOf, if_neg (by have := hfirst b (by simp); omega)] at he
    simp at he
  · rw [emit_mem] at he
    have hok := h2 b (by simp)
    rcases he with ⟨x, hx', rfl, _⟩ | he
    · have := ok_items_range hok hx'; have := hfirst b (by simp); dsimp only; omega
    · have := ok_free_range hok (freeEntries_mem he).1; have := hfirst b (by simp); dsimp only; omega

/-! Concrete cases. -/
example : Spec.Adds [.inUse ⟨4, 0⟩ 100, .inUse ⟨1, 0⟩ 15, .free ⟨2, 3⟩, .inUse ⟨7, 1⟩ 300, .old ⟨9, 0⟩] :=
  ⟨by decide, by decide⟩

example : writeSections false [.inUse ⟨4, 0⟩ 100, .inUse ⟨1, 0⟩ 15, .free ⟨2, 3⟩, .free ⟨8, 1⟩, .inUse ⟨7, 1⟩ 300] =
    .ok [⟨0, 3, [(⟨0, 65535⟩, ⟨.free, 2, 65535⟩), (⟨1, 0⟩, ⟨.inUse, 15, 0⟩), (⟨2, 3⟩, ⟨.free, 8, 3⟩)]⟩,
      ⟨4, 1, [(⟨4, 0⟩, ⟨.inUse, 100, 0⟩)]⟩,
      ⟨7, 2, [(⟨7, 1⟩, ⟨.inUse, 300, 1⟩), (⟨8, 1⟩, ⟨.free, 0, 1⟩)]⟩] := by
  simp [writeSections, collect, XRefW.add, XRefW.setFirstEmpty, addBlock, insertInto, XBlock.insertItem, XBlock.single,
    stdSort, sortIns, u32, mergeBlocks, mergeFrom, sectionsOf, sectionOf, emit, freeEntry, nextFreeRef, Ref.lt]

example : writeSections true [.inUse ⟨4, 0⟩ 100, .old ⟨1, 0⟩] =
    .ok [⟨0, 1, [(⟨0, 65535⟩, ⟨.free, 0, 65535⟩)]⟩, ⟨4, 1, [(⟨4, 0⟩, ⟨.inUse, 100, 0⟩)]⟩] := by
  simp [writeSections, collect, XRefW.add, XRefW.setFirstEmpty, addBlock, insertInto, XBlock.insertItem, XBlock.single,
    stdSort, sortIns, u32, mergeBlocks, mergeFrom, sectionsOf, sectionOf, emit, freeEntry, nextFreeRef, Ref.lt]

example : writeSections false [.inUse ⟨2, 0⟩ 15, .free ⟨3, 1⟩] =
    .ok [⟨2, 2, [(⟨2, 0⟩, ⟨.inUse, 15, 0⟩), (⟨3, 1⟩, ⟨.free, 0, 1⟩)]⟩] := by
  simp [writeSections, collect, XRefW.add, XRefW.setFirstEmpty, addBlock, insertInto, XBlock.insertItem, XBlock.single,
    stdSort, sortIns, u32, mergeBlocks, mergeFrom, sectionsOf, sectionOf, emit, freeEntry, nextFreeRef, Ref.lt]

end Pdfmm
