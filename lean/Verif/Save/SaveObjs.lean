import Verif.Save.SaveModel
import Verif.Objects.ObjListProps
import Verif.XRef.TextProps
import Verif.Streams.ObjStreamProps
/-
The list of objects built from the entries of a table, and the text of the objects.
-/
set_option autoImplicit false
namespace Pdfmm

open Spec

/-! ### From entries to objects -/

/-- The object an entry stands for. -/
def liveOf (i : Nat) : Option XEntry → List (Ref × Nat)
  | some ⟨.inUse, off, gen⟩ => if off > 0 then [(⟨i, gen % 65536⟩, off)] else []
  | _ => []

/-- The free reference an entry stands for. -/
def freeOf (i : Nat) : Option XEntry → List Ref
  | some ⟨.inUse, off, gen⟩ => if off > 0 then [] else if gen = 0 then [⟨i, 1⟩] else []
  | some ⟨.free, _, gen⟩ => if i ≠ 0 ∧ gen % 65536 + 1 < 65535 then [⟨i, gen % 65536 + 1⟩] else []
  | some ⟨.compressed, _, _⟩ => []
  | none => if i ≠ 0 then [⟨i, 1⟩] else []

def livesFrom : Nat → XEntries → List (Ref × Nat)
  | _, [] => []
  | i, e :: r => liveOf i e ++ livesFrom (i + 1) r

def freesFrom : Nat → XEntries → List Ref
  | _, [] => []
  | i, e :: r => freeOf i e ++ freesFrom (i + 1) r

theorem ref_lt_num {a b : Ref} (h : a.num < b.num) : Ref.lt a b = true := by
  have := C25_reference_order.2.2.2.1
  obtain ⟨an, ag⟩ := a
  obtain ⟨bn, bg⟩ := b
  have hne : an ≠ bn := Nat.ne_of_lt h
  simp [Ref.lt, hne]; exact h

theorem takeWhile_full {α : Type} (p : α → Bool) : ∀ (l : List α), (∀ x ∈ l, p x = true) → l.takeWhile p = l
  | [], _ => rfl
  | x :: l, h => by
    rw [List.takeWhile_cons, if_pos (h x (by simp)), takeWhile_full p l (fun y hy => h y (by simp [hy]))]

theorem dropWhile_full {α : Type} (p : α → Bool) : ∀ (l : List α), (∀ x ∈ l, p x = true) → l.dropWhile p = []
  | [], _ => rfl
  | x :: l, h => by
    rw [List.dropWhile_cons, if_pos (h x (by simp)), dropWhile_full p l (fun y hy => h y (by simp [hy]))]

theorem tryIncrement_objs {V : Type} (o : OL V) (r : Ref) :
    (o.tryIncrement r).objs = o.objs ∧ (o.tryIncrement r).free = o.free := by
  unfold OL.tryIncrement; split <;> exact ⟨rfl, rfl⟩

theorem addFree_last {V : Type} (o : OL V) (r : Ref) (h : ∀ f ∈ o.free, f.num < r.num) :
    (o.addFree r).objs = o.objs ∧ (o.addFree r).free = o.free ++ [r] := by
  have hl : ∀ f ∈ o.free, Ref.lt f r = true := fun f hf => ref_lt_num (h f hf)
  unfold OL.addFree
  simp only [takeWhile_full _ _ hl, dropWhile_full _ _ hl]
  rw [if_neg (by simp)]
  exact tryIncrement_objs _ _

theorem push_last {V : Type} (o : OL V) (r : Ref) (v : V) (h : ∀ p ∈ o.objs, p.1.num < r.num) :
    (o.push r v).objs = o.objs ++ [(r, v)] ∧ (o.push r v).free = o.free := by
  unfold OL.push
  obtain ⟨h1, h2⟩ := tryIncrement_objs { o with objs := SMap.insert r v o.objs } r
  refine ⟨?_, h2⟩
  rw [h1]
  exact SMap.insert_last _ _ _ (fun p hp => ref_lt_num (h p hp))

theorem safeAddFree_last {V : Type} (o : OL V) (i g : Nat) (h : ∀ f ∈ o.free, f.num < i) :
    (o.safeAddFree ⟨i, g⟩).objs = o.objs ∧
    (o.safeAddFree ⟨i, g⟩).free = o.free ++ (if g + 1 < 65535 then [⟨i, g + 1⟩] else []) := by
  unfold OL.safeAddFree OL.tryAddFree
  dsimp only
  have hm : maxXRefGen = 65535 := rfl
  by_cases hg : g + 1 ≥ maxXRefGen
  · rw [if_pos hg, if_neg (by omega)]
    exact ⟨rfl, by simp⟩
  · rw [if_neg hg, if_pos (by omega)]
    exact addFree_last o ⟨i, g + 1⟩ h

theorem addEntry_spec (o : OL Nat) (i : Nat) (e : Option XEntry) (h1 : ∀ p ∈ o.objs, p.1.num < i)
    (h2 : ∀ f ∈ o.free, f.num < i) (h0 : i = 0 → ∀ x, e = some x → x.type ≠ .inUse) :
    ∃ o', addEntry o i e = .ok o' ∧ o'.objs = o.objs ++ liveOf i e ∧ o'.free = o.free ++ freeOf i e := by
  match e, h0 with
  | none, _ =>
    rw [addEntry]
    by_cases hi : i ≠ 0
    · rw [if_pos hi]
      obtain ⟨a, b⟩ := addFree_last o ⟨i, 1⟩ h2
      exact ⟨_, rfl, by rw [a]; simp [liveOf], by rw [b]; simp [freeOf, hi]⟩
    · rw [if_neg hi]
      exact ⟨_, rfl, by simp [liveOf], by simp [freeOf, hi]⟩
  | some ⟨.compressed, v, g⟩, _ => exact ⟨o, rfl, by simp [liveOf], by simp [freeOf]⟩
  | some ⟨.free, v, g⟩, _ =>
    rw [addEntry]
    by_cases hi : i ≠ 0
    · rw [if_pos hi]
      obtain ⟨a, b⟩ := safeAddFree_last o i (g % 65536) h2
      refine ⟨_, rfl, by rw [a]; simp [liveOf], by rw [b]; simp [freeOf, hi]⟩
    · rw [if_neg hi]
      exact ⟨_, rfl, by simp [liveOf], by simp [freeOf, hi]⟩
  | some ⟨.inUse, v, g⟩, h0 =>
    rw [addEntry]
    have hi : i ≠ 0 := fun hi => h0 hi _ rfl rfl
    by_cases hv : v > 0
    · rw [if_pos hv, if_neg (fun hh => hi hh.1)]
      obtain ⟨a, b⟩ := push_last o ⟨i, g % 65536⟩ v h1
      exact ⟨_, rfl, by rw [a]; simp [liveOf, hv], by rw [b]; simp [freeOf, hv]⟩
    · rw [if_neg hv]
      by_cases hg : g = 0
      · rw [if_pos hg]
        obtain ⟨a, b⟩ := addFree_last o ⟨i, 1⟩ h2
        exact ⟨_, rfl, by rw [a]; simp [liveOf, hv], by rw [b]; simp [freeOf, hv, hg]⟩
      · rw [if_neg hg]
        exact ⟨_, rfl, by simp [liveOf, hv], by simp [freeOf, hv, hg]⟩

theorem mem_liveOf {i : Nat} {e : Option XEntry} {p : Ref × Nat} (h : p ∈ liveOf i e) : p.1.num = i := by
  unfold liveOf at h
  split at h
  · split at h
    · simp only [List.mem_singleton] at h; rw [h]
    · simp at h
  · simp at h

theorem mem_freeOf {i : Nat} {e : Option XEntry} {f : Ref} (h : f ∈ freeOf i e) : f.num = i := by
  unfold freeOf at h
  split at h
  · split at h
    · simp at h
    · split at h
      · simp only [List.mem_singleton] at h; rw [h]
      · simp at h
  · split at h
    · simp only [List.mem_singleton] at h; rw [h]
    · simp at h
  · simp at h
  · split at h
    · simp only [List.mem_singleton] at h; rw [h]
    · simp at h

theorem addAllEntries_spec : ∀ (es : XEntries) (i : Nat) (o : OL Nat), (∀ p ∈ o.objs, p.1.num < i) →
    (∀ f ∈ o.free, f.num < i) → (i = 0 → ∀ x, known es 0 = some x → x.type ≠ .inUse) →
    ∃ o', addAllEntries o i es = .ok o' ∧ o'.objs = o.objs ++ livesFrom i es ∧ o'.free = o.free ++ freesFrom i es
  | [], i, o, _, _, _ => ⟨o, rfl, by simp [livesFrom], by simp [freesFrom]⟩
  | e :: es, i, o, h1, h2, h0 => by
    obtain ⟨o1, a1, a2, a3⟩ := addEntry_spec o i e h1 h2 (fun hi x hx => h0 hi x (by simp [known, hx]))
    obtain ⟨o2, b1, b2, b3⟩ := addAllEntries_spec es (i + 1) o1
      (by
        intro p hp
        rw [a2, List.mem_append] at hp
        rcases hp with hp | hp
        · have := h1 p hp; omega
        · have := mem_liveOf hp; omega)
      (by
        intro p hp
        rw [a3, List.mem_append] at hp
        rcases hp with hp | hp
        · have := h2 p hp; omega
        · have := mem_freeOf hp; omega)
      (by omega)
    refine ⟨o2, ?_, ?_, ?_⟩
    · rw [addAllEntries, a1]; exact b1
    · rw [b2, a2, livesFrom]; simp
    · rw [b3, a3, freesFrom]; simp

theorem livesFrom_ge : ∀ (es : XEntries) (i : Nat), ∀ p ∈ livesFrom i es, i ≤ p.1.num
  | [], _ => by simp [livesFrom]
  | e :: es, i => by
    intro p hp
    rw [livesFrom, List.mem_append] at hp
    rcases hp with hp | hp
    · have := mem_liveOf hp; omega
    · have := livesFrom_ge es (i + 1) p hp; omega

theorem freesFrom_ge : ∀ (es : XEntries) (i : Nat), ∀ f ∈ freesFrom i es, i ≤ f.num
  | [], _ => by simp [freesFrom]
  | e :: es, i => by
    intro p hp
    rw [freesFrom, List.mem_append] at hp
    rcases hp with hp | hp
    · have := mem_freeOf hp; omega
    · have := freesFrom_ge es (i + 1) p hp; omega

theorem livesFrom_sorted : ∀ (es : XEntries) (i : Nat), SMap.Sorted (livesFrom i es)
  | [], _ => trivial
  | e :: es, i => by
    rw [livesFrom, SMap.sorted_append]
    refine ⟨?_, livesFrom_sorted es (i + 1), ?_⟩
    · unfold liveOf; split
      · split
        · exact ⟨by simp, trivial⟩
        · trivial
      · trivial
    · intro p hp q hq
      have h1 := mem_liveOf hp
      have h2 := livesFrom_ge es (i + 1) q hq
      exact ref_lt_num (by omega)

theorem mem_livesFrom : ∀ (es : XEntries) (i k : Nat) (p : Ref × Nat), p.1.num = i + k →
    (p ∈ livesFrom i es ↔ p ∈ liveOf (i + k) (known es k))
  | [], i, k, p, _ => by simp [livesFrom, liveOf, known]
  | e :: es, i, 0, p, hp => by
    rw [livesFrom, List.mem_append]
    have : known (e :: es) 0 = e := by simp [known]
    rw [this]
    constructor
    · rintro (h | h)
      · exact h
      · have := livesFrom_ge es (i + 1) p h; omega
    · intro h; exact .inl h
  | e :: es, i, k + 1, p, hp => by
    rw [livesFrom, List.mem_append]
    have : known (e :: es) (k + 1) = known es k := by simp [known]
    rw [this, show i + (k + 1) = i + 1 + k by omega, ← mem_livesFrom es (i + 1) k p (by omega)]
    constructor
    · rintro (h | h)
      · have := mem_liveOf h; omega
      · exact h
    · intro h; exact .inr h

theorem mem_freesFrom : ∀ (es : XEntries) (i k : Nat) (f : Ref), f.num = i + k →
    (f ∈ freesFrom i es ↔ k < es.length ∧ f ∈ freeOf (i + k) (known es k))
  | [], i, k, f, _ => by simp [freesFrom]
  | e :: es, i, 0, f, hf => by
    rw [freesFrom, List.mem_append]
    have : known (e :: es) 0 = e := by simp [known]
    rw [this]
    constructor
    · rintro (h | h)
      · exact ⟨by simp, h⟩
      · have := freesFrom_ge es (i + 1) f h; omega
    · intro h; exact .inl h.2
  | e :: es, i, k + 1, f, hf => by
    rw [freesFrom, List.mem_append]
    have : known (e :: es) (k + 1) = known es k := by simp [known]
    rw [this, show i + (k + 1) = i + 1 + k by omega]
    have ih := mem_freesFrom es (i + 1) k f (by omega)
    constructor
    · rintro (h | h)
      · have := mem_freeOf h; omega
      · have := ih.1 h; exact ⟨by simp; omega, this.2⟩
    · intro h; exact .inr (ih.2 ⟨by have := h.1; simp at this; omega, h.2⟩)

/-- Everything the list of objects knows after the loop over the entries. -/
theorem addAllEntries_new (es : XEntries) (h0 : ∀ x, known es 0 = some x → x.type ≠ .inUse) :
    ∃ o, addAllEntries OL.new 0 es = .ok o ∧
      (∀ r off, o.getObject r = some off ↔
        ∃ gen, known es r.num = some ⟨.inUse, off, gen⟩ ∧ 0 < off ∧ r.gen = gen % 65536) ∧
      (∀ f ∈ o.free, f ∈ freeOf f.num (known es f.num)) ∧
      (∀ f, known es f.num ≠ none → f ∈ freeOf f.num (known es f.num) → f ∈ o.free) := by
  obtain ⟨o, h1, h2, h3⟩ := addAllEntries_spec es 0 OL.new (by simp [OL.new]) (by simp [OL.new]) (fun _ => h0)
  have h2' : o.objs = livesFrom 0 es := by rw [h2]; simp [OL.new]
  have h3' : o.free = freesFrom 0 es := by rw [h3]; simp [OL.new]
  have hs : SMap.Sorted o.objs := by rw [h2']; exact livesFrom_sorted es 0
  refine ⟨o, h1, ?_, ?_, ?_⟩
  · intro r off
    rw [getObject_eq _ _ hs]
    have hm : SMap.find? r o.objs = some off ↔ (r, off) ∈ o.objs :=
      ⟨SMap.find_mem, SMap.mem_find hs⟩
    rw [hm, h2', mem_livesFrom es 0 r.num (r, off) (by simp), Nat.zero_add]
    cases hk : known es r.num with
    | none => simp [liveOf]
    | some x =>
      obtain ⟨ty, v, g⟩ := x
      cases ty with
      | free => simp [liveOf]
      | compressed => simp [liveOf]
      | inUse =>
        simp only [liveOf]
        by_cases hv : v > 0
        · rw [if_pos hv]
          constructor
          · intro hh
            simp only [List.mem_singleton, Prod.mk.injEq] at hh
            exact ⟨g, by rw [hh.2], by omega, by rw [hh.1]⟩
          · rintro ⟨gen, e1, e2, e3⟩
            simp only [Option.some.injEq, XEntry.mk.injEq, true_and] at e1
            obtain ⟨e4, e5⟩ := e1
            simp only [List.mem_singleton, Prod.mk.injEq]
            refine ⟨?_, e4.symm⟩
            obtain ⟨rn, rg⟩ := r
            simp only at e3 ⊢
            rw [e3, e5]
        · rw [if_neg hv]
          constructor
          · intro hh; simp at hh
          · rintro ⟨gen, e1, e2, e3⟩
            simp only [Option.some.injEq, XEntry.mk.injEq, true_and] at e1
            omega
  · intro f hf
    rw [h3'] at hf
    have := (mem_freesFrom es 0 f.num f (by simp)).1 hf
    simpa using this.2
  · intro f hne hf
    rw [h3', mem_freesFrom es 0 f.num f (by simp)]
    refine ⟨?_, by simpa using hf⟩
    rcases Nat.lt_or_ge f.num es.length with h | h
    · exact h
    · exact absurd (by simp [known, List.getElem?_eq_none h]) hne

/-! ### The text of the objects -/

namespace Spec

/-- The same object: equal values, or streams with the same data, the same filters and the same dictionary up to
/Length. -/
def SameObj : Loaded → Loaded → Prop
  | .plain v, .plain w => v = w
  | .stream a, .stream b =>
    a.buf = b.buf ∧ a.filters = b.filters ∧ ∀ k, k ≠ kLength → SMap.find? k a.dict = SMap.find? k b.dict
  | _, _ => False

/-- What can be written and read again: values without reals and without names of more than 4095 bytes, nested less
than 256 deep; streams that agree with their dictionary and are not compressed by the save itself. -/
def CanWrite (env : SaveEnv) (o : DocObj) : Prop :=
  match o.obj with
  | .plain v => Writable 4095 v ∧ nest v < 256
  | .stream s => Saveable s ∧ (env.opts.noCompress = true ∨ s.filters ≠ [] ∨ env.isMeta o.ref = true)

end Spec

theorem Spec.SameObj.refl (a : Loaded) : SameObj a a := by cases a <;> simp [SameObj]

theorem Spec.SameObj.symm {a b : Loaded} (h : SameObj a b) : SameObj b a := by
  cases a <;> cases b <;> simp only [SameObj] at h ⊢
  · exact h.symm
  · exact ⟨h.1.symm, h.2.1.symm, fun k hk => (h.2.2 k hk).symm⟩

theorem Spec.SameObj.trans {a b c : Loaded} (h : SameObj a b) (h' : SameObj b c) : SameObj a c := by
  cases a <;> cases b <;> cases c <;> simp only [SameObj] at h h' ⊢
  · exact h.trans h'
  · exact ⟨h.1.trans h'.1, h.2.1.trans h'.2.1, fun k hk => (h.2.2 k hk).trans (h'.2.2 k hk)⟩

/-- The same object has the same decoded data. -/
theorem Spec.SameObj.decoded {a b : StObj} (h : SameObj (.stream a) (.stream b)) (flate : Filt) :
    b.copyTo flate = a.copyTo flate :=
  copyTo_congr flate a b h.1.symm h.2.1.symm (h.2.2 _ kLength_ne_kDecodeParms).symm

theorem writeIndirect_ok (env : SaveEnv) (hs : env.opts.flags.clean = true ∨ env.opts.flags.noInline = false)
    (o : DocObj) (hr : Spec.IsRef o.ref) (hc : CanWrite env o) :
    ∃ t l, writeIndirect env o.ref o.obj = .ok t ∧ 0 < t.length ∧ SameObj o.obj l ∧
      ∀ rest, loadObject {} (t ++ rest) = .ok (o.ref, l) := by
  obtain ⟨r, ob, dirty⟩ := o
  simp only at hr ⊢
  have hpos : ∀ t : Bytes, (∃ x, t = objHeader env.opts r ++ x) → 0 < t.length := by
    rintro t ⟨x, rfl⟩
    simp [objHeader]
    omega
  cases ob with
  | plain v =>
    simp only [CanWrite] at hc
    obtain ⟨t, h1, _⟩ := C91_object_roundtrip env.opts hs r hr v hc.1 hc.2 []
    refine ⟨t, .plain v, h1, ?_, SameObj.refl _, fun rest => ?_⟩
    · apply hpos
      unfold writePlain at h1
      split at h1
      · cases h1
      · exact ⟨_, (Except.ok.inj h1).symm⟩
    · obtain ⟨t', h1', h2'⟩ := C91_object_roundtrip env.opts hs r hr v hc.1 hc.2 rest
      rw [h1] at h1'
      rw [Except.ok.inj h1']
      exact h2'
  | stream s =>
    simp only [CanWrite] at hc
    obtain ⟨t, o', o2, h1, h2, h3, h4, h5, h6, h7, h8, h9, h10⟩ :=
      C62_write_read_partial env.flate (env.isMeta r) env.opts hs r hr s hc.1 hc.2 []
    refine ⟨t, .stream o2, by simp only [writeIndirect, h1], ?_, ⟨h5.symm, h6.symm, fun k hk => (h8 k hk).symm⟩, fun rest => ?_⟩
    · apply hpos
      unfold StObj.write at h1
      split at h1
      · cases h1
      · simp only at h1
        split at h1
        · cases h1
        · have := Except.ok.inj h1
          exact ⟨_, (congrArg Prod.fst this).symm⟩
    · obtain ⟨t', p', p2, k1, k2, k3, k4, k5, k6, k7, k8, k9, k10⟩ :=
        C62_write_read_partial env.flate (env.isMeta r) env.opts hs r hr s hc.1 hc.2 rest
      rw [h1] at k1
      have e := Except.ok.inj k1
      have e1 : t = t' := congrArg Prod.fst e
      have e2 : o' = p' := congrArg Prod.snd e
      rw [e1, k2]
      have hlk : ∀ (x : Bytes) (q : StObj), loadObject {} (t ++ x) = .ok (r, .stream q) → q.locked = false := by
        intro x q hq
        unfold loadObject at hq
        split at hq
        · cases hq
        · split at hq
          · cases hq
          · cases hq
          · cases hq
          · split at hq
            · cases hq
            · rename_i oo hoo
              have := Except.ok.inj hq
              simp only [Prod.mk.injEq, Loaded.stream.injEq] at this
              rw [← this.2]
              unfold parseStream at hoo
              split at hoo
              · cases hoo
              · split at hoo
                · cases hoo
                · split at hoo
                  · cases hoo
                  · rw [← Except.ok.inj hoo]
              · cases hoo
      have l1 := hlk _ _ h2
      have l2 := hlk rest p2 (by rw [e1]; exact k2)
      obtain ⟨d1, b1, f1, k1'⟩ := o2
      obtain ⟨d2, b2, f2, k2'⟩ := p2
      simp only at h5 h6 h7 k5 k6 k7 l1 l2
      rw [h5, h6, h7, k5, k6, k7, l1, l2, e2]

/-- Whether a save writes the object. -/
def DocObj.written (inc : Bool) (o : DocObj) : Bool := !(inc && !o.dirty)

theorem written_iff (inc : Bool) (o : DocObj) : ¬ (inc = true ∧ o.dirty = false) ↔ o.written inc = true := by
  cases inc <;> cases h : o.dirty <;> simp [DocObj.written, h]

/-- What the loop over the objects produces. -/
theorem writeObjs_spec (env : SaveEnv) (hs : env.opts.flags.clean = true ∨ env.opts.flags.noInline = false)
    (inc : Bool) : ∀ (objs : List DocObj) (pos : Nat),
    (∀ o ∈ objs, Spec.IsRef o.ref) → (∀ o ∈ objs, o.written inc = true → CanWrite env o) →
    ∃ body adds, writeObjs env inc pos objs = .ok (body, adds) ∧
      adds.map XAdd.ref = objs.map (·.ref) ∧
      adds.filterMap XAdd.written = (objs.filter (·.written inc)).map (·.ref) ∧
      (∀ f, XAdd.free f ∉ adds) ∧
      (∀ o ∈ objs, o.written inc = true → ∃ off, XAdd.inUse o.ref off ∈ adds) ∧
      (∀ r off, XAdd.inUse r off ∈ adds → ∃ o ∈ objs, o.written inc = true ∧ o.ref = r ∧ pos ≤ off ∧
        off < pos + body.length ∧ ∃ l, SameObj o.obj l ∧ ∀ pre rest, pre.length = pos →
          loadObject {} ((pre ++ (body ++ rest)).drop off) = .ok (r, l))
  | [], pos, _, _ => ⟨[], [], rfl, rfl, rfl, by simp, by simp, by simp⟩
  | o :: os, pos, hr, hc => by
    by_cases hw : o.written inc = true
    · obtain ⟨t, l, h1, h2, h3, h4⟩ := writeIndirect_ok env hs o (hr o (by simp)) (hc o (by simp) hw)
      obtain ⟨body, adds, k1, k2, k3, k4, k5, k6⟩ := writeObjs_spec env hs inc os (pos + t.length)
        (fun o ho => hr o (by simp [ho])) (fun o ho => hc o (by simp [ho]))
      refine ⟨t ++ body, .inUse o.ref pos :: adds, ?_, ?_, ?_, ?_, ?_, ?_⟩
      · rw [writeObjs, if_neg ((written_iff inc o).2 hw), h1]
        simp only [k1]
      · simp [XAdd.ref, k2]
      · simp [XAdd.written, k3, hw]
      · intro f; simp [k4]
      · intro x hx hxw
        rcases List.mem_cons.1 hx with rfl | hx
        · exact ⟨pos, by simp⟩
        · obtain ⟨off, ho⟩ := k5 x hx hxw
          exact ⟨off, by simp [ho]⟩
      · intro r off hm
        rcases List.mem_cons.1 hm with hm | hm
        · simp only [XAdd.inUse.injEq] at hm
          refine ⟨o, by simp, hw, hm.1.symm, by omega, by simp; omega, l, h3, fun pre rest hp => ?_⟩
          rw [hm.2, ← hp, List.drop_left, List.append_assoc, h4, hm.1]
        · obtain ⟨x, hx, hxw, e1, e2, e3, l', e4, e5⟩ := k6 r off hm
          refine ⟨x, by simp [hx], hxw, e1, by omega, by simp; omega, l', e4, fun pre rest hp => ?_⟩
          have := e5 (pre ++ t) rest (by simp [hp])
          rw [show pre ++ (t ++ body ++ rest) = pre ++ t ++ (body ++ rest) by simp]
          exact this
    · have hn : inc = true ∧ o.dirty = false := by
        rcases Classical.em (inc = true ∧ o.dirty = false) with h | h
        · exact h
        · exact absurd ((written_iff inc o).1 h) hw
      obtain ⟨body, adds, k1, k2, k3, k4, k5, k6⟩ := writeObjs_spec env hs inc os pos
        (fun o ho => hr o (by simp [ho])) (fun o ho => hc o (by simp [ho]))
      refine ⟨body, .old o.ref :: adds, ?_, ?_, ?_, ?_, ?_, ?_⟩
      · rw [writeObjs, if_pos hn, k1]
      · simp [XAdd.ref, k2]
      · rw [List.filterMap_cons_none rfl, k3, List.filter_cons_of_neg hw]
      · intro f; simp [k4]
      · intro x hx hxw
        rcases List.mem_cons.1 hx with rfl | hx
        · exact absurd hxw hw
        · obtain ⟨off, ho⟩ := k5 x hx hxw
          exact ⟨off, by simp [ho]⟩
      · intro r off hm
        rcases List.mem_cons.1 hm with hm | hm
        · cases hm
        · obtain ⟨x, hx, hxw, e1, e2, e3, l', e4, e5⟩ := k6 r off hm
          exact ⟨x, by simp [hx], hxw, e1, e2, e3, l', e4, e5⟩

end Pdfmm
