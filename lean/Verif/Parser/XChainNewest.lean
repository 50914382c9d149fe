import Verif.Parser.XChainProps
/-
Which entry and which trailer value of a file with several revisions is used (C40, C41), termination (C42) and the
number of incremental updates (C73).
-/
set_option autoImplicit false
namespace Pdfmm

namespace Spec

/-- A revision of a file: the offset of its cross-reference section, the section's entries and trailer
dictionary, and for a hybrid file the offset, entries and dictionary of the stream its trailer refers to. -/
structure Revision (V : Type) where
  off : Nat
  isStream : Bool
  entries : List (Nat × XEntry)
  dict : List (Bytes × V)
  hybrid : Option (Nat × List (Nat × XEntry) × List (Bytes × V))

/-- The entries of a revision, those of the section first. -/
def Revision.all {V : Type} (r : Revision V) : List (Nat × XEntry) :=
  r.entries ++ match r.hybrid with
    | none => []
    | some (_, es, _) => es

/-- The dictionaries of a revision. -/
def Revision.dicts {V : Type} (r : Revision V) : List (List (Bytes × V)) :=
  r.dict :: match r.hybrid with
    | none => []
    | some (_, _, d) => [d]

/-- The file has the cross-reference stream at the offset, and it can be read with `N` levels. -/
def HasStream {V : Type} (F : XFile V) (N : Nat) (off : Nat) (es : List (Nat × XEntry)) (d : List (Bytes × V))
    (next : Option Nat) : Prop :=
  ∃ need, need ≤ N ∧ F.stream off = .ok ⟨d, next, es, none, need⟩

/-- The file has the revision, and its `/Prev` is `next`. -/
def HasRevision {V : Type} (F : XFile V) (N : Nat) (r : Revision V) (next : Option Nat) : Prop :=
  0 < r.off ∧ r.off ≤ F.size ∧
  if r.isStream then
    F.keyword r.off = .ok false ∧ F.old = false ∧ r.hybrid = none ∧ HasStream F N r.off r.entries r.dict next
  else
    F.keyword r.off = .ok true ∧
    (∃ need, need ≤ N ∧ F.table r.off = ⟨r.entries, none,
      .ok ⟨r.dict, r.hybrid.map (·.1), next.isSome, next.map Int.ofNat⟩, need⟩) ∧
    ∀ o es d, r.hybrid = some (o, es, d) → HasStream F N o es d none

/-- The file is the chain of revisions, newest first. -/
def IsChain {V : Type} (F : XFile V) (N : Nat) : List (Revision V) → Prop
  | [] => True
  | [r] => HasRevision F N r none
  | r :: r' :: rest => HasRevision F N r (some r'.off) ∧ IsChain F N (r' :: rest)

/-- The entry of an object number: the first one in the list. -/
def firstFor {α : Type} (l : List (Nat × α)) (n : Nat) : Option α := (l.find? (·.1 = n)).map (·.2)

/-- The keys that are taken from older trailers. -/
def inherited : List Bytes := [kSize, kRoot, kEncrypt, kInfo, kID]

/-- The value of a key in a chain of trailers, newest first. -/
def trailerValue {V : Type} (ds : List (List (Bytes × V))) (k : Bytes) : Option V :=
  match ds with
  | [] => none
  | d :: older => (SMap.find? k d).or (if k ∈ inherited then older.findSome? (SMap.find? k) else none)

end Spec

theorem addEntries_spec (l : List (Nat × XEntry)) (f : Nat → Option XEntry) (n : Nat) :
    addEntries f l n = (f n).or (Spec.firstFor l n) := by
  induction l generalizing f with
  | nil => simp [addEntries, Spec.firstFor]
  | cons p r ih =>
    obtain ⟨k, e⟩ := p
    rw [addEntries, ih]
    by_cases hk : k = n
    · subst hk
      cases hf : f k with
      | none => simp [Spec.firstFor]
      | some v => simp [hf]
    · have : Spec.firstFor ((k, e) :: r) n = Spec.firstFor r n := by simp [Spec.firstFor, hk]
      rw [this]
      split
      · dsimp only; rw [if_neg (fun h => hk h.symm)]
      · rfl

theorem addEntries_append (a b : List (Nat × XEntry)) (f : Nat → Option XEntry) :
    addEntries f (a ++ b) = addEntries (addEntries f a) b := by
  induction a generalizing f with
  | nil => rfl
  | cons p r ih => obtain ⟨k, e⟩ := p; simp only [List.cons_append, addEntries]; rw [ih]

theorem mergeKey_find {V : Type} (older cur : List (Bytes × V)) (k q : Bytes) :
    SMap.find? q (mergeKey older k cur) =
      (SMap.find? q cur).or (if q = k then SMap.find? q older else none) := by
  unfold mergeKey
  split
  · rename_i h
    by_cases hq : q = k
    · subst hq; rw [if_pos rfl, h]; simp
    · rw [if_neg hq]; simp
  · rename_i v h
    split
    · rename_i hc
      rw [SMap.find_insert]
      by_cases hq : q = k
      · subst hq; rw [if_pos rfl, if_pos rfl, hc, h]; rfl
      · rw [if_neg hq, if_neg hq]; simp
    · rename_i hc
      by_cases hq : q = k
      · subst hq
        cases h' : SMap.find? q cur with
        | none => exact absurd h' hc
        | some v => rfl
      · rw [if_neg hq]; simp

theorem mergeTrailer_find {V : Type} (cur older : List (Bytes × V)) (q : Bytes) :
    SMap.find? q (mergeTrailer cur older) =
      (SMap.find? q cur).or (if q ∈ Spec.inherited then SMap.find? q older else none) := by
  unfold mergeTrailer
  simp only [mergeKey_find, Spec.inherited, List.mem_cons, List.not_mem_nil, or_false]
  cases SMap.find? q cur with
  | some v => simp
  | none =>
    cases SMap.find? q older with
    | none => simp
    | some v =>
      simp only [Option.none_or]
      by_cases h1 : q = kSize
      · simp only [if_pos h1, Option.some_or, if_pos (Or.inl h1)]
      · simp only [h1, false_or, if_false, Option.none_or]
        by_cases h2 : q = kRoot
        · simp only [if_pos h2, Option.some_or, if_pos (Or.inl h2)]
        · simp only [h2, false_or, if_false, Option.none_or]
          by_cases h3 : q = kEncrypt
          · simp only [if_pos h3, Option.some_or, if_pos (Or.inl h3)]
          · simp only [h3, false_or, if_false, Option.none_or]
            by_cases h4 : q = kInfo
            · simp only [if_pos h4, Option.some_or, if_pos (Or.inl h4)]
            · simp only [h4, false_or, if_false, Option.none_or]

/-- The trailer after one more dictionary. -/
def takeTrailer {V : Type} (t : Option (List (Bytes × V))) (d : List (Bytes × V)) : Option (List (Bytes × V)) :=
  match t with
  | none => some d
  | some cur => some (mergeTrailer cur d)

theorem foldl_takeTrailer {V : Type} (ds : List (List (Bytes × V))) (cur : List (Bytes × V)) :
    ∃ t, ds.foldl takeTrailer (some cur) = some t ∧
      ∀ q, SMap.find? q t = (SMap.find? q cur).or (if q ∈ Spec.inherited then ds.findSome? (SMap.find? q) else none) := by
  induction ds generalizing cur with
  | nil => exact ⟨cur, rfl, fun q => by simp⟩
  | cons d r ih =>
    obtain ⟨t, h1, h2⟩ := ih (mergeTrailer cur d)
    refine ⟨t, h1, fun q => ?_⟩
    rw [h2, mergeTrailer_find]
    by_cases hq : q ∈ Spec.inherited
    · simp only [hq, if_true, List.findSome?_cons]
      cases SMap.find? q cur <;> cases SMap.find? q d <;> simp
    · simp [hq]

/-- The state after the sections of a chain. -/
structure After {V : Type} (revs : List (Spec.Revision V)) (st st' : CState V) : Prop where
  entries : st'.entries = addEntries st.entries (revs.flatMap (·.all))
  trailer : st'.trailer = (revs.flatMap (·.dicts)).foldl takeTrailer st.trailer
  visited : st'.visited = (revs.map (·.off)).reverse ++ st.visited
  depth : st'.depth = st.depth
  updates : st'.updates + 1 = st.updates + revs.length +
    (if (revs.getLast?.bind (·.hybrid)).isSome then 1 else 0)

theorem guardC_eq {V : Type} (max : Nat) (m : CState V → Res Unit × CState V) (st : CState V)
    (h : st.depth + 1 ≤ max) : guardC max m st = leaveC (m { st with depth := st.depth + 1 }) := by
  unfold guardC
  rw [if_neg (by omega)]

theorem addTrailer_trailer {V : Type} (st : CState V) (d : List (Bytes × V)) :
    (st.addTrailer d).trailer = takeTrailer st.trailer d := rfl

/-- A stream without `/Prev` is read. -/
theorem readStream_plain {V : Type} (max : Nat) (F : XFile V) (f N o : Nat) (es : List (Nat × XEntry))
    (d : List (Bytes × V)) (st : CState V) (h : Spec.HasStream F N o es d none) (hd : st.depth + 1 + N ≤ max) :
    readStream max F (f + 1) o st = (.ok (), { st with
      entries := addEntries st.entries es, trailer := takeTrailer st.trailer d, log := o :: st.log }) := by
  obtain ⟨need, hn, hs⟩ := h
  rw [readStream, guardC_eq _ _ _ (by omega), hs]
  dsimp only
  rw [if_neg (by omega)]
  rfl

/-- Going on to the next revision, if there is one. -/
def nextRead {V : Type} (read : Nat → CState V → Res Unit × CState V) (next : Option Nat) (u : CState V) :
    Res Unit × CState V :=
  match next with
  | none => (.ok (), u)
  | some p => read p { u with updates := u.updates + 1 }

theorem followPrev_eq {V : Type} (read : Nat → CState V → Res Unit × CState V) (next : Option Nat) (u : CState V)
    (hnext : ∀ p, next = some p → 0 < p ∧ p ∉ u.visited) :
    followPrev read (next.map Int.ofNat) u = nextRead read next u := by
  cases next with
  | none => rfl
  | some p =>
    have := hnext p rfl
    dsimp only [followPrev, nextRead, Option.map]
    rw [if_pos (show Int.ofNat p > 0 from Int.natCast_pos.2 this.1)]
    simp only [Int.ofNat_eq_natCast, Int.toNat_natCast]
    rw [if_neg this.2]

/-- The state after one section and its hybrid stream, before `/Prev`. -/
theorem readTrailer_step {V : Type} (max : Nat) (F : XFile V) (f N : Nat) (r : Spec.Revision V) (next : Option Nat)
    (st : CState V) (t : CTable V) (need : Nat) (hn : need ≤ N)
    (ht : t = ⟨r.entries, none, .ok ⟨r.dict, r.hybrid.map (·.1), next.isSome, next.map Int.ofNat⟩, need⟩)
    (hh : ∀ o es d, r.hybrid = some (o, es, d) → Spec.HasStream F N o es d none)
    (hd : st.depth + 2 + N ≤ max) (hnext : ∀ p, next = some p → 0 < p ∧ p ∉ st.visited) :
    ∃ u : CState V,
      u.entries = addEntries st.entries (match r.hybrid with | none => [] | some (_, es, _) => es) ∧
      u.trailer = r.dicts.foldl takeTrailer st.trailer ∧
      u.visited = st.visited ∧ u.depth = st.depth + 1 ∧
      u.updates = st.updates + (if next = none ∧ r.hybrid.isSome then 1 else 0) ∧
      readTrailer max F (f + 2) t st =
        leaveC (nextRead (readContents max F (f + 1)) next u) := by
  subst ht
  obtain ⟨off, isStream, es0, d0, hyb⟩ := r
  dsimp only at hh ⊢
  rw [readTrailer, guardC_eq _ _ _ (by omega)]
  dsimp only
  rw [if_neg (show ¬ st.depth + 1 + need > max by omega)]
  cases hyb with
  | none =>
    refine ⟨CState.addTrailer { st with depth := st.depth + 1 } d0, rfl, rfl, rfl, rfl, ?_, ?_⟩
    · simp; rfl
    · exact congrArg leaveC (followPrev_eq (readContents max F (f + 1)) next
        (CState.addTrailer { st with depth := st.depth + 1 } d0) hnext)
  | some h =>
    obtain ⟨o, es, d⟩ := h
    dsimp only [Option.map, followStm]
    rw [readStream_plain max F f N o es d _ (hh o es d rfl) (by dsimp only [CState.addTrailer]; omega)]
    refine ⟨{ CState.addTrailer { st with depth := st.depth + 1 } d0 with
        updates := if next.isSome then st.updates else st.updates + 1
        entries := addEntries st.entries es
        trailer := takeTrailer (takeTrailer st.trailer d0) d
        log := o :: st.log }, rfl, rfl, rfl, rfl, ?_, ?_⟩
    · cases next <;> simp
    · exact congrArg leaveC (followPrev_eq (readContents max F (f + 1)) next
        { CState.addTrailer { st with depth := st.depth + 1 } d0 with
          updates := if next.isSome then st.updates else st.updates + 1
          entries := addEntries st.entries es
          trailer := takeTrailer (takeTrailer st.trailer d0) d
          log := o :: st.log } hnext)

/-- One revision: its sections are read, then the next one. -/
theorem revision_step {V : Type} (max : Nat) (F : XFile V) (f N : Nat) (r : Spec.Revision V) (next : Option Nat)
    (st : CState V) (hr : Spec.HasRevision F N r next) (hd : st.depth + 3 + N ≤ max) (hv : r.off ∉ st.visited)
    (hnext : ∀ p, next = some p → 0 < p ∧ p ≠ r.off ∧ p ∉ st.visited) :
    ∃ u : CState V,
      u.entries = addEntries st.entries r.all ∧
      u.trailer = r.dicts.foldl takeTrailer st.trailer ∧
      u.visited = r.off :: st.visited ∧ u.depth = st.depth + 2 ∧
      u.updates = st.updates + (if next = none ∧ r.hybrid.isSome then 1 else 0) ∧
      ∀ x, x = nextRead (readContents max F (f + 1)) next u → x.1 = .ok () →
        readContents max F (f + 3) r.off st = leaveC (leaveC x) := by
  obtain ⟨hpos, hsize, hr⟩ := hr
  have hp : F.position r.off = .ok r.off := by unfold XFile.position; rw [if_neg (by omega)]
  cases hs : r.isStream with
  | true =>
    rw [hs] at hr
    obtain ⟨hk, hold, hh, need, hn, hstream⟩ := hr
    refine ⟨CState.addStream { st with depth := st.depth + 2, visited := r.off :: st.visited } r.off
      ⟨r.dict, next, r.entries, none, need⟩, ?_, ?_, rfl, rfl, ?_, ?_⟩
    · simp only [Spec.Revision.all, hh, List.append_nil]; rfl
    · simp only [Spec.Revision.dicts, hh]; rfl
    · simp only [hh]; simp; rfl
    · intro x hx hok
      rw [readContents, guardC_eq _ _ _ (by omega)]
      dsimp only
      rw [if_neg hv, hp]
      dsimp only
      rw [hk]
      dsimp only
      rw [if_neg (by rw [hold]; decide), readStream, guardC_eq _ _ _ (by dsimp only; omega), hstream]
      dsimp only
      rw [if_neg (by omega)]
      congr 2
      cases next with
      | none => exact hx.symm
      | some p =>
        have h := hnext p rfl
        dsimp only [nextRead] at hx ⊢
        rw [if_neg h.2.1]
        unfold ignoreNoNumber
        rw [show (readContents max F (f + 1) p _) = x from hx.symm]
        split
        · cases hok
        · rfl
  | false =>
    rw [hs] at hr
    obtain ⟨hk, ⟨need, hn, htab⟩, hh⟩ := hr
    obtain ⟨u, h1, h2, h3, h4, h5, h6⟩ := readTrailer_step max F f N r next
      (CState.addTable { st with depth := st.depth + 1, visited := r.off :: st.visited } r.off (F.table r.off))
      (F.table r.off) need hn htab hh (by dsimp only [CState.addTable]; omega)
      (fun p hp => ⟨(hnext p hp).1, by
        have := (hnext p hp).2
        simp only [CState.addTable, List.mem_cons, not_or]
        exact this⟩)
    refine ⟨u, ?_, h2, h3, by rw [h4]; rfl, h5, ?_⟩
    · rw [h1, Spec.Revision.all, addEntries_append, htab]; rfl
    · intro x hx hok
      rw [readContents, guardC_eq _ _ _ (by omega)]
      dsimp only
      rw [if_neg hv, hp]
      dsimp only
      rw [hk]
      dsimp only
      rw [h6, ← hx]
      have : (F.table r.off).fault = none := by rw [htab]
      rw [this]
      dsimp only
      congr 1
      unfold ignoreNoTrailer
      split
      · rename_i heq
        have := congrArg Prod.fst heq
        dsimp only [leaveC] at this
        rw [hok] at this
        cases this
      · rfl

theorem chain_read {V : Type} (max : Nat) (F : XFile V) (N : Nat) (revs : List (Spec.Revision V)) :
    ∀ (r : Spec.Revision V) (f : Nat) (st : CState V), Spec.IsChain F N (r :: revs) →
      ((r :: revs).map (·.off)).Nodup → (∀ q ∈ r :: revs, q.off ∉ st.visited) →
      st.depth + 2 * (revs.length + 1) + 1 + N ≤ max → 2 * (revs.length + 1) ≤ f →
      ∃ st', readContents max F (f + 1) r.off st = (.ok (), st') ∧ After (r :: revs) st st' := by
  induction revs with
  | nil =>
    intro r f st hc hnd hv hd hf
    obtain ⟨f, rfl⟩ : ∃ g, f = g + 2 := ⟨f - 2, by simp at hf; omega⟩
    obtain ⟨u, h1, h2, h3, h4, h5, h6⟩ := revision_step max F f N r none st hc
      (by simp only [List.length_nil] at hd; omega) (hv r (by simp)) (by simp)
    refine ⟨_, h6 (.ok (), u) rfl rfl, ⟨?_, ?_, ?_, ?_, ?_⟩⟩
    · show u.entries = _
      simpa using h1
    · show u.trailer = _
      simpa using h2
    · show u.visited = _
      simpa using h3
    · show u.depth - 1 - 1 = _
      omega
    · show u.updates + 1 = _
      cases hb : r.hybrid <;> simp [hb] at h5 ⊢ <;> omega
  | cons r' rest ih =>
    intro r f st hc hnd hv hd hf
    simp only [List.length_cons] at hd hf
    obtain ⟨f, rfl⟩ : ∃ g, f = g + 2 := ⟨f - 2, by omega⟩
    rw [List.map_cons, List.nodup_cons] at hnd
    have hne : r'.off ≠ r.off := fun h => hnd.1 (by rw [← h]; simp)
    have hpos : 0 < r'.off := by
      cases rest with
      | nil => exact hc.2.1
      | cons r'' rest => exact hc.2.1.1
    obtain ⟨u, h1, h2, h3, h4, h5, h6⟩ := revision_step max F f N r (some r'.off) st hc.1 (by omega)
      (hv r (by simp)) (fun p hp => by cases hp; exact ⟨hpos, hne, hv r' (by simp)⟩)
    obtain ⟨st', g1, g2⟩ := ih r' f { u with updates := u.updates + 1 } hc.2 hnd.2 (by
      intro q hq hm
      dsimp only at hm
      rw [h3] at hm
      rcases List.mem_cons.1 hm with h | h
      · exact hnd.1 (by rw [← h]; exact List.mem_map.2 ⟨q, hq, rfl⟩)
      · exact hv q (List.mem_cons_of_mem _ hq) h) (by dsimp only; omega) (by omega)
    refine ⟨_, h6 (.ok (), st') g1.symm rfl, ⟨?_, ?_, ?_, ?_, ?_⟩⟩
    · show st'.entries = _
      rw [g2.entries, List.flatMap_cons (xs := r' :: rest), addEntries_append _ _ st.entries, ← h1]
    · show st'.trailer = _
      rw [g2.trailer, List.flatMap_cons (xs := r' :: rest), List.foldl_append, ← h2]
    · show st'.visited = _
      rw [g2.visited]
      dsimp only
      rw [h3, List.map_cons (l := r' :: rest), List.reverse_cons (as := List.map _ (r' :: rest)), List.append_assoc]
      rfl
    · show st'.depth - 1 - 1 = _
      rw [g2.depth]
      dsimp only
      omega
    · show st'.updates + 1 = _
      have := g2.updates
      dsimp only at this
      simp only [List.getLast?_cons_cons, List.length_cons, h5] at this ⊢
      simp at this ⊢
      omega

theorem readStream_cases {V : Type} (max : Nat) (F : XFile V) (f N o : Nat) (es : List (Nat × XEntry))
    (d : List (Bytes × V)) (st : CState V) (h : Spec.HasStream F N o es d none) :
    (readStream max F (f + 1) o st).1 = raise .InvalidXRef ∨
    (∃ u, readStream max F (f + 1) o st = (.ok (), u) ∧ u.visited = st.visited ∧ u.depth = st.depth) := by
  obtain ⟨need, hn, hs⟩ := h
  rw [readStream]
  unfold guardC
  split
  · exact .inl rfl
  · rw [hs]
    dsimp only
    split
    · exact .inl rfl
    · exact .inr ⟨_, rfl, rfl, rfl⟩

/-- One revision too deep. -/
theorem revision_long {V : Type} (max : Nat) (F : XFile V) (f N : Nat) (r : Spec.Revision V) (next : Option Nat)
    (st : CState V) (hr : Spec.HasRevision F N r next) (hv : r.off ∉ st.visited)
    (hnext : ∀ p, next = some p → 0 < p ∧ p ≠ r.off ∧ p ∉ st.visited)
    (h : st.depth + 2 ≤ max → ∃ p, next = some p ∧ ∀ u : CState V, u.visited = r.off :: st.visited →
      u.depth = st.depth + 2 → (readContents max F (f + 1) p u).1 = raise .InvalidXRef) :
    (readContents max F (f + 3) r.off st).1 = raise .InvalidXRef := by
  obtain ⟨hpos, hsize, hr⟩ := hr
  have hp : F.position r.off = .ok r.off := by unfold XFile.position; rw [if_neg (by omega)]
  have hT : ∀ x : Res Unit × CState V, x.1 = raise .InvalidXRef → (ignoreNoTrailer x).1 = raise .InvalidXRef := by
    intro x hx
    unfold ignoreNoTrailer
    split
    · cases hx
    · exact hx
  have hN : ∀ x : Res Unit × CState V, x.1 = raise .InvalidXRef → (ignoreNoNumber x).1 = raise .InvalidXRef := by
    intro x hx
    unfold ignoreNoNumber
    split
    · cases hx
    · exact hx
  rw [readContents]
  unfold guardC
  split
  · rfl
  · rename_i hd1
    show (leaveC _).1 = _
    dsimp only [leaveC]
    rw [if_neg hv, hp]
    dsimp only
    cases hs : r.isStream with
    | true =>
      rw [hs] at hr
      obtain ⟨hk, hold, hh, need, hn, hstream⟩ := hr
      rw [hk]
      dsimp only
      rw [if_neg (by rw [hold]; decide), readStream]
      unfold guardC
      split
      · rfl
      · rename_i hd2
        dsimp only [leaveC] at hd2 ⊢
        obtain ⟨p, rfl, hrd⟩ := h (by omega)
        rw [hstream]
        dsimp only
        split
        · rfl
        · rw [if_neg (hnext p rfl).2.1]
          exact hN _ (hrd _ rfl rfl)
    | false =>
      rw [hs] at hr
      obtain ⟨hk, ⟨need, hn, htab⟩, hh⟩ := hr
      rw [hk]
      dsimp only
      have : (F.table r.off).fault = none := by rw [htab]
      rw [this]
      dsimp only
      apply hT
      rw [readTrailer]
      unfold guardC
      split
      · rfl
      · rename_i hd2
        dsimp only [leaveC, CState.addTable] at hd2 ⊢
        obtain ⟨p, rfl, hrd⟩ := h (by omega)
        rw [htab]
        dsimp only
        split
        · rfl
        · have hpv : ∀ u : CState V, u.visited = r.off :: st.visited → u.depth = st.depth + 2 →
              (followPrev (readContents max F (f + 1)) ((some p).map Int.ofNat) u).1 = raise .InvalidXRef := by
            intro u h1 h2
            rw [followPrev_eq _ _ _ (fun q hq => by
              cases hq
              refine ⟨(hnext p rfl).1, ?_⟩
              rw [h1, List.mem_cons, not_or]
              exact (hnext p rfl).2)]
            exact hrd _ h1 h2
          unfold followStm
          dsimp only
          cases hyb : r.hybrid with
          | none => exact hpv _ rfl rfl
          | some x =>
            obtain ⟨o, es, d⟩ := x
            dsimp only [Option.map]
            rcases readStream_cases max F f N o es d _ (hh o es d hyb) with hc | ⟨u, hc, h1, h2⟩
            · generalize readStream max F (f + 1) o _ = y at hc
              obtain ⟨y1, y2⟩ := y
              dsimp only at hc
              subst hc
              rfl
            · rw [hc]
              exact hpv u h1 h2

theorem chain_long {V : Type} (max : Nat) (F : XFile V) (N : Nat) (revs : List (Spec.Revision V)) :
    ∀ (r : Spec.Revision V) (f : Nat) (st : CState V), Spec.IsChain F N (r :: revs) →
      ((r :: revs).map (·.off)).Nodup → (∀ q ∈ r :: revs, q.off ∉ st.visited) →
      max < st.depth + 2 * (revs.length + 1) → 2 * (revs.length + 1) ≤ f →
      (readContents max F (f + 1) r.off st).1 = raise .InvalidXRef := by
  induction revs with
  | nil =>
    intro r f st hc hnd hv hd hf
    obtain ⟨f, rfl⟩ : ∃ g, f = g + 2 := ⟨f - 2, by simp at hf; omega⟩
    exact revision_long max F f N r none st hc (hv r (by simp)) (by simp) (fun h => by
      simp only [List.length_nil] at hd; omega)
  | cons r' rest ih =>
    intro r f st hc hnd hv hd hf
    simp only [List.length_cons] at hd hf
    obtain ⟨f, rfl⟩ : ∃ g, f = g + 2 := ⟨f - 2, by omega⟩
    rw [List.map_cons, List.nodup_cons] at hnd
    have hne : r'.off ≠ r.off := fun h => hnd.1 (by rw [← h]; simp)
    have hpos : 0 < r'.off := by
      cases rest with
      | nil => exact hc.2.1
      | cons r'' rest => exact hc.2.1.1
    refine revision_long max F f N r (some r'.off) st hc.1 (hv r (by simp))
      (fun p hp => by cases hp; exact ⟨hpos, hne, hv r' (by simp)⟩) (fun h => ⟨r'.off, rfl, fun u h3 h4 => ?_⟩)
    refine ih r' f u hc.2 hnd.2 (fun q hq hm => ?_) (by omega) (by omega)
    rw [h3] at hm
    rcases List.mem_cons.1 hm with h | h
    · exact hnd.1 (by rw [← h]; exact List.mem_map.2 ⟨q, hq, rfl⟩)
    · exact hv q (List.mem_cons_of_mem _ hq) h

/-! ### The properties -/

/-- C40: after a file has been opened, the entry of every object number is the one of the newest revision that
mentions it (the section of a hybrid revision before its stream).  Missing: chains near the nesting limit, see
`C40_long_chain_false`. -/
theorem C40_newest_wins_partial {V : Type} (max N d : Nat) (F : XFile V) (r : Spec.Revision V)
    (older : List (Spec.Revision V)) (hc : Spec.IsChain F N (r :: older)) (hnd : ((r :: older).map (·.off)).Nodup)
    (hd : d + 2 * (r :: older).length + 1 + N ≤ max) (f : Nat) (hf : 2 * (r :: older).length < f) :
    ∃ st, readContents max F f r.off (.fresh [] d) = (.ok (), st) ∧
      ∀ n, st.entries n = Spec.firstFor ((r :: older).flatMap (·.all)) n := by
  simp only [List.length_cons] at hd hf
  obtain ⟨g, rfl⟩ : ∃ g, f = g + 1 := ⟨f - 1, by omega⟩
  obtain ⟨st, h1, h2⟩ := chain_read max F N older r g (.fresh [] d) hc hnd (by intro q _ h; cases h)
    (by simp only [CState.fresh]; omega) (by omega)
  refine ⟨st, h1, fun n => ?_⟩
  rw [h2.entries, addEntries_spec]
  rfl

/-- C40 is false as stated: no file with more than 128 revisions can be opened, even if every one of them is in
order. -/
theorem C40_long_chain_false {V : Type} (N d : Nat) (F : XFile V) (r : Spec.Revision V)
    (older : List (Spec.Revision V)) (hc : Spec.IsChain F N (r :: older)) (hnd : ((r :: older).map (·.off)).Nodup)
    (hlen : 128 < (r :: older).length) (f : Nat) (hf : 2 * (r :: older).length < f) :
    (readContents 256 F f r.off (.fresh [] d)).1 = raise .InvalidXRef := by
  simp only [List.length_cons] at hlen hf
  obtain ⟨g, rfl⟩ : ∃ g, f = g + 1 := ⟨f - 1, by omega⟩
  exact chain_long 256 F N older r g (.fresh [] d) hc hnd (by intro q _ h; cases h)
    (by simp only [CState.fresh]; omega) (by omega)

/-- Whatever the file is and however the reading ends, an entry that is known never changes. -/
theorem C40_known_entries_stay {V : Type} (max : Nat) (F : XFile V) (f off : Nat) (st : CState V) (n : Nat)
    (e : XEntry) (h : st.entries n = some e) : (readContents max F f off st).2.entries n = some e :=
  ((chain_grow max F (fun _ => True) ⟨fun _ _ _ _ _ _ _ => trivial, fun _ _ _ _ _ => trivial⟩ f).1 off st trivial).known
    n e h

/-- C41: the trailer of the opened document. -/
theorem C41_trailer_partial {V : Type} (max N d : Nat) (F : XFile V) (r : Spec.Revision V)
    (older : List (Spec.Revision V)) (hc : Spec.IsChain F N (r :: older)) (hnd : ((r :: older).map (·.off)).Nodup)
    (hd : d + 2 * (r :: older).length + 1 + N ≤ max) (f : Nat) (hf : 2 * (r :: older).length < f) :
    ∃ st t, readContents max F f r.off (.fresh [] d) = (.ok (), st) ∧ st.trailer = some t ∧
      ∀ k, SMap.find? k t = Spec.trailerValue ((r :: older).flatMap (·.dicts)) k := by
  simp only [List.length_cons] at hd hf
  obtain ⟨g, rfl⟩ : ∃ g, f = g + 1 := ⟨f - 1, by omega⟩
  obtain ⟨st, h1, h2⟩ := chain_read max F N older r g (.fresh [] d) hc hnd (by intro q _ h; cases h)
    (by simp only [CState.fresh]; omega) (by omega)
  obtain ⟨ds, hds⟩ : ∃ ds, (r :: older).flatMap (·.dicts) = r.dict :: ds :=
    ⟨_, by rw [List.flatMap_cons, Spec.Revision.dicts, List.cons_append]⟩
  obtain ⟨t, g1, g2⟩ := foldl_takeTrailer ds r.dict
  refine ⟨st, t, h1, ?_, ?_⟩
  · rw [h2.trailer, hds]; exact g1
  · intro k; rw [hds]; exact g2 k

/-- C73: the number of incremental updates is the number of older revisions.  Missing: a file whose oldest
revision is hybrid, see `C73_hybrid_false`. -/
theorem C73_updates_partial {V : Type} (max N d : Nat) (F : XFile V) (r : Spec.Revision V)
    (older : List (Spec.Revision V)) (hc : Spec.IsChain F N (r :: older)) (hnd : ((r :: older).map (·.off)).Nodup)
    (hd : d + 2 * (r :: older).length + 1 + N ≤ max) (f : Nat) (hf : 2 * (r :: older).length < f)
    (hh : ((r :: older).getLast (by simp)).hybrid = none) :
    (readContents max F f r.off (.fresh [] d)).2.updates = older.length := by
  simp only [List.length_cons] at hd hf
  obtain ⟨g, rfl⟩ : ∃ g, f = g + 1 := ⟨f - 1, by omega⟩
  obtain ⟨st, h1, h2⟩ := chain_read max F N older r g (.fresh [] d) hc hnd (by intro q _ h; cases h)
    (by simp only [CState.fresh]; omega) (by omega)
  rw [h1]
  have := h2.updates
  rw [List.getLast?_eq_some_getLast (by simp), Option.bind_some, hh] at this
  simp [CState.fresh] at this ⊢
  omega

/-- A hybrid file that was never updated is counted as updated. -/
theorem C73_hybrid_false {V : Type} (max N d : Nat) (F : XFile V) (r : Spec.Revision V)
    (hc : Spec.IsChain F N [r]) (hd : d + 3 + N ≤ max) (f : Nat) (hf : 2 < f) (hh : r.hybrid.isSome) :
    (readContents max F f r.off (.fresh [] d)).2.updates = 1 := by
  obtain ⟨g, rfl⟩ : ∃ g, f = g + 1 := ⟨f - 1, by omega⟩
  obtain ⟨st, h1, h2⟩ := chain_read max F N [] r g (.fresh [] d) hc (by simp) (by intro q _ h; cases h)
    (by simp only [CState.fresh, List.length_nil]; omega) (by simp only [List.length_nil]; omega)
  rw [h1]
  have := h2.updates
  simp [CState.fresh, hh] at this ⊢
  omega

/-- The offsets the sections of a file refer to. -/
def XFile.targets {V : Type} (F : XFile V) : List Nat :=
  (List.range (F.size + 1)).flatMap fun pos =>
    (match (F.table pos).trailer with
      | .ok tr => (tr.prev.map Int.toNat).toList
      | .error _ => []) ++
    (match F.stream pos with
      | .ok s => s.prev.toList
      | .error _ => [])

theorem targets_length {V : Type} (F : XFile V) : F.targets.length ≤ 2 * (F.size + 1) := by
  have : ∀ (l : List Nat), (l.flatMap fun pos =>
      (match (F.table pos).trailer with
        | .ok tr => (tr.prev.map Int.toNat).toList
        | .error _ => []) ++
      (match F.stream pos with
        | .ok s => s.prev.toList
        | .error _ => [])).length ≤ 2 * l.length := by
    intro l
    induction l with
    | nil => simp
    | cons x r ih =>
      rw [List.flatMap_cons, List.length_append, List.length_append, List.length_cons]
      have h1 : (match (F.table x).trailer with
        | .ok tr => (tr.prev.map Int.toNat).toList
        | .error _ => []).length ≤ 1 := by
        split
        · rename_i tr _; cases tr.prev <;> simp
        · simp
      have h2 : (match F.stream x with
        | .ok s => s.prev.toList
        | .error _ => []).length ≤ 1 := by
        split
        · rename_i tr _; cases tr.prev <;> simp
        · simp
      omega
  have := this (List.range (F.size + 1))
  rwa [List.length_range] at this

theorem targets_closed {V : Type} (F : XFile V) (hfb : ∀ p, F.fallback = .ok p → p ≤ F.size)
    (hst : ∀ pos s, F.stream pos = .ok s → pos ≤ F.size) (off : Nat) : Closed F (fun o => o ∈ off :: F.targets) := by
  constructor
  · intro o pos tr p hpos htr hp
    have hle : pos ≤ F.size := by
      unfold XFile.position at hpos
      split at hpos
      · exact hfb _ hpos
      · cases hpos; omega
    refine List.mem_cons_of_mem _ (List.mem_flatMap.2 ⟨pos, List.mem_range.2 (by omega), ?_⟩)
    rw [htr]
    simp [hp]
  · intro pos s p hs hp
    have hle := hst pos s hs
    refine List.mem_cons_of_mem _ (List.mem_flatMap.2 ⟨pos, List.mem_range.2 (by omega), ?_⟩)
    rw [hs]
    simp [hp]

/-- C42: reading the chain ends for every file, however its sections refer to each other (and more fuel than
`max` does not change the outcome); no offset is visited twice, and at most two sections are read for each
visited offset, of which there are at most `2 * size + 3`.  Missing: "reads every section once", see
`C42_read_twice_false`. -/
theorem C42_terminates_partial {V : Type} (max : Nat) (F : XFile V) (hF : F.Total)
    (hfb : ∀ p, F.fallback = .ok p → p ≤ F.size) (hst : ∀ pos s, F.stream pos = .ok s → pos ≤ F.size)
    (off d : Nat) :
    let out := readContents max F max off (.fresh [] d)
    out.1 ≠ .error .diverge ∧
    (∀ f, max ≤ f → readContents max F f off (.fresh [] d) = out) ∧
    out.2.visited.Nodup ∧
    out.2.log.length ≤ 2 * out.2.visited.length ∧
    out.2.visited.length ≤ 2 * F.size + 3 := by
  intro out
  have hg := (chain_grow max F (fun o => o ∈ off :: F.targets) (targets_closed F hfb hst off) max).1 off (.fresh [] d)
    (by simp)
  refine ⟨((chain_ends max F hF max).1 off d _ rfl (by omega)).ends, ?_, hg.nodup (by simp [CState.fresh]), ?_, ?_⟩
  · intro f hf
    induction hf with
    | refl => rfl
    | step h ih => rw [(chain_fuel max F hF _).1 off _ (by simp only [CState.fresh]; simp only [Nat.le_eq] at h; omega)]; exact ih
  · have := hg.log
    have e1 : (CState.fresh (V := V) [] d).log.length = 0 := rfl
    have e2 : (CState.fresh (V := V) [] d).visited.length = 0 := rfl
    show (readContents max F max off (.fresh [] d)).2.log.length ≤
      2 * (readContents max F max off (.fresh [] d)).2.visited.length
    omega
  · have h1 : out.2.visited.length ≤ (off :: F.targets).length :=
      length_le_of_subset (hg.nodup (by simp [CState.fresh])) (fun o ho => by
        rcases hg.new o ho with h | h
        · simp [CState.fresh] at h
        · exact h)
    have := targets_length F
    simp only [List.length_cons] at h1
    omega

/-- C74 is false: after `Reset` the offsets of the previous run are still marked as visited, so a parser that is
used again, which the code expects after a wrong password, fails for every file. -/
theorem C74_parse_again_false {V : Type} (max : Nat) (F : XFile V) (f off d : Nat) (hd : d < max)
    (v : List Nat) (f' : Nat) :
    (readContents max F (f' + 1) off (readContents max F (f + 1) off (.fresh v d)).2.reset).1 = raise .InvalidXRef := by
  have hin : off ∈ (readContents max F (f + 1) off (.fresh v d)).2.visited := by
    have hT : Closed F (fun _ => True) := ⟨fun _ _ _ _ _ _ _ => trivial, fun _ _ _ _ _ => trivial⟩
    obtain ⟨-, iht, ihs⟩ := chain_grow max F (fun _ => True) hT f
    rw [readContents, guardC_eq _ _ _ (by simp only [CState.fresh]; omega)]
    show off ∈ (CState.visited _)
    dsimp only [leaveC]
    split
    · rename_i h; exact h
    · split
      · exact List.mem_cons_self
      · rename_i pos hpos
        split
        · exact List.mem_cons_self
        · split
          · exact List.mem_cons_self
          · exact (ihs pos _).suffix.subset List.mem_cons_self
        · split
          · rw [ignoreNoTrailer_state]; exact (iht off pos _ hpos).suffix.subset List.mem_cons_self
          · split
            · rw [ignoreNoTrailer_state]; exact (iht off pos _ hpos).suffix.subset List.mem_cons_self
            · exact List.mem_cons_self
  generalize (readContents max F (f + 1) off (.fresh v d)).2 = u at hin
  rw [readContents]
  unfold guardC
  split
  · rfl
  · show (leaveC _).1 = _
    dsimp only [leaveC]
    rw [if_pos (show off ∈ u.reset.visited from hin)]

/-! ### Concrete files -/

/-- A file with a classic section at 100 (objects 1 and 2), an update at 300 (object 2 again and 3) that is hybrid with a
stream at 250 (objects 3 and 4). -/
def chainFile : XFile Nat where
  size := 400
  keyword := fun o => if o = 100 ∨ o = 300 then .ok true else .ok false
  table := fun o =>
    if o = 100 then ⟨[(1, ⟨.inUse, 15, 0⟩), (2, ⟨.inUse, 60, 0⟩)], none,
      .ok ⟨[(kInfo, 7), (kRoot, 1), (kSize, 3)], none, false, none⟩, 1⟩
    else ⟨[(2, ⟨.inUse, 130, 0⟩), (3, ⟨.inUse, 180, 0⟩)], none, .ok ⟨[(kRoot, 2), (kSize, 5)], some 250, true, some 100⟩, 1⟩
  stream := fun o =>
    if o = 250 then .ok ⟨[(kRoot, 9), (kID, 8)], none, [(3, ⟨.free, 0, 0⟩), (4, ⟨.compressed, 3, 0⟩)], none, 1⟩
    else raise .NoNumber
  fallback := raise .NoXRef
  old := false

/-- Its revisions. -/
def chainRevs : List (Spec.Revision Nat) :=
  [⟨300, false, [(2, ⟨.inUse, 130, 0⟩), (3, ⟨.inUse, 180, 0⟩)], [(kRoot, 2), (kSize, 5)],
      some (250, [(3, ⟨.free, 0, 0⟩), (4, ⟨.compressed, 3, 0⟩)], [(kRoot, 9), (kID, 8)])⟩,
    ⟨100, false, [(1, ⟨.inUse, 15, 0⟩), (2, ⟨.inUse, 60, 0⟩)], [(kInfo, 7), (kRoot, 1), (kSize, 3)], none⟩]

theorem chainFile_chain : Spec.IsChain chainFile 1 chainRevs := by
  refine ⟨⟨by decide, by decide, rfl, ⟨1, by decide, rfl⟩, ?_⟩, by decide, by decide, rfl, ⟨1, by decide, rfl⟩, ?_⟩
  · intro o es d h
    cases h
    exact ⟨1, by decide, rfl⟩
  · intro o es d h
    cases h

example : Spec.firstFor (chainRevs.flatMap (·.all)) 2 = some ⟨.inUse, 130, 0⟩ ∧
    Spec.firstFor (chainRevs.flatMap (·.all)) 3 = some ⟨.inUse, 180, 0⟩ ∧
    Spec.firstFor (chainRevs.flatMap (·.all)) 4 = some ⟨.compressed, 3, 0⟩ ∧
    Spec.firstFor (chainRevs.flatMap (·.all)) 1 = some ⟨.inUse, 15, 0⟩ := by decide

example : Spec.trailerValue (chainRevs.flatMap (·.dicts)) kRoot = some 2 ∧
    Spec.trailerValue (chainRevs.flatMap (·.dicts)) kInfo = some 7 ∧
    Spec.trailerValue (chainRevs.flatMap (·.dicts)) kID = some 8 := by decide

example : ∃ st, readContents 256 chainFile 10 300 (.fresh [] 0) = (.ok (), st) ∧
    ∀ n, st.entries n = Spec.firstFor (chainRevs.flatMap (·.all)) n :=
  C40_newest_wins_partial 256 1 0 chainFile _ _ chainFile_chain (by decide) (by decide) 10 (by decide)

example : ∃ st t, readContents 256 chainFile 10 300 (.fresh [] 0) = (.ok (), st) ∧ st.trailer = some t ∧
    ∀ k, SMap.find? k t = Spec.trailerValue (chainRevs.flatMap (·.dicts)) k :=
  C41_trailer_partial 256 1 0 chainFile _ _ chainFile_chain (by decide) (by decide) 10 (by decide)

example : ∃ r older, chainRevs = r :: older ∧
    (readContents 256 chainFile 10 r.off (.fresh [] 0)).2.updates = older.length :=
  ⟨_, _, rfl, C73_updates_partial 256 1 0 chainFile _ _ chainFile_chain (by decide) (by decide) 10 (by decide) rfl⟩

theorem chainFile_total : chainFile.Total := by
  constructor
  · intro p; simp only [chainFile]; split <;> exact fun h => nomatch h
  · exact fun h => nomatch h
  · intro p; simp only [chainFile]; split <;> exact fun h => nomatch h
  · intro p; simp only [chainFile]; split <;> exact fun h => nomatch h
  · intro p; simp only [chainFile]; split <;> exact fun h => nomatch h
  · intro p s; simp only [chainFile]; split
    · intro h; cases h; exact fun h => nomatch h
    · exact fun h => nomatch h

example (max : Nat) : (readContents max chainFile max 300 (.fresh [] 0)).2.visited.length ≤ 2 * chainFile.size + 3 :=
  (C42_terminates_partial max chainFile chainFile_total (fun _ h => nomatch h) (fun p s h => by
    simp only [chainFile] at h ⊢
    split at h
    · omega
    · cases h) 300 0).2.2.2.2

/-- A file with as many empty classic sections as wanted: the one at `o` refers to the one at `o - 1`. -/
def longFile (n : Nat) : XFile Nat where
  size := n
  keyword := fun _ => .ok true
  table := fun o => ⟨[], none, .ok ⟨[], none, decide (o ≠ 1), if o = 1 then none else some ((o - 1 : Nat) : Int)⟩, 0⟩
  stream := fun _ => raise .NoNumber
  fallback := raise .NoXRef
  old := false

/-- Its revisions. -/
def longRevs : Nat → List (Spec.Revision Nat)
  | 0 => []
  | n + 1 => ⟨n + 1, false, [], [], none⟩ :: longRevs n

theorem longRevs_length (n : Nat) : (longRevs n).length = n := by
  induction n with
  | zero => rfl
  | succ n ih => rw [longRevs, List.length_cons, ih]

theorem longRevs_le (n : Nat) : ∀ r ∈ longRevs n, r.off ≤ n := by
  induction n with
  | zero => intro r h; cases h
  | succ n ih =>
    intro r h
    rcases List.mem_cons.1 h with h | h
    · subst h; exact Nat.le_refl _
    · exact Nat.le_succ_of_le (ih r h)

theorem longRevs_nodup (n : Nat) : ((longRevs n).map (·.off)).Nodup := by
  induction n with
  | zero => simp [longRevs]
  | succ n ih =>
    rw [longRevs, List.map_cons, List.nodup_cons]
    refine ⟨fun h => ?_, ih⟩
    obtain ⟨r, h1, h2⟩ := List.mem_map.1 h
    have := longRevs_le n r h1
    dsimp only at h2
    omega

theorem longFile_chain (m n : Nat) (h : n ≤ m) : Spec.IsChain (longFile m) 0 (longRevs n) := by
  induction n with
  | zero => trivial
  | succ n ih =>
    cases n with
    | zero => exact ⟨by decide, h, rfl, ⟨0, by decide, rfl⟩, fun _ _ _ h => nomatch h⟩
    | succ n =>
      refine ⟨⟨Nat.succ_pos _, h, rfl, ⟨0, by decide, ?_⟩, fun _ _ _ h => nomatch h⟩, ih (by omega)⟩
      simp [longFile]

/-- There is such a file with 129 revisions. -/
example : (readContents 256 (longFile 129) 300 129 (.fresh [] 0)).1 = raise .InvalidXRef :=
  C40_long_chain_false 0 0 (longFile 129) ⟨129, false, [], [], none⟩ (longRevs 128) (longFile_chain 129 129 (by omega))
    (longRevs_nodup 129) (by rw [List.length_cons, longRevs_length]; omega) 300
    (by rw [List.length_cons, longRevs_length]; omega)

/-- A file whose trailer names the same stream as `/XRefStm` and as `/Prev`. -/
def twiceFile : XFile Nat where
  size := 400
  keyword := fun o => .ok (o = 300)
  table := fun _ => ⟨[], none, .ok ⟨[], some 100, true, some 100⟩, 0⟩
  stream := fun _ => .ok ⟨[], none, [], none, 0⟩
  fallback := raise .NoXRef
  old := false

/-- C42 is false as far as "at most once" goes: an offset named by `/XRefStm` is not marked as visited, so it is read
again when a `/Prev` names it. -/
theorem C42_read_twice_false :
    (readContents 256 twiceFile 256 300 (.fresh [] 0)).1 = .ok () ∧
    (readContents 256 twiceFile 256 300 (.fresh [] 0)).2.log = [100, 100, 300] := by decide +kernel

/-- A cycle through the trailer of a classic section is skipped. -/
example : (readContents 256 { twiceFile with keyword := fun _ => .ok true, table := fun o => ⟨[], none,
    .ok ⟨[], none, true, some (400 - o : Int)⟩, 0⟩ } 256 300 (.fresh [] 0)).2.visited = [100, 300] := by decide +kernel

/-- Using the parser again fails for this file too. -/
example : (readContents 256 chainFile 256 300 (readContents 256 chainFile 256 300 (.fresh [] 0)).2.reset).1 =
    raise .InvalidXRef := C74_parse_again_false 256 chainFile 255 300 0 (by decide) [] 255

end Pdfmm
