import Verif.Forms.FieldFlags
import Verif.Objects.Refs
/-
C152: the collections of annotations of a page, of fields of the form and of children of a field.
-/
set_option autoImplicit false
namespace Pdfmm

/-- One entry of the array in the document: the reference of the object the iterator gives (0 0 R for a direct object and for a reference to nothing,
`PdfArrayIndirectIterableBase::iterator::resolve`, `src/pdfmm/base/PdfArray.h`), and the error raised when an annotation or field is made of it: not a dictionary
(`PdfField.cpp:411-420`, `PdfAnnotation.cpp:577-586`), or an unknown subtype (`PdfAnnotation.cpp:506-508`).  Both `TryCreateFromObject` either succeed or raise,
so the null placeholders in the code never occur. -/
structure CEntry where
  ref : Ref
  bad : Option ErrorCode
  deriving DecidableEq

/-- A collection, `src/pdfmm/base/PdfAnnotationCollection.h`, `PdfAcroForm.h`, `PdfFieldChildrenCollection.h`: the array in the document, whether the map
exists, the objects in memory and the map from references to positions. -/
structure Coll where
  arr : List CEntry
  ready : Bool
  items : List Ref
  map : List (Ref × Nat)
  deriving DecidableEq

/-- The collection of an array nobody has asked for yet; no array counts as an empty one. -/
def Coll.fresh (arr : List CEntry) : Coll := ⟨arr, false, [], []⟩

/-- The loop of `initAnnotations`, `src/pdfmm/base/PdfAnnotationCollection.cpp:162-179`, and of both `initFields`
(`src/pdfmm/base/PdfAcroForm.cpp:213-236`, `src/pdfmm/base/PdfFieldChildrenCollection.cpp:173-190`). -/
def collLoop : Nat → List CEntry → List Ref → List (Ref × Nat) → List Ref × List (Ref × Nat) × Res Unit
  | _, [], items, map => (items, map, .ok ())
  | i, e :: es, items, map =>
    match e.bad with
    | some c => (items, SMap.insert e.ref i map, raise c)
    | none => collLoop (i + 1) es (items ++ [e.ref]) (SMap.insert e.ref i map)

/-- `initAnnotations`, `src/pdfmm/base/PdfAnnotationCollection.cpp:149-178`: the map exists from the start on, so a second call does nothing. -/
def Coll.init (c : Coll) : Coll × Res Unit :=
  if c.ready then (c, .ok ())
  else ({ c with ready := true, items := (collLoop 0 c.arr [] []).1, map := (collLoop 0 c.arr [] []).2.1 }, (collLoop 0 c.arr [] []).2.2)

/-- `fixIndices`, `src/pdfmm/base/PdfAnnotationCollection.cpp:180-188`. -/
def fixIndices (i : Nat) (m : List (Ref × Nat)) : List (Ref × Nat) := m.map (fun p => (p.1, if i < p.2 then p.2 - 1 else p.2))

/-- What a user does with a collection. -/
inductive CollOp
  | count
  | getAt (i : Nat)
  | get (r : Ref)
  | removeAt (i : Nat)
  | remove (r : Ref)
  | add (r : Ref)
  | iterate

/-- What they see. -/
inductive CollOut
  | done
  | num (n : Nat)
  | obj (r : Ref)
  | objs (l : List Ref)
  deriving DecidableEq

/-- `GetAnnotAt`, `src/pdfmm/base/PdfAnnotationCollection.cpp:134-141`. -/
def Coll.getAt (c : Coll) (i : Nat) : Res CollOut :=
  match c.items[i]? with
  | none => raise .ValueOutOfRange
  | some r => .ok (.obj r)

/-- `GetAnnot`, `src/pdfmm/base/PdfAnnotationCollection.cpp:143-147`: `at` throws, the position is not checked. -/
def Coll.get (c : Coll) (r : Ref) : Res CollOut :=
  match SMap.find? r c.map with
  | none => .error .exn
  | some i =>
    match c.items[i]? with
    | none => .error .ub
    | some r => .ok (.obj r)

/-- `RemoveAnnotAt`, `src/pdfmm/base/PdfAnnotationCollection.cpp:44-62`: `erase` of the end of the map is undefined. -/
def Coll.removeAt (c : Coll) (i : Nat) : Coll × Res CollOut :=
  match c.items[i]? with
  | none => (c, raise .ValueOutOfRange)
  | some r =>
    match SMap.find? r c.map with
    | none => (c, .error .ub)
    | some _ => ({ c with arr := c.arr.eraseIdx i, items := c.items.eraseIdx i, map := fixIndices i (SMap.erase r c.map) }, .ok .done)

/-- `RemoveAnnot`, `src/pdfmm/base/PdfAnnotationCollection.cpp:64-79`. -/
def Coll.remove (c : Coll) (r : Ref) : Coll × Res CollOut :=
  match SMap.find? r c.map with
  | none => (c, .ok .done)
  | some i =>
    if c.items.length ≤ i then (c, .error .ub)
    else ({ c with arr := c.arr.eraseIdx i, items := c.items.eraseIdx i, map := fixIndices i (SMap.erase r c.map) }, .ok .done)

/-- `addAnnotation`, `src/pdfmm/base/PdfAnnotationCollection.cpp:112-123`: the position in the map is the size of the array. -/
def Coll.add (c : Coll) (r : Ref) : Coll × Res CollOut :=
  ({ c with arr := c.arr ++ [⟨r, none⟩], items := c.items ++ [r], map := SMap.insert r c.arr.length c.map }, .ok (.obj r))

/-- Everything but `begin` and `end` first calls `initAnnotations`. -/
def Coll.withInit (c : Coll) (f : Coll → Coll × Res CollOut) : Coll × Res CollOut :=
  match c.init with
  | (c', .error e) => (c', .error e)
  | (c', .ok _) => f c'

/-- One operation; `begin` and `end` give the objects there are, `src/pdfmm/base/PdfAnnotationCollection.cpp:86-104`. -/
def Coll.run (c : Coll) : CollOp → Coll × Res CollOut
  | .count => c.withInit (fun c => (c, .ok (.num c.items.length)))
  | .getAt i => c.withInit (fun c => (c, c.getAt i))
  | .get r => c.withInit (fun c => (c, c.get r))
  | .removeAt i => c.withInit (fun c => c.removeAt i)
  | .remove r => c.withInit (fun c => c.remove r)
  | .add r => c.withInit (fun c => c.add r)
  | .iterate => (c, .ok (.objs c.items))

/-- What a list of references would show. -/
def Spec.collOut (l : List Ref) : CollOp → Res CollOut
  | .count => .ok (.num l.length)
  | .getAt i => match l[i]? with | some r => .ok (.obj r) | none => raise .ValueOutOfRange
  | .get r => if r ∈ l then .ok (.obj r) else .error .exn
  | .removeAt i => if i < l.length then .ok .done else raise .ValueOutOfRange
  | .remove _ => .ok .done
  | .add r => .ok (.obj r)
  | .iterate => .ok (.objs l)

/-- And what it would become. -/
def Spec.collStep (l : List Ref) : CollOp → List Ref
  | .removeAt i => l.eraseIdx i
  | .remove r => l.erase r
  | .add r => l ++ [r]
  | _ => l

/-- The map is the inverse of the list. -/
def CollMap (l : List Ref) (m : List (Ref × Nat)) : Prop := SMap.Sorted m ∧ ∀ r i, SMap.find? r m = some i ↔ l[i]? = some r

/-- The collection stands for the list: so does the array in the document, and the objects in memory when they were made. -/
structure Spec.CollShows (c : Coll) (l : List Ref) : Prop where
  nodup : l.Nodup
  arr : c.arr.map CEntry.ref = l
  good : ∀ e ∈ c.arr, e.bad = none
  mem : (c.ready = false ∧ c.items = [] ∧ c.map = []) ∨ (c.ready = true ∧ c.items = l ∧ CollMap l c.map)

theorem collMap_nil : CollMap [] [] := ⟨trivial, fun r i => by simp [SMap.find?]⟩

theorem collMap_push {l : List Ref} {m : List (Ref × Nat)} (h : CollMap l m) (r : Ref) (hr : r ∉ l) : CollMap (l ++ [r]) (SMap.insert r l.length m) := by
  refine ⟨SMap.sorted_insert r _ m h.1, fun q i => ?_⟩
  rw [SMap.find_insert, List.getElem?_append]
  split
  · rename_i e; subst e
    split
    · rename_i hlt
      constructor
      · intro x; cases x; omega
      · intro x; exact absurd (List.mem_of_getElem? x) hr
    · constructor
      · intro x; cases x; simp
      · intro x
        have : i - l.length = 0 := by
          cases hi : i - l.length with
          | zero => rfl
          | succ n => rw [hi] at x; simp at x
        congr 1; omega
  · rename_i e
    rw [h.2 q i]
    split
    · rfl
    · constructor
      · intro x
        have := (List.getElem?_eq_some_iff.1 x).1; omega
      · intro x
        have hm := List.mem_of_getElem? x
        simp at hm; exact absurd hm e

theorem find_fix (q : Ref) (i : Nat) : ∀ (m : List (Ref × Nat)), SMap.find? q (fixIndices i m) = (SMap.find? q m).map (fun j => if i < j then j - 1 else j) := by
  intro m
  induction m with
  | nil => rfl
  | cons p m ih =>
    simp only [fixIndices, List.map_cons, SMap.find?] at ih ⊢
    split
    · rfl
    · exact ih

theorem sorted_fix (i : Nat) : ∀ (m : List (Ref × Nat)), SMap.Sorted m → SMap.Sorted (fixIndices i m) := by
  intro m
  induction m with
  | nil => exact id
  | cons p m ih =>
    intro h
    refine ⟨?_, ih h.2⟩
    intro x hx
    simp only [List.mem_map] at hx
    obtain ⟨y, hy, e⟩ := hx
    subst e
    exact h.1 y hy

theorem collMap_erase {l : List Ref} {m : List (Ref × Nat)} (h : CollMap l m) (hn : l.Nodup) (i : Nat) (r : Ref) (hi : l[i]? = some r) :
    CollMap (l.eraseIdx i) (fixIndices i (SMap.erase r m)) := by
  have hlt := (List.getElem?_eq_some_iff.1 hi).1
  refine ⟨sorted_fix i _ (SMap.sorted_erase r h.1), fun q k => ?_⟩
  rw [find_fix, SMap.find_erase r q h.1, List.getElem?_eraseIdx]
  by_cases e : q = r
  · subst e
    simp only [if_pos, Option.map_none, reduceCtorEq, false_iff]
    intro x
    split at x
    · have := (List.getElem?_inj hlt hn).1 (hi.trans x.symm); omega
    · have := (List.getElem?_inj hlt hn).1 (hi.trans x.symm); omega
  · rw [if_neg e, Option.map_eq_some_iff]
    constructor
    · rintro ⟨j, hj, hk⟩
      rw [h.2] at hj
      have hji : j ≠ i := by intro x; subst x; rw [hi] at hj; cases hj; exact e rfl
      by_cases hij : i < j
      · rw [if_pos hij] at hk
        rw [if_neg (by omega), ← hj]; congr 1; omega
      · rw [if_neg hij] at hk
        rw [if_pos (by omega), ← hj, hk]
    · intro x
      split at x
      · exact ⟨k, (h.2 q k).2 x, by rw [if_neg (by omega)]⟩
      · exact ⟨k + 1, (h.2 q (k + 1)).2 x, by rw [if_pos (by omega)]; rfl⟩

theorem collLoop_good : ∀ (es : List CEntry) (items : List Ref) (map : List (Ref × Nat)), (∀ e ∈ es, e.bad = none) → (items ++ es.map CEntry.ref).Nodup →
    CollMap items map → ∃ m, collLoop items.length es items map = (items ++ es.map CEntry.ref, m, .ok ()) ∧ CollMap (items ++ es.map CEntry.ref) m := by
  intro es
  induction es with
  | nil => intro items map _ _ hm; exact ⟨map, by simp [collLoop], by simpa using hm⟩
  | cons e es ih =>
    intro items map hg hn hm
    have hr : e.ref ∉ items := by
      intro x
      simp only [List.map_cons] at hn
      have := (List.nodup_append.1 hn).2.2 e.ref x e.ref (by simp)
      exact this rfl
    obtain ⟨m, h1, h2⟩ := ih (items ++ [e.ref]) (SMap.insert e.ref items.length map) (fun x hx => hg x (by simp [hx])) (by simpa using hn) (collMap_push hm _ hr)
    refine ⟨m, ?_, by simpa using h2⟩
    rw [collLoop, hg e (by simp)]
    simpa using h1

/-- Making the objects keeps what the collection stands for. -/
theorem init_shows {c : Coll} {l : List Ref} (h : Spec.CollShows c l) :
    c.init = ({ c with ready := true, items := l, map := c.init.1.map }, .ok ()) ∧ CollMap l c.init.1.map := by
  rcases h.mem with ⟨h1, h2, h3⟩ | ⟨h1, h2, h3⟩
  · obtain ⟨m, e1, e2⟩ := collLoop_good c.arr [] [] h.good (by simpa [h.arr] using h.nodup) collMap_nil
    simp only [List.length_nil, List.nil_append, h.arr] at e1 e2
    rw [Coll.init, h1, e1]
    exact ⟨rfl, e2⟩
  · rw [Coll.init, h1]
    refine ⟨?_, h3⟩
    cases c; simp only at h1 h2; subst h1 h2; rfl

theorem erase_eq_eraseIdx (r : Ref) : ∀ (l : List Ref) (i : Nat), l.Nodup → l[i]? = some r → l.erase r = l.eraseIdx i := by
  intro l
  induction l with
  | nil => intro i _ h; simp at h
  | cons x l ih =>
    intro i hn h
    cases i with
    | zero => simp at h; subst h; simp
    | succ i =>
      simp only [List.getElem?_cons_succ] at h
      have hne : x ≠ r := by
        intro e; subst e; exact (List.nodup_cons.1 hn).1 (List.mem_of_getElem? h)
      rw [List.erase_cons_tail (by simpa using hne), ih i (List.nodup_cons.1 hn).2 h, List.eraseIdx_cons_succ]

/-- C152: a collection of distinct objects shows what the list of their references would, and the array in the document follows. -/
theorem C152_step_partial (c : Coll) (l : List Ref) (h : Spec.CollShows c l) (op : CollOp) (hadd : ∀ r, op = .add r → r ∉ l)
    (hit : op = .iterate → c.ready = true) :
    (c.run op).2 = Spec.collOut l op ∧ Spec.CollShows (c.run op).1 (Spec.collStep l op) := by
  obtain ⟨he, hm⟩ := init_shows h
  obtain ⟨m, hmm⟩ : ∃ m, m = c.init.1.map := ⟨_, rfl⟩
  rw [← hmm] at he hm
  have hw : ∀ f, c.withInit f = f { c with ready := true, items := l, map := m } := by intro f; rw [Coll.withInit, he]
  have hs : Spec.CollShows { c with ready := true, items := l, map := m } l := ⟨h.nodup, h.arr, h.good, Or.inr ⟨rfl, rfl, hm⟩⟩
  have hlen : c.arr.length = l.length := by rw [← h.arr]; simp
  have hdel : ∀ (i : Nat) (r : Ref), l[i]? = some r →
      Spec.CollShows { c with arr := c.arr.eraseIdx i, ready := true, items := l.eraseIdx i, map := fixIndices i (SMap.erase r m) } (l.eraseIdx i) := by
    intro i r hi
    refine ⟨List.Pairwise.sublist (List.eraseIdx_sublist ..) h.nodup, ?_, ?_, Or.inr ⟨rfl, rfl, collMap_erase hm h.nodup i r hi⟩⟩
    · have key : ∀ (a : List CEntry) (i : Nat), (a.eraseIdx i).map CEntry.ref = (a.map CEntry.ref).eraseIdx i := by
        intro a
        induction a with
        | nil => intro i; rfl
        | cons x a ih => intro i; cases i with
          | zero => rfl
          | succ i => simp [ih]
      rw [key, h.arr]
    · intro e hx; exact h.good e (List.mem_of_mem_eraseIdx hx)
  cases op with
  | count => rw [Coll.run, hw]; exact ⟨rfl, hs⟩
  | getAt i =>
    rw [Coll.run, hw]
    refine ⟨?_, hs⟩
    rw [Spec.collOut, Coll.getAt]
    cases l[i]? <;> rfl
  | get r =>
    rw [Coll.run, hw]
    refine ⟨?_, hs⟩
    rw [Spec.collOut]
    simp only [Coll.get]
    cases hf : SMap.find? r m with
    | none =>
      rw [if_neg]
      intro x
      rw [List.mem_iff_getElem?] at x
      obtain ⟨i, hi⟩ := x
      rw [(hm.2 r i).2 hi] at hf; cases hf
    | some i =>
      have := (hm.2 r i).1 hf
      simp only [this]
      rw [if_pos (List.mem_of_getElem? this)]
  | removeAt i =>
    rw [Coll.run, hw]
    simp only [Coll.removeAt, Spec.collOut, Spec.collStep]
    cases hi : l[i]? with
    | none =>
      have hle := List.getElem?_eq_none_iff.1 hi
      simp only []
      rw [if_neg (by omega)]
      refine ⟨rfl, ?_⟩
      rw [List.eraseIdx_of_length_le hle]; exact hs
    | some r =>
      simp only [(hm.2 r i).2 hi]
      have hlt := (List.getElem?_eq_some_iff.1 hi).1
      rw [if_pos hlt]
      exact ⟨rfl, hdel i r hi⟩
  | remove r =>
    rw [Coll.run, hw]
    simp only [Coll.remove, Spec.collOut, Spec.collStep]
    cases hf : SMap.find? r m with
    | none =>
      refine ⟨rfl, ?_⟩
      have hr : r ∉ l := by
        intro x
        rw [List.mem_iff_getElem?] at x
        obtain ⟨i, hi⟩ := x
        rw [(hm.2 r i).2 hi] at hf; cases hf
      rw [List.erase_of_not_mem hr]; exact hs
    | some i =>
      have hi := (hm.2 r i).1 hf
      have hlt := (List.getElem?_eq_some_iff.1 hi).1
      simp only []
      rw [if_neg (by omega), erase_eq_eraseIdx r l i h.nodup hi]
      exact ⟨rfl, hdel i r hi⟩
  | add r =>
    rw [Coll.run, hw]
    have hr := hadd r rfl
    refine ⟨rfl, ?_, ?_, ?_, Or.inr ⟨rfl, rfl, ?_⟩⟩
    · show (l ++ [r]).Nodup
      rw [List.nodup_append]
      refine ⟨h.nodup, by simp, ?_⟩
      intro a ha b hb
      simp at hb; subst hb; intro e; subst e; exact hr ha
    · simp [Coll.add, h.arr, Spec.collStep]
    · intro e hx
      simp only [Coll.add, List.mem_append, List.mem_singleton] at hx
      rcases hx with hx | hx
      · exact h.good e hx
      · rw [hx]
    · simp only [Coll.add, hlen]; exact collMap_push hm r hr
  | iterate =>
    have hr := hit rfl
    rcases h.mem with ⟨h1, _⟩ | ⟨_, h2, _⟩
    · rw [h1] at hr; cases hr
    · rw [Coll.run, h2]; exact ⟨rfl, h⟩

/-- A history and everything it showed. -/
def Coll.runAll (c : Coll) : List CollOp → Coll × List (Res CollOut)
  | [] => (c, [])
  | op :: ops => (((c.run op).1.runAll ops).1, (c.run op).2 :: ((c.run op).1.runAll ops).2)

/-- The same for the list. -/
def Spec.collAll (l : List Ref) : List CollOp → List Ref × List (Res CollOut)
  | [] => (l, [])
  | op :: ops => ((Spec.collAll (Spec.collStep l op) ops).1, Spec.collOut l op :: (Spec.collAll (Spec.collStep l op) ops).2)

/-- What is added is new, as the objects made by `CreateAnnot` and `CreateField` are, and nobody iterates first. -/
def Spec.Fair (l : List Ref) (ready : Bool) : List CollOp → Prop
  | [] => True
  | op :: ops => (∀ r, op = .add r → r ∉ l) ∧ (op = .iterate → ready = true) ∧ Spec.Fair (Spec.collStep l op) true ops

theorem run_ready (c : Coll) (op : CollOp) (h : op = .iterate → c.ready = true) : (c.run op).1.ready = true := by
  have hi : c.init.1.ready = true := by
    rw [Coll.init]; split
    · assumption
    · rfl
  have hw : ∀ f : Coll → Coll × Res CollOut, (∀ c : Coll, (f c).1.ready = c.ready) → (c.withInit f).1.ready = true := by
    intro f hf
    rw [Coll.withInit]
    split
    · rename_i e; rw [e] at hi; exact hi
    · rename_i e; rw [e] at hi; rw [hf]; exact hi
  cases op with
  | iterate => exact h rfl
  | count => exact hw _ (fun _ => rfl)
  | getAt i => exact hw _ (fun _ => rfl)
  | get r => exact hw _ (fun _ => rfl)
  | removeAt i =>
    refine hw _ (fun c => ?_)
    simp only [Coll.removeAt]; split
    · rfl
    · split <;> rfl
  | remove r =>
    refine hw _ (fun c => ?_)
    simp only [Coll.remove]; split
    · rfl
    · split <;> rfl
  | add r => exact hw _ (fun _ => rfl)

/-- C152: after any history from an array of distinct objects, the collection has shown what a list would have, and stands for that list, in memory and in the document. -/
theorem C152_history_partial : ∀ (ops : List CollOp) (c : Coll) (l : List Ref), Spec.CollShows c l → Spec.Fair l c.ready ops →
    (c.runAll ops).2 = (Spec.collAll l ops).2 ∧ Spec.CollShows (c.runAll ops).1 (Spec.collAll l ops).1 := by
  intro ops
  induction ops with
  | nil => intro c l h _; exact ⟨rfl, h⟩
  | cons op ops ih =>
    intro c l h hf
    obtain ⟨h1, h2⟩ := C152_step_partial c l h op hf.1 hf.2.1
    have hr := run_ready c op hf.2.1
    obtain ⟨h3, h4⟩ := ih _ _ h2 (by rw [hr]; exact hf.2.2)
    exact ⟨by simp only [Coll.runAll, Spec.collAll, h1, h3], h4⟩

theorem collLoop_bad (c : ErrorCode) : ∀ (good : List CEntry) (b : CEntry) (rest : List CEntry) (i : Nat) (items : List Ref) (map : List (Ref × Nat)),
    (∀ e ∈ good, e.bad = none) → b.bad = some c →
    ∃ m, collLoop i (good ++ b :: rest) items map = (items ++ good.map CEntry.ref, m, raise c) := by
  intro good
  induction good with
  | nil => intro b rest i items map _ hb; exact ⟨SMap.insert b.ref i map, by simp [collLoop, hb]⟩
  | cons e good ih =>
    intro b rest i items map hg hb
    obtain ⟨m, h⟩ := ih b rest (i + 1) (items ++ [e.ref]) (SMap.insert e.ref i map) (fun x hx => hg x (by simp [hx])) hb
    refine ⟨m, ?_⟩
    simp only [List.cons_append, collLoop, hg e (by simp)]
    rw [h]; simp

/-- C152, what is wrong: one entry that is not a dictionary, such as a reference to nothing, or has an unknown subtype makes the first call raise;
from then on the entries from there on are missing, and an object added is looked for outside of the objects in memory. -/
theorem C152_bad_false (good rest : List CEntry) (b : CEntry) (code : ErrorCode) (hg : ∀ e ∈ good, e.bad = none) (hb : b.bad = some code) (r : Ref) :
    ∃ out1 out2 out3 out4, ((Coll.fresh (good ++ b :: rest)).runAll [.count, .count, .add r, .get r]).2 = [out1, out2, out3, out4] ∧
      out1 = raise code ∧ out2 = .ok (.num good.length) ∧ out3 = .ok (.obj r) ∧ out4 = .error .ub := by
  obtain ⟨m, hm⟩ := collLoop_bad code good b rest 0 [] [] hg hb
  have h1 : (Coll.fresh (good ++ b :: rest)).run .count = (⟨good ++ b :: rest, true, good.map CEntry.ref, m⟩, raise code) := by
    rw [Coll.run, Coll.withInit, Coll.init, Coll.fresh]
    simp [hm]
  refine ⟨_, _, _, _, rfl, ?_, ?_, ?_, ?_⟩
  · rw [h1]
  · rw [h1]; simp [Coll.run, Coll.withInit, Coll.init]
  · rw [h1]; simp [Coll.run, Coll.withInit, Coll.init, Coll.add]
  · rw [h1]
    simp only [Coll.run, Coll.withInit, Coll.init, if_true, Coll.add, Coll.get, SMap.find_insert_self]
    rw [List.getElem?_eq_none (by simp)]

theorem collLoop_last (r : Ref) : ∀ (es : List CEntry) (i : Nat) (items : List Ref) (map : List (Ref × Nat)), (∀ e ∈ es, e.bad = none) → SMap.Sorted map →
    ∃ m, collLoop i es items map = (items ++ es.map CEntry.ref, m, .ok ()) ∧ SMap.Sorted m ∧
      ((∃ (k : Nat) (e : CEntry), es[k]? = some e ∧ e.ref = r ∧ SMap.find? r m = some (i + k) ∧ ∀ j e', es[j]? = some e' → e'.ref = r → j ≤ k) ∨
        ((∀ e ∈ es, e.ref ≠ r) ∧ SMap.find? r m = SMap.find? r map)) := by
  intro es
  induction es with
  | nil => intro i items map _ hs; exact ⟨map, by simp [collLoop], hs, Or.inr ⟨by simp, rfl⟩⟩
  | cons e es ih =>
    intro i items map hg hs
    obtain ⟨m, h1, h2, h3⟩ := ih (i + 1) (items ++ [e.ref]) (SMap.insert e.ref i map) (fun x hx => hg x (by simp [hx])) (SMap.sorted_insert _ _ _ hs)
    refine ⟨m, by rw [collLoop, hg e (by simp)]; simp only []; rw [h1]; simp, h2, ?_⟩
    rcases h3 with ⟨k, e', ha, hb, hc, hd⟩ | ⟨ha, hb⟩
    · refine Or.inl ⟨k + 1, e', by simpa using ha, hb, by rw [hc]; congr 1; omega, ?_⟩
      intro j e'' hj hr
      cases j with
      | zero => omega
      | succ j => have := hd j e'' (by simpa using hj) hr; omega
    · by_cases he : e.ref = r
      · refine Or.inl ⟨0, e, rfl, he, by rw [hb, he, SMap.find_insert_self]; rfl, ?_⟩
        intro j e'' hj hr
        cases j with
        | zero => omega
        | succ j => simp only [List.getElem?_cons_succ] at hj; exact absurd hr (ha e'' (List.mem_of_getElem? hj))
      · refine Or.inr ⟨?_, by rw [hb, SMap.find_insert_ne _ _ (Ne.symm he)]⟩
        intro x hx
        rcases List.mem_cons.1 hx with hx | hx
        · rw [hx]; exact he
        · exact ha x hx

/-- C152, what is wrong: when a reference is in the array twice (all direct objects count as 0 0 R), removing it by its reference takes one away, but the other,
still in the array, cannot be found any more, and removing it by its position is undefined. -/
theorem C152_duplicate_false (es : List CEntry) (hg : ∀ e ∈ es, e.bad = none) (i j : Nat) (e e' : CEntry) (hij : i < j) (hi : es[i]? = some e)
    (hj : es[j]? = some e') (he : e'.ref = e.ref) :
    ∃ c, (Coll.fresh es).run (.remove e.ref) = (c, .ok .done) ∧ (c.run (.getAt i)).2 = .ok (.obj e.ref) ∧ (c.run (.get e.ref)).2 = .error .exn ∧
      (c.run (.removeAt i)).2 = .error .ub := by
  obtain ⟨m, h1, h2, h3⟩ := collLoop_last e.ref es 0 [] [] hg trivial
  rcases h3 with ⟨k, x, ha, hb, hc, hd⟩ | ⟨ha, _⟩
  · have hjk := hd j e' hj he
    have hk := (List.getElem?_eq_some_iff.1 ha).1
    simp only [Nat.zero_add] at hc
    refine ⟨⟨es.eraseIdx k, true, (es.map CEntry.ref).eraseIdx k, fixIndices k (SMap.erase e.ref m)⟩, ?_, ?_, ?_, ?_⟩
    · rw [Coll.run, Coll.withInit, Coll.init, Coll.fresh]
      simp only [h1, Bool.false_eq_true, if_false, List.nil_append, Coll.remove, hc, List.length_map]
      rw [if_neg (by omega)]
    all_goals
      have hit : ((es.map CEntry.ref).eraseIdx k)[i]? = some e.ref := by
        rw [List.getElem?_eraseIdx, if_pos (by omega)]; simp [hi]
      have hno : SMap.find? e.ref (fixIndices k (SMap.erase e.ref m)) = none := by
        rw [find_fix, SMap.find_erase _ _ h2, if_pos rfl]; rfl
    · simp [Coll.run, Coll.withInit, Coll.init, Coll.getAt, hit]
    · simp [Coll.run, Coll.withInit, Coll.init, Coll.get, hno]
    · simp [Coll.run, Coll.withInit, Coll.init, Coll.removeAt, hit, hno]
  · exact absurd rfl (ha e (List.mem_of_getElem? hi))

/-- C152, what is wrong: iterating over a collection before asking it anything else gives nothing, whatever it holds. -/
theorem C152_iterate_false (es : List CEntry) : ((Coll.fresh es).run .iterate).2 = .ok (.objs []) := rfl

example : Spec.CollShows (.fresh [⟨⟨3, 0⟩, none⟩, ⟨⟨5, 0⟩, none⟩]) [⟨3, 0⟩, ⟨5, 0⟩] := ⟨by decide, rfl, by decide, Or.inl ⟨rfl, rfl, rfl⟩⟩
example : ((Coll.fresh [⟨⟨3, 0⟩, none⟩, ⟨⟨5, 0⟩, none⟩]).runAll [.removeAt 0, .add ⟨7, 0⟩, .get ⟨5, 0⟩, .getAt 1, .remove ⟨5, 0⟩, .get ⟨7, 0⟩, .iterate, .get ⟨3, 0⟩]).2 =
    [.ok .done, .ok (.obj ⟨7, 0⟩), .ok (.obj ⟨5, 0⟩), .ok (.obj ⟨7, 0⟩), .ok .done, .ok (.obj ⟨7, 0⟩), .ok (.objs [⟨7, 0⟩]), .error .exn] := by decide
example : Spec.Fair [⟨3, 0⟩, ⟨5, 0⟩] false [.removeAt 0, .add ⟨7, 0⟩, .iterate] := by simp [Spec.Fair, Spec.collStep]
example : ((Coll.fresh [⟨⟨0, 0⟩, none⟩, ⟨⟨0, 0⟩, none⟩]).runAll [.remove ⟨0, 0⟩, .count, .removeAt 0]).2 = [.ok .done, .ok (.num 1), .error .ub] := by decide
example : ((Coll.fresh [⟨⟨3, 0⟩, none⟩, ⟨⟨0, 0⟩, some .InvalidDataType⟩]).runAll [.count, .count, .add ⟨9, 0⟩, .get ⟨9, 0⟩]).2 =
    [raise .InvalidDataType, .ok (.num 1), .ok (.obj ⟨9, 0⟩), .error .ub] := by decide

end Pdfmm
