import Verif.Contents.PageContents
set_option autoImplicit false
/-
C142 to C145: drawing on pages and forms with several streams.
-/
namespace Pdfmm

open Spec

/-! ### Texts -/

/-- What a page delivers to readers: its streams joined with line feeds, which is what C86 proves of the device. -/
def CDoc.pageText (d : CDoc) (p : Nat) : Bytes := Spec.joined (d.pageStreams p)

/-- Pieces between a save and a restore of the graphics state. -/
def Spec.saved (l : List Spec.Piece) : List Spec.Piece := .op .opq [] :: (l ++ [.op .opQ []])

/-- The contents that are delivered for pieces. -/
def Spec.delivered (l : List Spec.Piece) : List Content := l.flatMap (·.contents)

/-- What is expected of a page after drawing: the old pieces, saved and restored when there are any and the painter does not leave this out, and the new ones,
saved and restored when the painter does not leave this out, in the order that was asked for. -/
def Spec.drawn (fl : PFlags) (hadText : Bool) (old new : List Spec.Piece) : List Spec.Piece :=
  let oldPart := if fl.noPrior = false ∧ hadText = true then Spec.saved old else old
  let newPart := if fl.noRestore then new else Spec.saved new
  if fl.prepend then newPart ++ oldPart else oldPart ++ newPart

section
variable {cv : Option Nat} {f : WFlags}

theorem ok_q (cv : Option Nat) : (Spec.Piece.op .opq []).Ok cv := ⟨by decide, Or.inr (by decide), fun v h => by cases h⟩

theorem ok_Q (cv : Option Nat) : (Spec.Piece.op .opQ []).Ok cv := ⟨by decide, Or.inr (by decide), fun v h => by cases h⟩

/-- A text is followed by white space, or nothing. -/
def WsStart (x : Bytes) : Prop := x = [] ∨ ∃ w y, x = w :: y ∧ isWhitespace w = true

theorem Spec.ShowsPieces.nil_inv {l : List Spec.Piece} (h : Spec.ShowsPieces f cv [] l) : l = [] := by
  obtain ⟨t, ht⟩ : ∃ t : Bytes, t = [] := ⟨_, rfl⟩
  rw [← ht] at h
  cases h with
  | nil => rfl
  | ws w t l hw h => cases ht
  | op o args t l _ _ _ =>
    have := (List.append_eq_nil_iff.1 (List.append_eq_nil_iff.1 ht).2).1
    obtain ⟨w, h1, _⟩ := opName_last o
    rw [this] at h1
    cases h1
  | image dict data t l _ _ =>
    have := (List.append_eq_nil_iff.1 ht).1
    rw [Spec.Piece.text, show opName .opBI = [66, 73] from by decide] at this
    cases this

/-- Texts one after the other show their pieces one after the other when white space is between them. -/
theorem Spec.ShowsPieces.append {t : Bytes} {l : List Spec.Piece} (h : Spec.ShowsPieces f cv t l) {x : Bytes} {m : List Spec.Piece} (hx : Spec.ShowsPieces f cv x m)
    (he : t = [] ∨ Spec.EndsWs t ∨ WsStart x) : Spec.ShowsPieces f cv (t ++ x) (l ++ m) := by
  induction h with
  | nil => exact hx
  | ws w t l hw _ ih =>
    refine Spec.ShowsPieces.ws _ _ _ hw (ih ?_)
    rcases he with h | h | h
    · cases h
    · by_cases ht : t = []
      · exact Or.inl ht
      · exact Or.inr (Or.inl (Spec.EndsWs.tail (a := [w]) h ht))
    · exact Or.inr (Or.inr h)
  | op o args t l hok ht _ ih =>
    have key : (t = [] ∨ Spec.EndsWs t ∨ WsStart x) := by
      rcases he with h | h | h
      · exact Or.inl (List.append_eq_nil_iff.1 (List.append_eq_nil_iff.1 h).2).2
      · by_cases ht : t = []
        · exact Or.inl ht
        · refine Or.inr (Or.inl ?_)
          rw [← List.append_assoc] at h
          exact h.tail ht
      · exact Or.inr (Or.inr h)
    have hstart : WsStart (t ++ x) := by
      rcases ht with rfl | ⟨w, r, rfl, hw⟩
      · rcases he with h | h | h
        · have := (List.append_eq_nil_iff.1 (List.append_eq_nil_iff.1 h).2).1
          obtain ⟨w, h1, _⟩ := opName_last o
          rw [this] at h1
          cases h1
        · rw [List.append_nil] at h
          obtain ⟨w, h1, h2⟩ := opName_last o
          obtain ⟨w', h3, h4⟩ := h
          rw [List.getLast?_append, h1] at h3
          have : w = w' := by simpa using h3
          rw [this, h4] at h2
          cases h2
        · exact h
      · exact Or.inr ⟨w, r ++ x, rfl, hw⟩
    have := Spec.ShowsPieces.op o args _ _ hok hstart (ih key)
    simpa [List.append_assoc] using this
  | image dict data t l hok _ ih =>
    have key : (t = [] ∨ Spec.EndsWs t ∨ WsStart x) := by
      by_cases ht : t = []
      · exact Or.inl ht
      · rcases he with h | h | h
        · exact absurd (List.append_eq_nil_iff.1 h).2 ht
        · exact Or.inr (Or.inl (h.tail ht))
        · exact Or.inr (Or.inr h)
    have := Spec.ShowsPieces.image dict data _ _ hok (ih key)
    simpa [List.append_assoc] using this

/-- The reader delivers the pieces that a text shows. -/
theorem Spec.ShowsPieces.reads {env : CEnv} {a : CArgs} {ct : Option Nat} (ha : a.throwOnWarnings = false) (hh : a.handler = none)
    (hb : ∀ x, env.body x ≠ .error .diverge) (hf : f.Sep) {t : Bytes} {l : List Spec.Piece} (h : Spec.ShowsPieces f cv t l) :
    Spec.ReadsAs env a cv ct t (Spec.delivered l) := by
  have := ShowsPieces.then (ct := ct) ha hh hb hf h (ReadsAs.nil (env := env) (a := a) (cv := cv) (ct := ct)) (Or.inr (Or.inr (Or.inl rfl)))
  simpa [Spec.delivered] using this

theorem shows_q {x : Bytes} {m : List Spec.Piece} (h : Spec.ShowsPieces f cv x m) : Spec.ShowsPieces f cv (asciiB "q\n" ++ x) (.op .opq [] :: m) :=
  Spec.ShowsPieces.op (f := f) .opq [] (10 :: x) m (ok_q cv) (Or.inr ⟨10, x, rfl, by decide⟩) (Spec.ShowsPieces.ws 10 x m (by decide) h)

theorem shows_Q {x : Bytes} {m : List Spec.Piece} (hx : WsStart x) (h : Spec.ShowsPieces f cv x m) : Spec.ShowsPieces f cv (asciiB "Q" ++ x) (.op .opQ [] :: m) :=
  Spec.ShowsPieces.op (f := f) .opQ [] x m (ok_Q cv) hx h

/-- Streams that show pieces, all but the last of them ending with white space, show all the pieces one after the other. -/
theorem flatten_shows (ss : List (Option Bytes × List Spec.Piece)) (hs : ∀ s ∈ ss, Spec.ShowsPieces f cv (s.1.getD []) s.2)
    (he : ∀ s ∈ ss.dropLast, s.1.getD [] = [] ∨ Spec.EndsWs (s.1.getD [])) {x : Bytes} {m : List Spec.Piece} (hx : Spec.ShowsPieces f cv x m) (hw : WsStart x) :
    Spec.ShowsPieces f cv ((ss.map (·.1)).flatMap (fun o => o.getD []) ++ x) (ss.flatMap (·.2) ++ m) := by
  induction ss with
  | nil => exact hx
  | cons s l ih =>
    have h1 := hs s List.mem_cons_self
    cases l with
    | nil =>
      have := h1.append hx (Or.inr (Or.inr hw))
      simpa using this
    | cons s' l =>
      have ih' := ih (fun s h => hs s (List.mem_cons_of_mem _ h)) (fun s h => he s (by rw [List.dropLast_cons_cons]; exact List.mem_cons_of_mem _ h))
      have h2 := he s (by rw [List.dropLast_cons_cons]; exact List.mem_cons_self)
      have := h1.append ih' (by
        rcases h2 with h2 | h2
        · exact Or.inl h2
        · exact Or.inr (Or.inl h2))
      simpa [List.append_assoc] using this

theorem joined_cons (o : Option Bytes) (l : List (Option Bytes)) :
    Spec.joined (o :: l) = o.getD [] ++ Spec.joined l ∧ (o.getD [] = [] ∨ Spec.joined l = []) ∨ Spec.joined (o :: l) = o.getD [] ++ 10 :: Spec.joined l := by
  cases o with
  | none => exact Or.inl ⟨rfl, Or.inl rfl⟩
  | some b =>
    cases b with
    | nil => exact Or.inl ⟨rfl, Or.inl rfl⟩
    | cons x t =>
      have e : Spec.nonEmpty (some (x :: t) :: l) = (x :: t) :: Spec.nonEmpty l := rfl
      rw [Spec.joined, Spec.joined, e]
      cases hn : Spec.nonEmpty l with
      | nil => exact Or.inl ⟨by simp [List.intercalate], Or.inr rfl⟩
      | cons y r => exact Or.inr (by simp [List.intercalate, List.intersperse])

/-- Streams that are joined with line feeds show all the pieces. -/
theorem joined_shows (ss : List (Option Bytes × List Spec.Piece)) (hs : ∀ s ∈ ss, Spec.ShowsPieces f cv (s.1.getD []) s.2) :
    Spec.ShowsPieces f cv (Spec.joined (ss.map (·.1))) (ss.flatMap (·.2)) := by
  induction ss with
  | nil => exact Spec.ShowsPieces.nil
  | cons s l ih =>
    have h1 := hs s List.mem_cons_self
    have ih' := ih (fun s h => hs s (List.mem_cons_of_mem _ h))
    rw [List.map_cons, List.flatMap_cons]
    rcases joined_cons s.1 (l.map (·.1)) with ⟨e, h | h⟩ | e
    · rw [e]
      exact h1.append ih' (Or.inl h)
    · rw [e]
      exact h1.append ih' (Or.inr (Or.inr (Or.inl h)))
    · rw [e]
      exact h1.append (Spec.ShowsPieces.ws 10 _ _ (by decide) ih') (Or.inr (Or.inr (Or.inr ⟨10, _, rfl, by decide⟩)))

theorem session_shows (fl : PFlags) {tmp : Bytes} {new : List Spec.Piece} (h : Spec.ShowsPieces f cv tmp new) (he : tmp = [] ∨ Spec.EndsWs tmp) :
    Spec.ShowsPieces f cv (sessionText fl tmp) (if fl.noRestore then new else Spec.saved new) := by
  rw [sessionText]
  cases fl.noRestore with
  | true => exact h
  | false =>
    rw [if_neg (by decide), if_neg (by decide), List.append_assoc]
    refine shows_q (h.append (shows_Q (x := [10]) (Or.inr ⟨10, [], rfl, by decide⟩) (Spec.ShowsPieces.ws 10 _ _ (by decide) Spec.ShowsPieces.nil)) ?_)
    rcases he with h | h
    · exact Or.inl h
    · exact Or.inr (Or.inl h)

/-- The page has a text, so that there is something to save and restore. -/
def Spec.hasText (l : List (Option Bytes)) : Bool := l.any (fun o => decide (o.getD [] ≠ []))

theorem hasText_iff (l : List (Option Bytes)) : Spec.hasText l = true ↔ l.flatMap (fun o => o.getD []) ≠ [] := by
  rw [Spec.hasText, List.any_eq_true]
  constructor
  · intro ⟨o, h1, h2⟩ h
    have := List.flatMap_eq_nil_iff.1 h o h1
    simp [this] at h2
  · intro h
    by_cases hx : ∃ o ∈ l, o.getD [] ≠ []
    · obtain ⟨o, h1, h2⟩ := hx
      exact ⟨o, h1, by simpa using h2⟩
    · exact absurd (List.flatMap_eq_nil_iff.2 (fun o ho => Decidable.byContradiction (fun hne => hx ⟨o, ho, hne⟩))) h

/-- The streams of the page after drawing show what is expected. -/
theorem draw_streams {d : CDoc} (hd : d.WF) {p : Nat} (hp : p < d.pages.length) {fl : PFlags} {tmp : Bytes} {d' : CDoc} (h : d.draw p fl tmp = .ok d')
    (ss : List (Option Bytes × List Spec.Piece)) (hs : d.pageStreams p = ss.map (·.1)) (hshow : ∀ s ∈ ss, Spec.ShowsPieces f cv (s.1.getD []) s.2)
    (he : fl.noPrior = false → ∀ s ∈ ss.dropLast, s.1.getD [] = [] ∨ Spec.EndsWs (s.1.getD []))
    {new : List Spec.Piece} (hn : Spec.ShowsPieces f cv tmp new) (hne : tmp = [] ∨ Spec.EndsWs tmp) :
    ∃ uu : List (Option Bytes × List Spec.Piece), d'.pageStreams p = uu.map (·.1) ∧ (∀ s ∈ uu, Spec.ShowsPieces f cv (s.1.getD []) s.2) ∧
      uu.flatMap (·.2) = Spec.drawn fl (Spec.hasText (d.pageStreams p)) (ss.flatMap (·.2)) new := by
  have hsess := session_shows (f := f) (cv := cv) fl hn hne
  obtain ⟨oldPart, hO⟩ : ∃ o, o = if fl.noPrior = false ∧ Spec.hasText (d.pageStreams p) = true then Spec.saved (ss.flatMap (·.2)) else ss.flatMap (·.2) := ⟨_, rfl⟩
  obtain ⟨newPart, hN⟩ : ∃ o, o = if fl.noRestore then new else Spec.saved new := ⟨_, rfl⟩
  have hprior : ∃ tt : List (Option Bytes × List Spec.Piece), priorStreams (d.pageStreams p) fl.noPrior = tt.map (·.1) ∧
      (∀ s ∈ tt, Spec.ShowsPieces f cv (s.1.getD []) s.2) ∧ tt.flatMap (·.2) = oldPart := by
    by_cases hw : fl.noPrior = false ∧ Spec.hasText (d.pageStreams p) = true
    · rw [if_pos hw] at hO
      refine ⟨[(some (asciiB "q\n" ++ (d.pageStreams p).flatMap (fun o => o.getD []) ++ asciiB "\nQ"), Spec.saved (ss.flatMap (·.2)))], ?_, ?_, ?_⟩
      · rw [priorStreams, if_pos ⟨hw.1, (hasText_iff _).1 hw.2⟩]
        rfl
      · intro s hs'
        rw [List.mem_singleton.1 hs', hs, Option.getD_some, List.append_assoc]
        refine shows_q ?_
        have hq : Spec.ShowsPieces f cv (asciiB "\nQ") [.op .opQ []] :=
          Spec.ShowsPieces.ws 10 (asciiB "Q") _ (by decide) (shows_Q (x := []) (Or.inl rfl) Spec.ShowsPieces.nil)
        exact flatten_shows ss hshow (he hw.1) hq (Or.inr ⟨10, asciiB "Q", rfl, by decide⟩)
      · rw [hO]
        simp
    · rw [if_neg hw] at hO
      refine ⟨ss, ?_, hshow, hO.symm⟩
      rw [priorStreams, if_neg (fun h => hw ⟨h.1, (hasText_iff _).2 h.2⟩), hs]
  obtain ⟨tt, h1, h2, h3⟩ := hprior
  rw [draw_page hd hp h, h1]
  have hdr : Spec.drawn fl (Spec.hasText (d.pageStreams p)) (ss.flatMap (·.2)) new = if fl.prepend then newPart ++ oldPart else oldPart ++ newPart := by
    rw [hO, hN]
    rfl
  rw [hdr]
  rw [← hN] at hsess
  cases fl.prepend with
  | true =>
    rw [if_pos rfl, if_pos rfl]
    refine ⟨(some (sessionText fl tmp), newPart) :: tt, rfl, ?_, ?_⟩
    · intro s hs
      rcases List.mem_cons.1 hs with rfl | hs
      · exact hsess
      · exact h2 s hs
    · rw [List.flatMap_cons, h3]
  | false =>
    rw [if_neg (by decide), if_neg (by decide)]
    refine ⟨tt ++ [(some (sessionText fl tmp), newPart)], by simp, ?_, ?_⟩
    · intro s hs
      rcases List.mem_append.1 hs with hs | hs
      · exact h2 s hs
      · rw [List.mem_singleton.1 hs]
        exact hsess
    · rw [List.flatMap_append, h3]
      simp

end

/-! ### Documents stay well formed -/

theorem wf_arrays_set {d : CDoc} (hd : d.WF) {n a : Nat} (l : List (Option Nat)) (hn : d.streams.length ≤ n) (hl : ∀ s, some s ∈ l → s < n) (i : Nat) (l' : List (Option Nat))
    (h : (d.arrays.set a l)[i]? = some l') (s : Nat) (hs : some s ∈ l') : s < n := by
  by_cases e : i = a
  · by_cases ha : a < d.arrays.length
    · rw [e, List.getElem?_set_self ha] at h
      cases h
      exact hl s hs
    · rw [List.getElem?_eq_none (by rw [List.length_set]; omega)] at h
      cases h
  · rw [List.getElem?_set_ne (fun x => e x.symm)] at h
    have := hd.arrays i l' h s hs
    omega

theorem wf_ensure_new {d : CDoc} (hd : d.WF) {p : Nat} (l : List (Option Nat)) (hl : ∀ s, some s ∈ l → s < d.streams.length) :
    CDoc.WF { d with arrays := d.arrays ++ [l], pages := d.pages.set p (some (.arr d.arrays.length)) } := by
  have key : ∀ q c, CDoc.obj { d with arrays := d.arrays ++ [l], pages := d.pages.set p (some (.arr d.arrays.length)) } q = some c → c = .arr d.arrays.length ∨ d.obj q = some c := by
    intro q c h
    by_cases e : q = p
    · by_cases hp : p < d.pages.length
      · rw [CDoc.obj, e, set_pages_self _ _ _ hp] at h
        cases h
        exact Or.inl rfl
      · rw [CDoc.obj, e, List.getElem?_eq_none (by rw [List.length_set]; omega)] at h
        cases h
    · rw [CDoc.obj, set_pages_ne _ _ _ _ e] at h
      exact Or.inr h
  refine ⟨?_, ?_, ?_⟩
  · intro i l' h s hs
    by_cases hi : i < d.arrays.length
    · rw [List.getElem?_append_left hi] at h
      exact hd.arrays i l' h s hs
    · by_cases e : i = d.arrays.length
      · rw [e, List.getElem?_append_right (Nat.le_refl _)] at h
        simp at h
        rw [← h] at hs
        exact hl s hs
      · rw [List.getElem?_eq_none (by simp; omega)] at h
        cases h
  · intro q i h
    rcases key q _ h with e | e
    · cases e
      simp
    · have := hd.arr q i e
      simp
      omega
  · intro q s h
    rcases key q _ h with e | e
    · cases e
    · exact hd.dict q s e

theorem ensureArray_wf {d : CDoc} (hd : d.WF) {p : Nat} {d' : CDoc} {a : Nat} (h : d.ensureArray p = .ok (d', a)) : d'.WF ∧ d'.pages.length = d.pages.length := by
  rw [CDoc.ensureArray] at h
  cases ho : d.obj p with
  | none =>
    rw [ho] at h
    cases h
    exact ⟨wf_ensure_new hd [] (fun s hs => by cases hs), by simp⟩
  | some c =>
    rw [ho] at h
    cases c with
    | arr i =>
      cases h
      exact ⟨hd, rfl⟩
    | dict o =>
      cases h
      refine ⟨wf_ensure_new hd [o] (fun s hs => ?_), by simp⟩
      rw [List.mem_singleton] at hs
      exact hd.dict p s (by rw [ho, hs])
    | other => cases h

theorem wrap_wf {d : CDoc} (hd : d.WF) (a : Nat) (noPrior : Bool) : (d.wrap a noPrior).WF ∧ (d.wrap a noPrior).pages.length = d.pages.length := by
  rw [CDoc.wrap]
  by_cases hw : noPrior = false ∧ d.copyTo (d.array a) ≠ []
  · rw [if_pos hw]
    refine ⟨⟨?_, ?_, ?_⟩, rfl⟩
    · intro i l h s hs
      refine wf_arrays_set hd _ (by simp) (fun s' hs' => ?_) i l h s hs
      simp at hs'
      simp
      omega
    · intro q i h
      have := hd.arr q i h
      simpa using this
    · intro q s h
      have := hd.dict q s h
      simp
      omega
  · rw [if_neg hw]
    exact ⟨hd, rfl⟩

theorem addStream_wf {d : CDoc} (hd : d.WF) (a : Nat) (prepend : Bool) : (d.addStream a prepend).1.WF ∧ (d.addStream a prepend).1.pages.length = d.pages.length := by
  refine ⟨⟨?_, ?_, ?_⟩, rfl⟩
  · intro i l h s hs
    refine wf_arrays_set hd _ (by simp [CDoc.addStream]) (fun s' hs' => ?_) i l h s hs
    have h' : some s' ∈ d.array a ∨ s' = d.streams.length := by
      cases prepend with
      | true =>
        simp at hs'
        exact hs'.symm
      | false =>
        simp at hs'
        exact hs'
    rcases h' with h' | h'
    · have := hd.array h'
      simp [CDoc.addStream]
      omega
    · simp [CDoc.addStream, h']
  · intro q i h
    have := hd.arr q i h
    simpa [CDoc.addStream] using this
  · intro q s h
    have := hd.dict q s h
    simp [CDoc.addStream]
    omega

theorem draw_wf {d : CDoc} (hd : d.WF) {p : Nat} {fl : PFlags} {tmp : Bytes} {d' : CDoc} (h : d.draw p fl tmp = .ok d') :
    d'.WF ∧ d'.pages.length = d.pages.length := by
  rw [CDoc.draw, CDoc.forAppending] at h
  cases he : d.ensureArray p with
  | error e =>
    rw [he] at h
    cases h
  | ok r =>
    obtain ⟨d1, a⟩ := r
    rw [he] at h
    cases h
    have h1 := ensureArray_wf hd he
    have h2 := wrap_wf h1.1 a fl.noPrior
    have h3 := addStream_wf h2.1 a fl.prepend
    refine ⟨⟨?_, h3.1.arr, ?_⟩, by rw [← h1.2, ← h2.2, ← h3.2]; rfl⟩
    · intro i l hl s hs
      have := h3.1.arrays i l hl s hs
      simpa [CDoc.finish, CDoc.addStream] using this
    · intro q s hs
      have := h3.1.dict q s hs
      simpa [CDoc.finish, CDoc.addStream] using this

/-! ### C142 -/

/-- Drawing on a page keeps what the page shows and adds what is drawn, with the graphics state saved and restored around both as the flags of the painter say.
The streams of the page show pieces, and all but the last end with white space, which is not needed when the painter leaves the old contents alone. -/
theorem C142_drawing_partial (env : CEnv) (a : CArgs) (ha : a.throwOnWarnings = false) (hh : a.handler = none) (hb : ∀ x, env.body x ≠ .error .diverge)
    (f : WFlags) (hf : f.clean = true ∨ f.noInline = false) (cv ct : Option Nat) (d : CDoc) (hd : d.WF) (p : Nat) (hp : p < d.pages.length) (fl : PFlags) (tmp : Bytes) (d' : CDoc)
    (h : d.draw p fl tmp = .ok d') (ss : List (Option Bytes × List Spec.Piece)) (hs : d.pageStreams p = ss.map (·.1))
    (hshow : ∀ s ∈ ss, Spec.ShowsPieces f cv (s.1.getD []) s.2)
    (he : fl.noPrior = false → ∀ s ∈ ss.dropLast, s.1.getD [] = [] ∨ Spec.EndsWs (s.1.getD []))
    (new : List Spec.Piece) (hn : Spec.ShowsPieces f cv tmp new) (hne : tmp = [] ∨ Spec.EndsWs tmp) :
    Spec.ReadsAs env a cv ct (d'.pageText p) (Spec.delivered (Spec.drawn fl (Spec.hasText (d.pageStreams p)) (ss.flatMap (·.2)) new)) := by
  obtain ⟨uu, h1, h2, h3⟩ := draw_streams hd hp h ss hs hshow he hn hne
  rw [CDoc.pageText, h1, ← h3]
  exact (joined_shows uu h2).reads ha hh hb hf

/-- Drawings one after the other. -/
def CDoc.draws (d : CDoc) (p : Nat) : List (PFlags × Bytes) → Res CDoc
  | [] => .ok d
  | s :: l =>
    match d.draw p s.1 s.2 with
    | .error e => .error e
    | .ok d => CDoc.draws d p l

/-- Any number of drawings that leave the old contents alone are all there, in the order that was asked for. -/
theorem C142_unsaved_history (env : CEnv) (a : CArgs) (ha : a.throwOnWarnings = false) (hh : a.handler = none) (hb : ∀ x, env.body x ≠ .error .diverge)
    (f : WFlags) (hf : f.clean = true ∨ f.noInline = false) (cv ct : Option Nat) (p : Nat) (hist : List (PFlags × Bytes × List Spec.Piece))
    (hist_ok : ∀ s ∈ hist, s.1.noPrior = true ∧ Spec.ShowsPieces f cv s.2.1 s.2.2 ∧ (s.2.1 = [] ∨ Spec.EndsWs s.2.1)) :
    ∀ (d : CDoc) (_ : d.WF) (_ : p < d.pages.length) (ss : List (Option Bytes × List Spec.Piece)) (_ : d.pageStreams p = ss.map (·.1))
      (_ : ∀ s ∈ ss, Spec.ShowsPieces f cv (s.1.getD []) s.2) (d' : CDoc) (_ : d.draws p (hist.map (fun s => (s.1, s.2.1))) = .ok d'),
      Spec.ReadsAs env a cv ct (d'.pageText p)
        (Spec.delivered (hist.foldl (fun old s => Spec.drawn s.1 true old s.2.2) (ss.flatMap (·.2)))) := by
  induction hist with
  | nil =>
    intro d _ _ ss hs hshow d' h
    cases h
    rw [CDoc.pageText, hs]
    exact (joined_shows ss hshow).reads ha hh hb hf
  | cons s l ih =>
    intro d hd hp ss hs hshow d' h
    obtain ⟨h1, h2, h3⟩ := hist_ok s List.mem_cons_self
    rw [List.map_cons, CDoc.draws] at h
    cases hdr : d.draw p s.1 s.2.1 with
    | error e =>
      rw [hdr] at h
      cases h
    | ok d1 =>
      rw [hdr] at h
      obtain ⟨uu, u1, u2, u3⟩ := draw_streams hd hp hdr ss hs hshow (fun e => by rw [h1] at e; cases e) h2 h3
      have hw := draw_wf hd hdr
      have := ih (fun s h => hist_ok s (List.mem_cons_of_mem _ h)) d1 hw.1 (by rw [hw.2]; exact hp) uu u1 u2 d' h
      rw [u3] at this
      rw [List.foldl_cons]
      have e : Spec.drawn s.1 true (ss.flatMap (·.2)) s.2.2 = Spec.drawn s.1 (Spec.hasText (d.pageStreams p)) (ss.flatMap (·.2)) s.2.2 := by
        simp only [Spec.drawn, h1]
        rfl
      rw [e]
      exact this

/-- Drawing with the graphics state saved and restored, as painters do by default, on a page on which this was done before destroys contents: the `Q` that was put
after the old contents and the `q` of the first drawing become the word `Qq`, which is no operator, so that the page has lost both. -/
theorem C142_glued_false (env : CEnv) (a : CArgs) (ha : a.throwOnWarnings = false) (hh : a.handler = none) (hb : ∀ x, env.body x ≠ .error .diverge)
    (f : WFlags) (hf : f.clean = true ∨ f.noInline = false) (cv ct : Option Nat) (d : CDoc) (hd : d.WF) (p : Nat) (hp : p < d.pages.length) (t1 t2 : Bytes) (d1 d2 : CDoc)
    (h1 : d.draw p ⟨false, false, false⟩ t1 = .ok d1) (h2 : d1.draw p ⟨false, false, false⟩ t2 = .ok d2) (hold : Spec.hasText (d.pageStreams p) = true)
    (old m1 m2 : List Spec.Piece) (ho : Spec.ShowsPieces f cv ((d.pageStreams p).flatMap (fun o => o.getD [])) old) (hm1 : Spec.ShowsPieces f cv t1 m1) (hm2 : Spec.ShowsPieces f cv t2 m2)
    (he1 : t1 = [] ∨ Spec.EndsWs t1) (he2 : t2 = [] ∨ Spec.EndsWs t2) :
    Spec.ReadsAs env a cv ct (d2.pageText p)
      (Spec.delivered (.op .opq [] :: .op .opq [] :: old) ++ { type := .unexpectedKeyword, keyword := asciiB "Qq" } ::
        Spec.delivered (m1 ++ [.op .opQ [], .op .opQ []] ++ Spec.saved m2)) := by
  obtain ⟨raw, hraw⟩ : ∃ r, r = (d.pageStreams p).flatMap (fun o => o.getD []) := ⟨_, rfl⟩
  rw [← hraw] at ho
  have hne : raw ≠ [] := by
    rw [hraw]
    exact (hasText_iff _).1 hold
  have e1 : d1.pageStreams p = [some (asciiB "q\n" ++ raw ++ asciiB "\nQ"), some (asciiB "q\n" ++ t1 ++ asciiB "Q\n")] := by
    rw [draw_page hd hp h1]
    simp only [priorStreams, ← hraw]
    rw [if_neg (by decide), if_pos ⟨trivial, hne⟩]
    rfl
  have e2 : d2.pageText p = asciiB "q\n" ++ (asciiB "q\n" ++ (raw ++ (10 :: (asciiB "Qq" ++ (10 :: (t1 ++ (asciiB "Q\n" ++ (asciiB "\nQ\nq\n" ++ (t2 ++ asciiB "Q\n"))))))))) := by
    have hw := draw_wf hd h1
    rw [CDoc.pageText, draw_page hw.1 (by rw [hw.2]; exact hp) h2]
    simp only [priorStreams, e1]
    rw [if_neg (by decide), if_pos ⟨trivial, by simp [asciiB]⟩]
    simp [Spec.joined, Spec.nonEmpty, List.intercalate, sessionText, asciiB]
  have ws : ∀ e : Bytes, (e = [] ∨ Spec.EndsWs e) → ∀ y, e = [] ∨ Spec.EndsWs e ∨ WsStart y := fun e h y => by
    rcases h with h | h
    · exact Or.inl h
    · exact Or.inr (Or.inl h)
  have t : Spec.ShowsPieces f cv (10 :: (t1 ++ (asciiB "Q\n" ++ (asciiB "\nQ\nq\n" ++ (t2 ++ asciiB "Q\n"))))) (m1 ++ [.op .opQ [], .op .opQ []] ++ Spec.saved m2) := by
    refine Spec.ShowsPieces.ws 10 _ _ (by decide) ?_
    rw [List.append_assoc]
    refine hm1.append ?_ (ws t1 he1 _)
    have a1 : Spec.ShowsPieces f cv (asciiB "Q\n") [.op .opQ []] := shows_Q (x := [10]) (Or.inr ⟨10, [], rfl, by decide⟩) (Spec.ShowsPieces.ws 10 _ _ (by decide) Spec.ShowsPieces.nil)
    have a2 := hm2.append a1 (ws t2 he2 _)
    have a3 : Spec.ShowsPieces f cv (asciiB "\nQ\nq\n" ++ (t2 ++ asciiB "Q\n")) (.op .opQ [] :: Spec.saved m2) :=
      Spec.ShowsPieces.ws 10 _ _ (by decide) (shows_Q (Or.inr ⟨10, _, rfl, by decide⟩) (Spec.ShowsPieces.ws 10 _ _ (by decide) (shows_q a2)))
    exact a1.append a3 (Or.inr (Or.inl ⟨10, rfl, by decide⟩))
  rw [e2]
  have r1 := ReadsAs.word (ct := ct) ha (w := asciiB "Qq") (by decide +kernel) (by decide +kernel) (StartsOk.cons_ws (by decide)) (t.reads (env := env) ha hh hb hf)
  have r2 := ShowsPieces.then (f := f) ha hh hb hf ho (ReadsAs.ws (w := 10) (by decide) r1) (Or.inr (Or.inr (Or.inr ⟨10, _, rfl, by decide⟩)))
  have r3 := ReadsAs.op (f := f) ha hb hf (ok_q cv) (Or.inr ⟨10, _, rfl, by decide⟩) (ReadsAs.ws (w := 10) (by decide) r2)
  exact ReadsAs.op (f := f) ha hb hf (ok_q cv) (Or.inr ⟨10, _, rfl, by decide⟩) (ReadsAs.ws (w := 10) (by decide) r3)

/-- Non-vacuity: a page with a stream that moves, drawn on twice. -/
def exPageDoc : CDoc := { streams := [asciiB "q\n"], arrays := [], pages := [some (.dict (some 0))] }

example : exPageDoc.draw 0 ⟨false, false, false⟩ (asciiB "S\n") =
      .ok { streams := [asciiB "q\n", asciiB "q\nq\n\nQ", asciiB "q\nS\nQ\n"], arrays := [[some 1, some 2]], pages := [some (.arr 0)] } ∧
    Spec.ShowsPieces ⟨true, false⟩ none (asciiB "q\n") [.op .opq []] ∧ Spec.EndsWs (asciiB "q\n") := by
  refine ⟨by decide, ?_, ⟨10, by decide, by decide⟩⟩
  exact shows_q Spec.ShowsPieces.nil

example : (match exPageDoc.draws 0 [(⟨false, false, false⟩, asciiB "S\n"), (⟨false, false, false⟩, asciiB "n\n")] with
    | .ok d => decide (d.pageText 0 = asciiB "q\nq\nq\n\nQq\nS\nQ\n\nQ\nq\nn\nQ\n")
    | .error _ => false) = true := by decide

theorem exPageDoc_wf : exPageDoc.WF := by
  refine ⟨fun i l h => ?_, fun p i h => ?_, fun p s h => ?_⟩
  · simp [exPageDoc] at h
  · cases p with
    | zero => cases h
    | succ p => simp [CDoc.obj, exPageDoc] at h
  · cases p with
    | zero =>
      cases h
      decide
    | succ p => simp [CDoc.obj, exPageDoc] at h

/-! ### C143 -/

/-- What operators and images do to the graphics state. -/
structure Spec.Machine (S : Type) where
  op : PdfOp → List Var → S → S
  image : List (Bytes × Var) → Bytes → S → S

/-- Showing pieces, with the graphics state and the stack of saved ones; `none` when a state is restored that was not saved. -/
def Spec.show {S : Type} (M : Spec.Machine S) : List Spec.Piece → S × List S → Option (S × List S)
  | [], x => some x
  | .image dict data :: l, x => Spec.show M l (M.image dict data x.1, x.2)
  | .op o args :: l, x =>
    if o = .opq then Spec.show M l (x.1, x.1 :: x.2)
    else if o = .opQ then
      match x.2 with
      | [] => none
      | s :: r => Spec.show M l (s, r)
    else Spec.show M l (M.op o args x.1, x.2)

/-- How many more states are saved than restored, when none is restored that was not saved. -/
def Spec.depthAfter : List Spec.Piece → Nat → Option Nat
  | [], n => some n
  | .image _ _ :: l, n => Spec.depthAfter l n
  | .op o _ :: l, n =>
    if o = .opq then Spec.depthAfter l (n + 1)
    else if o = .opQ then
      match n with
      | 0 => none
      | n + 1 => Spec.depthAfter l n
    else Spec.depthAfter l n

theorem show_append {S : Type} (M : Spec.Machine S) (l m : List Spec.Piece) (x : S × List S) : Spec.show M (l ++ m) x = (Spec.show M l x).bind (Spec.show M m) := by
  induction l generalizing x with
  | nil => rfl
  | cons p l ih =>
    cases p with
    | image dict data => exact ih _
    | op o args =>
      rw [List.cons_append, Spec.show, Spec.show]
      by_cases h1 : o = .opq
      · rw [if_pos h1, if_pos h1]
        exact ih _
      · rw [if_neg h1, if_neg h1]
        by_cases h2 : o = .opQ
        · rw [if_pos h2, if_pos h2]
          cases x.2 with
          | nil => rfl
          | cons s r => exact ih _
        · rw [if_neg h2, if_neg h2]
          exact ih _

theorem show_depth {S : Type} (M : Spec.Machine S) (l : List Spec.Piece) : ∀ (top st : List S) (s : S) (n : Nat), Spec.depthAfter l top.length = some n →
    ∃ s' top', Spec.show M l (s, top ++ st) = some (s', top' ++ st) ∧ top'.length = n := by
  induction l with
  | nil =>
    intro top st s n h
    cases h
    exact ⟨s, top, rfl, rfl⟩
  | cons p l ih =>
    intro top st s n h
    cases p with
    | image dict data => exact ih top st _ n h
    | op o args =>
      rw [Spec.depthAfter.eq_def] at h
      dsimp only at h
      rw [Spec.show]
      by_cases h1 : o = .opq
      · rw [if_pos h1] at h ⊢
        exact ih (s :: top) st s n h
      · rw [if_neg h1] at h ⊢
        by_cases h2 : o = .opQ
        · rw [if_pos h2] at h ⊢
          cases top with
          | nil => cases h
          | cons s1 top => exact ih top st s1 n h
        · rw [if_neg h2] at h ⊢
          exact ih top st _ n h

theorem show_saved {S : Type} (M : Spec.Machine S) (l : List Spec.Piece) (h : Spec.depthAfter l 0 = some 0) (s : S) (st : List S) :
    Spec.show M (Spec.saved l) (s, st) = some (s, st) := by
  rw [Spec.saved, Spec.show, if_pos rfl, show_append]
  obtain ⟨s', top', h1, h2⟩ := show_depth M l [] (s :: st) s 0 h
  have : top' = [] := List.eq_nil_of_length_eq_zero h2
  rw [this] at h1
  have h1' : Spec.show M l (s, s :: st) = some (s', s :: st) := h1
  dsimp only
  rw [h1']
  rfl

/-- When the old contents of a page restore as many states as they save, what a painter draws by default is shown from the initial graphics state of the page,
and leaves it as it was; a painter that asks for its drawing to be put before the old contents does not change the state that these are shown from. -/
theorem C143_isolated_partial {S : Type} (M : Spec.Machine S) (prepend : Bool) (old new : List Spec.Piece) (s : S) (ho : Spec.depthAfter old 0 = some 0)
    (hn : Spec.depthAfter new 0 = some 0) :
    (∃ before after, Spec.drawn ⟨prepend, false, false⟩ true old new = before ++ (.op .opq [] :: (new ++ (.op .opQ [] :: after))) ∧
        Spec.show M before (s, []) = some (s, [])) ∧
      (∃ before after, Spec.drawn ⟨prepend, false, false⟩ true old new = before ++ (.op .opq [] :: (old ++ (.op .opQ [] :: after))) ∧
        Spec.show M before (s, []) = some (s, [])) ∧
      Spec.show M (Spec.drawn ⟨prepend, false, false⟩ true old new) (s, []) = some (s, []) := by
  have hso := show_saved M old ho s []
  have hsn := show_saved M new hn s []
  cases prepend with
  | true =>
    have e : Spec.drawn ⟨true, false, false⟩ true old new = Spec.saved new ++ Spec.saved old := by simp [Spec.drawn]
    rw [e]
    refine ⟨⟨[], Spec.saved old, by simp [Spec.saved], rfl⟩, ⟨Spec.saved new, [], by simp [Spec.saved], hsn⟩, ?_⟩
    rw [show_append, hsn]
    exact hso
  | false =>
    have e : Spec.drawn ⟨false, false, false⟩ true old new = Spec.saved old ++ Spec.saved new := by simp [Spec.drawn]
    rw [e]
    refine ⟨⟨Spec.saved old, [], by simp [Spec.saved], hso⟩, ⟨[], Spec.saved new, by simp [Spec.saved], rfl⟩, ?_⟩
    rw [show_append, hso]
    exact hsn

example : Spec.depthAfter [.op .opq [], .op .opcm [], .op .opQ []] 0 = some 0 := by decide

/-- Old contents that save a state without restoring it are not undone: the drawing starts from the graphics state that they left. -/
theorem C143_unbalanced_false {S : Type} (M : Spec.Machine S) (o : PdfOp) (args : List Var) (h1 : o ≠ .opq) (h2 : o ≠ .opQ) (s : S) :
    Spec.show M (Spec.saved [.op o args, .op .opq []]) (s, []) = some (M.op o args s, [s]) := by
  simp [Spec.saved, Spec.show, h1, h2]

/-! ### C144 -/

/-- Drawing on a form, whose stream is the one that `PdfXObjectForm::GetStreamForAppending` gives out, `src/pdfmm/base/PdfXObjectForm.cpp:73-77`. -/
def drawForm (old : Bytes) (fl : PFlags) (tmp : Bytes) : Bytes := finishText old fl tmp

/-- Drawing on a form that is empty puts what is drawn into it. -/
theorem C144_form_partial (env : CEnv) (a : CArgs) (ha : a.throwOnWarnings = false) (hh : a.handler = none) (hb : ∀ x, env.body x ≠ .error .diverge)
    (f : WFlags) (hf : f.clean = true ∨ f.noInline = false) (cv ct : Option Nat) (fl : PFlags) (tmp : Bytes) (new : List Spec.Piece) (hn : Spec.ShowsPieces f cv tmp new) (hne : tmp = [] ∨ Spec.EndsWs tmp) :
    Spec.ReadsAs env a cv ct (drawForm [] fl tmp) (Spec.delivered (if fl.noRestore then new else Spec.saved new)) := by
  rw [drawForm, finishText_empty]
  exact (session_shows fl hn hne).reads ha hh hb hf

/-- Drawing again on a form shows the old contents twice. -/
theorem C144_twice_false (env : CEnv) (a : CArgs) (ha : a.throwOnWarnings = false) (hh : a.handler = none) (hb : ∀ x, env.body x ≠ .error .diverge)
    (f : WFlags) (hf : f.clean = true ∨ f.noInline = false) (cv ct : Option Nat) (prepend : Bool) (old tmp : Bytes) (m new : List Spec.Piece) (hold : old ≠ []) (ho : Spec.ShowsPieces f cv old m) (hoe : Spec.EndsWs old)
    (hn : Spec.ShowsPieces f cv tmp new) (hne : tmp = [] ∨ Spec.EndsWs tmp) :
    Spec.ReadsAs env a cv ct (drawForm old ⟨prepend, false, false⟩ tmp) (Spec.delivered (m ++ Spec.saved m ++ Spec.saved new)) := by
  have hs := session_shows (f := f) (cv := cv) ⟨prepend, false, false⟩ hn hne
  have hs' := session_shows (f := f) (cv := cv) ⟨prepend, false, false⟩ ho (Or.inr hoe)
  have e : drawForm old ⟨prepend, false, false⟩ tmp = old ++ (sessionText ⟨prepend, false, false⟩ old ++ sessionText ⟨prepend, false, false⟩ tmp) := by
    simp [drawForm, finishText, hold, sessionText]
  rw [e, List.append_assoc]
  refine (ho.append (hs'.append hs (Or.inr (Or.inl ?_))) (Or.inr (Or.inl hoe))).reads ha hh hb hf
  exact ⟨10, by rw [sessionText, if_neg (by simp), List.getLast?_append]; rfl, by decide⟩

/-- Drawing again on a form without saving the state removes the old contents. -/
theorem C144_lost_false (prepend noRestore : Bool) (old tmp : Bytes) (hold : old ≠ []) :
    drawForm old ⟨prepend, true, noRestore⟩ tmp = asciiB "\n" ++ drawForm [] ⟨prepend, true, noRestore⟩ tmp := by
  simp [drawForm, finishText, hold]

example : drawForm (asciiB "S\n") ⟨false, true, false⟩ (asciiB "n\n") = asciiB "\nq\nn\nQ\n" := by decide

/-! ### C145 -/

theorem draw_other {d : CDoc} (hd : d.WF) {p : Nat} (hp : p < d.pages.length) {fl : PFlags} {tmp : Bytes} {d' : CDoc} (h : d.draw p fl tmp = .ok d') (q : Nat) (hq : q ≠ p)
    (hshare : ∀ i, d.obj p = some (.arr i) → d.obj q ≠ some (.arr i)) : d'.pageStreams q = d.pageStreams q := by
  rw [CDoc.draw] at h
  cases hf : d.forAppending p fl.prepend fl.noPrior with
  | error e =>
    rw [hf] at h
    cases h
  | ok r =>
    obtain ⟨d1, k⟩ := r
    rw [hf] at h
    cases h
    obtain ⟨els, a, h1, h2, h3, h4, h5, h6, h7, h8, ⟨x, h9⟩, h10, h11, h12, _⟩ := forAppending_spec hd hp hf
    have hel : ∀ s, some s ∈ d.elems (d.obj q) → s < d.streams.length := by
      intro s hs
      cases ho : d.obj q with
      | none =>
        rw [ho] at hs
        cases hs
      | some c =>
        rw [ho] at hs
        cases c with
        | arr i => exact hd.array hs
        | dict o =>
          rw [CDoc.elems, List.mem_singleton] at hs
          exact hd.dict q s (by rw [ho, hs])
        | other => cases hs
    have hsame : (d1.finish k fl tmp).elems ((d1.finish k fl tmp).obj q) = d.elems (d.obj q) := by
      have e : (d1.finish k fl tmp).obj q = d.obj q := h10 q hq
      rw [e]
      cases ho : d.obj q with
      | none => rfl
      | some c =>
        cases c with
        | arr i =>
          refine h11 i (fun e => ?_) (hd.arr q i ho)
          rcases h12 with h | h
          · exact hshare a h (by rw [ho, e])
          · have := hd.arr q i ho
            omega
        | dict o => rfl
        | other => rfl
    rw [CDoc.pageStreams, CDoc.pageStreams, hsame]
    refine List.map_congr_left (fun o ho => ?_)
    have hlt : ∀ s, o = some s → s < d.streams.length := fun s hs => hel s (hs ▸ ho)
    rw [CDoc.finish, data_set_ne _ _ _ (fun e => by have := hlt k e; omega)]
    exact data_append h9 hlt

/-- Drawing on a page leaves the contents of every other page as they are, unless both pages have the same array as `/Contents`. -/
theorem C145_other_pages_partial (d : CDoc) (hd : d.WF) (p : Nat) (hp : p < d.pages.length) (fl : PFlags) (tmp : Bytes) (d' : CDoc) (h : d.draw p fl tmp = .ok d')
    (q : Nat) (hq : q ≠ p) (hshare : ∀ i, d.obj p = some (.arr i) → d.obj q ≠ some (.arr i)) : d'.pageText q = d.pageText q := by
  rw [CDoc.pageText, CDoc.pageText, draw_other hd hp h q hq hshare]

/-- Pages that share one stream are not affected by drawing on one of them. -/
example : (match CDoc.draw { streams := [asciiB "S\n"], arrays := [], pages := [some (.dict (some 0)), some (.dict (some 0))] } 0 ⟨false, false, false⟩ (asciiB "n\n") with
    | .ok d => decide (d.pageText 1 = asciiB "S\n")
    | .error _ => false) = true := by decide

/-- Pages that have the same array as `/Contents` both show what is drawn on one of them. -/
theorem C145_shared_false (d : CDoc) (hd : d.WF) (p q i : Nat) (hp : p < d.pages.length) (hq : q ≠ p) (fl : PFlags) (tmp : Bytes) (d' : CDoc) (h : d.draw p fl tmp = .ok d')
    (h1 : d.obj p = some (.arr i)) (h2 : d.obj q = some (.arr i)) : d'.pageText q = d'.pageText p := by
  have hp' := h
  rw [CDoc.draw] at h
  cases hf : d.forAppending p fl.prepend fl.noPrior with
  | error e =>
    rw [hf] at h
    cases h
  | ok r =>
    obtain ⟨d1, k⟩ := r
    rw [hf] at h
    cases h
    obtain ⟨els, a, g1, g2, g3, g4, g5, g6, g7, g8, _, g10, g11, g12, _⟩ := forAppending_spec hd hp hf
    have ha : a = i := by
      rcases g12 with h | h
      · rw [h1] at h
        cases h
        rfl
      · rw [CDoc.forAppending, CDoc.ensureArray, h1] at hf
        cases hf
        have e : d.obj p = some (.arr a) := by
          have : (d.wrap i fl.noPrior).obj p = d.obj p := by
            rw [CDoc.wrap]
            by_cases hw : fl.noPrior = false ∧ d.copyTo (d.array i) ≠ []
            · rw [if_pos hw]
              rfl
            · rw [if_neg hw]
          rw [← this]
          exact g1
        rw [h1] at e
        cases e
        rfl
    have e : (d1.finish k fl tmp).obj q = (d1.finish k fl tmp).obj p := by
      show d1.obj q = d1.obj p
      rw [g10 q hq, h2, g1, ha]
    rw [CDoc.pageText, CDoc.pageText, CDoc.pageStreams, CDoc.pageStreams, e]

/-- When a second painter starts to draw on a page that has contents before the first one has finished, what the first one draws is lost: finishing it does not
change what the page shows. -/
theorem C145_painters_false (d : CDoc) (hd : d.WF) (p : Nat) (hp : p < d.pages.length) (fl : PFlags) (prepend : Bool) (d1 d2 : CDoc) (k1 k2 : Nat)
    (hold : Spec.hasText (d.pageStreams p) = true) (h1 : d.forAppending p fl.prepend fl.noPrior = .ok (d1, k1))
    (h2 : d1.forAppending p prepend false = .ok (d2, k2)) (tmp : Bytes) : (d2.finish k1 fl tmp).pageText p = d2.pageText p := by
  obtain ⟨els, a, g1, g2, g3, g4, g5, g6, g7, _⟩ := forAppending_spec hd hp h1
  have hwf : d1.WF ∧ p < d1.pages.length := by
    rw [CDoc.forAppending] at h1
    cases he : d.ensureArray p with
    | error e =>
      rw [he] at h1
      cases h1
    | ok r =>
      obtain ⟨d0, a0⟩ := r
      rw [he] at h1
      cases h1
      exact ⟨(addStream_wf (wrap_wf (ensureArray_wf hd he).1 a0 fl.noPrior).1 a0 fl.prepend).1, g7⟩
  have hraw : (d1.pageStreams p).flatMap (fun o => o.getD []) ≠ [] := by
    rw [CDoc.pageStreams, g1, CDoc.elems, g2]
    have hpr : (priorStreams (d.pageStreams p) fl.noPrior).flatMap (fun o => o.getD []) ≠ [] := by
      rw [priorStreams]
      by_cases hw : fl.noPrior = false ∧ (d.pageStreams p).flatMap (fun o => o.getD []) ≠ []
      · rw [if_pos hw]
        simp [asciiB]
      · rw [if_neg hw]
        exact (hasText_iff _).1 hold
    rw [← g3] at hpr
    have hk : d1.data (some k1) = some [] := g5
    cases fl.prepend with
    | true => simpa [hk] using hpr
    | false => simpa [hk] using hpr
  obtain ⟨els', a', f1, f2, f3, f4, f5, f6, f7, f8, _, _, _, _, f13⟩ := forAppending_spec hwf.1 hwf.2 h2
  have hnew := f13 rfl hraw
  rw [CDoc.pageText, CDoc.pageText, CDoc.pageStreams, CDoc.pageStreams]
  congr 1
  show (CDoc.elems d2 (d2.obj p)).map (d2.finish k1 fl tmp).data = _
  refine List.map_congr_left (fun o ho => data_set_ne _ _ _ (fun e => ?_))
  rw [f1, CDoc.elems, f2, e] at ho
  have hcase : some k1 ∈ els' ∨ k1 = k2 := by
    cases prepend with
    | true =>
      simp at ho
      exact ho.symm
    | false =>
      simp at ho
      exact ho
  rcases hcase with h | h
  · have := hnew k1 h
    omega
  · omega

example : (match CDoc.forAppending exPageDoc 0 false false with
    | .ok (d1, k1) =>
      match d1.forAppending 0 false false with
      | .ok (d2, _) => decide ((d2.finish k1 ⟨false, false, false⟩ (asciiB "S\n")).pageText 0 = d2.pageText 0)
      | .error _ => false
    | .error _ => false) = true := by decide

end Pdfmm
