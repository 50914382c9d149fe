/-
Sorted association lists: the observable content of a `std::map`, `std::set` or sorted vector.
Everything here is generic; the models instantiate the key order with the comparator in the code.
-/
namespace Pdfmm

/-- A strict total order given by a Boolean `<`, as the C++ comparators are. -/
class StrictOrd (K : Type) where
  lt : K → K → Bool
  irrefl : ∀ a, lt a a = false
  trans : ∀ a b c, lt a b = true → lt b c = true → lt a c = true
  total : ∀ a b, a ≠ b → lt a b = true ∨ lt b a = true

set_option linter.unusedSectionVars false

namespace SMap

variable {K V : Type} [StrictOrd K] [DecidableEq K]

/-- `std::map::find`. -/
def find? (k : K) : List (K × V) → Option V
  | [] => none
  | (k', v) :: r => if k = k' then some v else find? k r

/-- Insert or overwrite, keeping the order. -/
def insert (k : K) (v : V) : List (K × V) → List (K × V)
  | [] => [(k, v)]
  | (k', v') :: r =>
    if k = k' then (k, v) :: r
    else if StrictOrd.lt k k' then (k, v) :: (k', v') :: r
    else (k', v') :: insert k v r

/-- `std::map::erase(key)`. -/
def erase (k : K) : List (K × V) → List (K × V)
  | [] => []
  | (k', v') :: r => if k = k' then r else (k', v') :: erase k r

/-- Strictly ascending keys. -/
def Sorted : List (K × V) → Prop
  | [] => True
  | (k, _) :: r => (∀ p ∈ r, StrictOrd.lt k p.1 = true) ∧ Sorted r

instance : (l : List (K × V)) → Decidable (Sorted l)
  | [] => isTrue trivial
  | (_, _) :: r =>
    have := (instDecidableSorted_1 r : Decidable (Sorted r))
    inferInstanceAs (Decidable (_ ∧ _))
where instDecidableSorted_1 : (l : List (K × V)) → Decidable (Sorted l)
  | [] => isTrue trivial
  | (_, _) :: r =>
    have := instDecidableSorted_1 r
    inferInstanceAs (Decidable (_ ∧ _))

theorem lt_ne {a b : K} (h : StrictOrd.lt a b = true) : a ≠ b := by
  intro e; subst e; rw [StrictOrd.irrefl] at h; exact absurd h (by simp)

theorem lt_asymm {a b : K} (h : StrictOrd.lt a b = true) : StrictOrd.lt b a = false := by
  cases h' : StrictOrd.lt b a
  · rfl
  · have := StrictOrd.trans a b a h h'
    rw [StrictOrd.irrefl] at this; exact absurd this (by simp)

theorem find_insert_self (k : K) (v : V) (l : List (K × V)) : find? k (insert k v l) = some v := by
  induction l with
  | nil => simp [insert, find?]
  | cons p r ih =>
    obtain ⟨k', v'⟩ := p
    simp only [insert]
    split
    · simp [find?]
    · split
      · simp [find?]
      · rename_i h _; simp [find?, h, ih]

theorem find_insert_ne {k k₀ : K} (v : V) (l : List (K × V)) (h : k₀ ≠ k) :
    find? k₀ (insert k v l) = find? k₀ l := by
  induction l with
  | nil => simp [insert, find?, h]
  | cons p r ih =>
    obtain ⟨k', v'⟩ := p
    simp only [insert]
    split
    · rename_i e; subst e; simp [find?, h]
    · split
      · simp [find?, h]
      · simp only [find?]; split
        · rfl
        · exact ih

theorem find_insert (k k₀ : K) (v : V) (l : List (K × V)) :
    find? k₀ (insert k v l) = if k₀ = k then some v else find? k₀ l := by
  split
  · rename_i h; subst h; exact find_insert_self _ _ _
  · rename_i h; exact find_insert_ne _ _ h

theorem mem_insert {k : K} {v : V} {l : List (K × V)} {p : K × V}
    (h : p ∈ insert k v l) : p = (k, v) ∨ p ∈ l := by
  induction l with
  | nil => simp [insert] at h; exact Or.inl h
  | cons q r ih =>
    obtain ⟨k', v'⟩ := q
    simp only [insert] at h
    split at h
    · rcases List.mem_cons.1 h with h | h
      · exact Or.inl h
      · exact Or.inr (List.mem_cons_of_mem _ h)
    · split at h
      · rcases List.mem_cons.1 h with h | h
        · exact Or.inl h
        · exact Or.inr h
      · rcases List.mem_cons.1 h with h | h
        · exact Or.inr (h ▸ List.mem_cons_self)
        · rcases ih h with h | h
          · exact Or.inl h
          · exact Or.inr (List.mem_cons_of_mem _ h)

theorem sorted_insert (k : K) (v : V) (l : List (K × V)) (h : Sorted l) :
    Sorted (insert k v l) := by
  induction l with
  | nil => simp [insert, Sorted]
  | cons q r ih =>
    obtain ⟨k', v'⟩ := q
    obtain ⟨h1, h2⟩ := h
    simp only [insert]
    split
    · rename_i e; subst e; exact ⟨h1, h2⟩
    · rename_i hne
      split
      · rename_i hlt
        refine ⟨?_, h1, h2⟩
        intro p hp
        rcases List.mem_cons.1 hp with hp | hp
        · subst hp; exact hlt
        · exact StrictOrd.trans _ _ _ hlt (h1 p hp)
      · rename_i hlt
        refine ⟨?_, ih h2⟩
        intro p hp
        rcases mem_insert hp with hp | hp
        · subst hp
          rcases StrictOrd.total k k' hne with h | h
          · exact absurd h hlt
          · exact h
        · exact h1 p hp

theorem find_none_of_lt {k : K} {l : List (K × V)}
    (h : ∀ p ∈ l, StrictOrd.lt k p.1 = true) : find? k l = none := by
  induction l with
  | nil => rfl
  | cons q r ih =>
    obtain ⟨k', v'⟩ := q
    have := lt_ne (h (k', v') List.mem_cons_self)
    simp only [find?, this, if_false]
    exact ih (fun p hp => h p (List.mem_cons_of_mem _ hp))

theorem find_mem {k : K} {v : V} {l : List (K × V)} (h : find? k l = some v) : (k, v) ∈ l := by
  induction l with
  | nil => simp [find?] at h
  | cons q r ih =>
    obtain ⟨k', v'⟩ := q
    simp only [find?] at h
    split at h
    · rename_i e; cases h; subst e; exact List.mem_cons_self
    · exact List.mem_cons_of_mem _ (ih h)

theorem mem_find {k : K} {v : V} {l : List (K × V)} (hs : Sorted l) (h : (k, v) ∈ l) :
    find? k l = some v := by
  induction l with
  | nil => simp at h
  | cons q r ih =>
    obtain ⟨k', v'⟩ := q
    obtain ⟨h1, h2⟩ := hs
    rcases List.mem_cons.1 h with h | h
    · cases h; simp [find?]
    · have hn : k ≠ k' := (lt_ne (h1 _ h)).symm
      simp only [find?, hn, if_false]
      exact ih h2 h

/-- Two sorted lists with the same lookups are the same list. -/
theorem ext {l₁ l₂ : List (K × V)} (h₁ : Sorted l₁) (h₂ : Sorted l₂)
    (h : ∀ k, find? k l₁ = find? k l₂) : l₁ = l₂ := by
  induction l₁ generalizing l₂ with
  | nil =>
    cases l₂ with
    | nil => rfl
    | cons q r =>
      obtain ⟨k, v⟩ := q
      have := h k
      simp [find?] at this
  | cons p r ih =>
    obtain ⟨k, v⟩ := p
    cases l₂ with
    | nil => have := h k; simp [find?] at this
    | cons q r' =>
      obtain ⟨k', v'⟩ := q
      obtain ⟨a1, a2⟩ := h₁
      obtain ⟨b1, b2⟩ := h₂
      have hk : k = k' := by
        refine Classical.byContradiction (fun hne => ?_)
        rcases StrictOrd.total k k' hne with hlt | hlt
        · have h1 := h k
          have h2 : find? k ((k', v') :: r') = none := by
            apply find_none_of_lt
            intro p hp
            rcases List.mem_cons.1 hp with hp | hp
            · subst hp; exact hlt
            · exact StrictOrd.trans _ _ _ hlt (b1 p hp)
          rw [h2] at h1; simp [find?] at h1
        · have h1 := h k'
          have h2 : find? k' ((k, v) :: r) = none := by
            apply find_none_of_lt
            intro p hp
            rcases List.mem_cons.1 hp with hp | hp
            · subst hp; exact hlt
            · exact StrictOrd.trans _ _ _ hlt (a1 p hp)
          rw [h2] at h1; simp [find?] at h1
      subst hk
      have hv : v = v' := by have := h k; simpa [find?] using this
      subst hv
      congr 1
      apply ih a2 b2
      intro k₀
      by_cases hk : k₀ = k
      · subst hk; rw [find_none_of_lt a1, find_none_of_lt b1]
      · have := h k₀
        simpa [find?, hk] using this

theorem mem_erase {k : K} {l : List (K × V)} {p : K × V} (h : p ∈ erase k l) : p ∈ l := by
  induction l with
  | nil => simp [erase] at h
  | cons q r ih =>
    obtain ⟨k', v'⟩ := q
    simp only [erase] at h
    split at h
    · exact List.mem_cons_of_mem _ h
    · rcases List.mem_cons.1 h with h | h
      · exact h ▸ List.mem_cons_self
      · exact List.mem_cons_of_mem _ (ih h)

theorem sorted_erase (k : K) {l : List (K × V)} (h : Sorted l) : Sorted (erase k l) := by
  induction l with
  | nil => exact h
  | cons q r ih =>
    obtain ⟨k', v'⟩ := q
    simp only [erase]
    split
    · exact h.2
    · exact ⟨fun p hp => h.1 p (mem_erase hp), ih h.2⟩

theorem find_erase (k k₀ : K) {l : List (K × V)} (h : Sorted l) :
    find? k₀ (erase k l) = if k₀ = k then none else find? k₀ l := by
  induction l with
  | nil => simp [erase, find?]
  | cons q r ih =>
    obtain ⟨k', v'⟩ := q
    simp only [erase]
    split
    · rename_i e; subst e
      split
      · rename_i e; subst e; exact find_none_of_lt h.1
      · rename_i hne; simp [find?, hne]
    · rename_i hne
      simp only [find?]
      split
      · rename_i e; subst e; simp [Ne.symm hne]
      · exact ih h.2

/-- Inserting into a list whose keys are all smaller appends. -/
theorem insert_last (k : K) (v : V) (l : List (K × V))
    (h : ∀ p ∈ l, StrictOrd.lt p.1 k = true) : insert k v l = l ++ [(k, v)] := by
  induction l with
  | nil => rfl
  | cons q r ih =>
    obtain ⟨k', v'⟩ := q
    have h1 := h (k', v') List.mem_cons_self
    have h2 : k ≠ k' := (lt_ne h1).symm
    have h3 := lt_asymm h1
    simp only [insert, h2, if_false, h3, Bool.false_eq_true]
    rw [ih (fun p hp => h p (List.mem_cons_of_mem _ hp))]; rfl

theorem find_append (k : K) (a b : List (K × V)) :
    find? k (a ++ b) = (find? k a).or (find? k b) := by
  induction a with
  | nil => simp [find?]
  | cons q r ih =>
    obtain ⟨k', v'⟩ := q
    simp only [List.cons_append, find?]
    split
    · rfl
    · exact ih

theorem sorted_append {a b : List (K × V)} :
    Sorted (a ++ b) ↔ Sorted a ∧ Sorted b ∧ ∀ p ∈ a, ∀ q ∈ b, StrictOrd.lt p.1 q.1 = true := by
  induction a with
  | nil => simp [Sorted]
  | cons q r ih =>
    obtain ⟨k', v'⟩ := q
    simp only [List.cons_append, Sorted, ih, List.mem_append, List.mem_cons]
    constructor
    · rintro ⟨h1, h2, h3, h4⟩
      refine ⟨⟨fun p hp => h1 p (Or.inl hp), h2⟩, h3, ?_⟩
      rintro p (hp | hp) q hq
      · subst hp; exact h1 q (Or.inr hq)
      · exact h4 p hp q hq
    · rintro ⟨⟨h1, h2⟩, h3, h4⟩
      refine ⟨?_, h2, h3, fun p hp q hq => h4 p (Or.inr hp) q hq⟩
      rintro p (hp | hp)
      · exact h1 p hp
      · exact h4 (k', v') (Or.inl rfl) p hp

end SMap

/-- Lexicographic `<` on byte strings: `std::string::compare` (bytes compared as unsigned). -/
def bytesLt : List UInt8 → List UInt8 → Bool
  | [], [] => false
  | [], _ :: _ => true
  | _ :: _, [] => false
  | a :: as, b :: bs => if a < b then true else if a = b then bytesLt as bs else false

instance : StrictOrd (List UInt8) where
  lt := bytesLt
  irrefl := by
    intro a
    induction a with
    | nil => rfl
    | cons x xs ih => simp [bytesLt, ih]
  trans := by
    intro a
    induction a with
    | nil =>
      intro b c h1 h2
      cases c with
      | nil => cases b <;> simp_all [bytesLt]
      | cons _ _ => rfl
    | cons x xs ih =>
      intro b c h1 h2
      cases b with
      | nil => simp [bytesLt] at h1
      | cons y ys =>
        cases c with
        | nil => simp [bytesLt] at h2
        | cons z zs =>
          simp only [bytesLt] at h1 h2 ⊢
          split at h1
          · split at h2
            · have : x < z := UInt8.lt_trans (by assumption) (by assumption)
              simp [this]
            · split at h2
              · rename_i h _ e; subst e; simp [h]
              · simp at h2
          · split at h1
            · rename_i e; subst e
              split at h2
              · rename_i h; simp [h]
              · split at h2
                · rename_i hn e; subst e; simp [ih ys zs h1 h2]
                · simp at h2
            · simp at h1
  total := by
    intro a
    induction a with
    | nil => intro b h; cases b <;> simp_all [bytesLt]
    | cons x xs ih =>
      intro b h
      cases b with
      | nil => simp [bytesLt]
      | cons y ys =>
        by_cases e : x = y
        · subst e
          have : xs ≠ ys := fun e => h (by rw [e])
          simpa [bytesLt] using ih ys this
        · simp only [bytesLt, e, Ne.symm e, if_false]
          rcases UInt8.lt_or_lt_of_ne e with h | h
          · simp [h]
          · simp [h]

instance : StrictOrd Nat where
  lt a b := decide (a < b)
  irrefl := by intro a; simp
  trans := by intro a b c h1 h2; simp at *; omega
  total := by intro a b h; simp; omega

end Pdfmm
