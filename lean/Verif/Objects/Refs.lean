import Verif.Base.SMap
/-
References: `PdfReference`.  Object numbers are `uint32_t` and generations `uint16_t` in the code; the
model has natural numbers, of which these are the part below 2^32 and 2^16, except in the hash.
-/
set_option autoImplicit false
namespace Pdfmm

/-- `PdfReference`, `src/pdfmm/base/PdfReference.h:20-120`. -/
structure Ref where
  num : Nat
  gen : Nat
  deriving DecidableEq, Repr

namespace Ref

/-- `operator<`, `src/pdfmm/base/PdfReference.cpp:47-50`. -/
def lt (a b : Ref) : Bool := if a.num = b.num then a.gen < b.gen else a.num < b.num
/-- `operator==`, `src/pdfmm/base/PdfReference.cpp:52-55`. -/
def eq (a b : Ref) : Bool := a.num = b.num && a.gen = b.gen
/-- `operator!=`, `src/pdfmm/base/PdfReference.cpp:57-60`. -/
def ne (a b : Ref) : Bool := a.num ≠ b.num || a.gen ≠ b.gen
/-- `IsIndirect`, `src/pdfmm/base/PdfReference.cpp:62-65`. -/
def isIndirect (a : Ref) : Bool := a.num ≠ 0 || a.gen ≠ 0
/-- `std::hash<PdfReference>`, `src/pdfmm/base/PdfReference.h:126-132`: the shift is done in `int` and the
result converted to `uint32_t`. -/
def hash (a : Ref) : UInt32 := UInt32.ofNat a.num ^^^ (UInt32.ofNat a.gen <<< 16)

end Ref

/-- **C25.** `<` is a strict total order, the object number counting first, and fits `==`, `!=` and the
hash. -/
theorem C25_reference_order :
    (∀ a : Ref, Ref.lt a a = false) ∧
    (∀ a b c : Ref, Ref.lt a b = true → Ref.lt b c = true → Ref.lt a c = true) ∧
    (∀ a b : Ref, (Ref.lt a b = true ∧ Ref.eq a b = false ∧ Ref.lt b a = false) ∨
      (Ref.lt a b = false ∧ Ref.eq a b = true ∧ Ref.lt b a = false) ∨
      (Ref.lt a b = false ∧ Ref.eq a b = false ∧ Ref.lt b a = true)) ∧
    (∀ a b : Ref, a.num < b.num → Ref.lt a b = true) ∧
    (∀ a b : Ref, a.num = b.num → Ref.lt a b = decide (a.gen < b.gen)) ∧
    (∀ a b : Ref, Ref.eq a b = true ↔ a = b) ∧
    (∀ a b : Ref, Ref.ne a b = !Ref.eq a b) ∧
    (∀ a b : Ref, Ref.eq a b = true → Ref.hash a = Ref.hash b) := by
  have heq : ∀ a b : Ref, Ref.eq a b = true ↔ a = b := by
    rintro ⟨an, ag⟩ ⟨bn, bg⟩; simp [Ref.eq]
  refine ⟨?_, ?_, ?_, ?_, ?_, heq, ?_, ?_⟩
  · rintro ⟨n, g⟩; simp [Ref.lt]
  · rintro ⟨an, ag⟩ ⟨bn, bg⟩ ⟨cn, cg⟩
    simp only [Ref.lt]
    intro h1 h2
    split at h1 <;> split at h2 <;> split <;> simp at * <;> omega
  · rintro ⟨an, ag⟩ ⟨bn, bg⟩
    simp only [Ref.lt, Ref.eq]
    by_cases h : an = bn
    · subst h
      rcases Nat.lt_trichotomy ag bg with h | h | h
      · left; simp [h]; omega
      · right; left; simp [h]
      · right; right; simp [h]; omega
    · rcases Nat.lt_trichotomy an bn with h' | h' | h'
      · left; simp [h, h', Ne.symm h]; omega
      · exact absurd h' h
      · right; right; simp [h, h', Ne.symm h]; omega
  · rintro ⟨an, ag⟩ ⟨bn, bg⟩ h
    have : an ≠ bn := Nat.ne_of_lt h
    simp [Ref.lt, this]; exact h
  · rintro ⟨an, ag⟩ ⟨bn, bg⟩ h
    simp only at h; simp [Ref.lt, h]
  · rintro ⟨an, ag⟩ ⟨bn, bg⟩
    by_cases h1 : an = bn <;> by_cases h2 : ag = bg <;> simp [Ref.ne, Ref.eq, h1, h2]
  · intro a b h
    rw [(heq a b).1 h]

example : Ref.lt ⟨3, 7⟩ ⟨4, 0⟩ = true ∧ Ref.lt ⟨4, 0⟩ ⟨4, 1⟩ = true ∧ Ref.eq ⟨4, 1⟩ ⟨4, 1⟩ = true ∧
    Ref.hash ⟨4, 65535⟩ = 4294901764 := by decide

instance : StrictOrd Ref where
  lt := Ref.lt
  irrefl := C25_reference_order.1
  trans := C25_reference_order.2.1
  total := by
    intro a b h
    rcases C25_reference_order.2.2.1 a b with h' | h' | h'
    · exact .inl h'.1
    · exact absurd ((C25_reference_order.2.2.2.2.2.1 a b).1 h'.2.1) h
    · exact .inr h'.2.2

end Pdfmm
