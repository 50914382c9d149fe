/-
Shared vocabulary of the model: bytes, error codes, outcomes, and the lifting lemma that turns a
check of all 256 bytes into a statement about every byte.
-/
namespace Pdfmm

/-- C++ `char`/`unsigned char`: eight bits.  Where the code depends on the sign of `char` the model
converts with `schar`. -/
abbrev Byte := UInt8

/-- `charbuff`, `std::string` and `bufferview` contents. -/
abbrev Bytes := List UInt8

/-- The error codes raised by modelled code, `src/pdfmm/base/PdfError.h` `enum class PdfErrorCode`. -/
inductive ErrorCode
  | Unknown | InvalidHandle | FileNotFound | InvalidDeviceOperation | UnexpectedEOF | OutOfMemory
  | ValueOutOfRange | InternalLogic | InvalidEnumValue | BrokenFile | PageNotFound | NoPdfFile
  | NoXRef | NoTrailer | NoNumber | NoObject | NoEOFToken | InvalidTrailerSize
  | InvalidDataType | InvalidXRef | InvalidXRefStream | InvalidXRefType | InvalidPredictor | InvalidStrokeStyle
  | InvalidHexString | InvalidStream | InvalidStreamLength | InvalidKey | InvalidName | InvalidEncryptionDict
  | InvalidPassword | InvalidFontFile | InvalidContentStream | UnsupportedFilter | UnsupportedFontFormat | ActionAlreadyPresent
  | WrongDestinationType | MissingEndStream | Date | Flate | FreeType | SignatureError
  | UnsupportedImageFormat | CannotConvertColor | NotImplemented | DestinationAlreadyPresent | ChangeOnImmutable | NotCompiled
  | OutlineItemAlreadyPresent | NotLoadedForUpdate | CannotEncryptedForUpdate | XmpMetadata
  deriving DecidableEq, Repr

/-- Abnormal outcomes: a raised `PdfError`, any other C++ exception, undefined behaviour (kept distinct), or a
loop that did not end within the fuel the model gives it (theorems show when this cannot happen). -/
inductive Fault
  | error (c : ErrorCode)
  | exn
  | ub
  | diverge
  deriving DecidableEq, Repr

/-- Outcome of a modelled call. -/
abbrev Res (α : Type u) := Except Fault α

/-- `PDFMM_RAISE_ERROR(code)`. -/
@[reducible] def raise {α : Type u} (c : ErrorCode) : Res α := .error (.error c)

/-- Decidable equality of outcomes, for concrete witnesses. -/
instance instDecEqExcept {ε α : Type} [DecidableEq ε] [DecidableEq α] :
    DecidableEq (Except ε α)
  | .ok a, .ok b => if h : a = b then isTrue (by rw [h]) else isFalse (by simpa using h)
  | .error a, .error b => if h : a = b then isTrue (by rw [h]) else isFalse (by simpa using h)
  | .ok _, .error _ => isFalse (by simp)
  | .error _, .ok _ => isFalse (by simp)

/-- The value of a byte read as C++ `signed char` (the platform's `char`). -/
def schar (b : Byte) : Int := if b.toNat < 128 then (b.toNat : Int) else (b.toNat : Int) - 256

/-- A property checked for the 256 byte values holds for every byte. -/
theorem forall_byte {P : UInt8 → Prop} (h : ∀ i : Fin 256, P (UInt8.ofNat i.val)) (b : UInt8) :
    P b := by
  have := h ⟨b.toNat, b.toNat_lt⟩
  simpa using this

theorem forall_byte2 {P : UInt8 → UInt8 → Prop}
    (h : ∀ i : Fin 256, ∀ j : Fin 256, P (UInt8.ofNat i.val) (UInt8.ofNat j.val)) (a b : UInt8) :
    P a b := by
  have := h ⟨a.toNat, a.toNat_lt⟩ ⟨b.toNat, b.toNat_lt⟩
  simpa using this

/-- Byte literal from a character, for readable models. -/
@[reducible] def ch (c : Char) : Byte := UInt8.ofNat c.toNat

end Pdfmm
