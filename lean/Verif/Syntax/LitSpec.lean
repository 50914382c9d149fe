import Verif.Base.Basic
/-
Specification of literal strings, names, white space and comments (ISO 32000-1 sections 7.2 and 7.3).
Nothing here refers to the model.
-/
namespace Pdfmm.Spec

/-- Value of an octal digit character. -/
def octVal (b : UInt8) : Option Nat := if 48 ≤ b.toNat ∧ b.toNat ≤ 55 then some (b.toNat - 48) else none

/-- ISO 32000-1 table 3: the character denoted by a backslash and `b`. -/
def escapeOf (b : UInt8) : Option UInt8 :=
  if b = 0x6E then some 0x0A        -- n
  else if b = 0x72 then some 0x0D   -- r
  else if b = 0x74 then some 0x09   -- t
  else if b = 0x62 then some 0x08   -- b
  else if b = 0x66 then some 0x0C   -- f
  else if b = 0x28 then some 0x28   -- (
  else if b = 0x29 then some 0x29   -- )
  else if b = 0x5C then some 0x5C   -- \
  else none

/-- The text does not start with an octal digit. -/
def NoOctHead (t : List UInt8) : Prop := ∀ c r, t = c :: r → octVal c = none

/-- The text does not start with a line feed. -/
def NoLfHead (t : List UInt8) : Prop := ∀ r, t ≠ 0x0A :: r

/-- `LitString text data`: the text between the outer parentheses of a literal string denotes `data`,
ISO 32000-1 section 7.3.4.2. -/
inductive LitString : List UInt8 → List UInt8 → Prop
  | nil : LitString [] []
  /-- an ordinary character -/
  | char {t d} (c : UInt8) (h : c ≠ 0x28 ∧ c ≠ 0x29 ∧ c ≠ 0x5C ∧ c ≠ 0x0D) (ht : LitString t d) :
      LitString (c :: t) (c :: d)
  /-- an unescaped end-of-line marker reads as a line feed -/
  | cr {t d} (h : NoLfHead t) (ht : LitString t d) : LitString (0x0D :: t) (0x0A :: d)
  | crlf {t d} (ht : LitString t d) : LitString (0x0D :: 0x0A :: t) (0x0A :: d)
  /-- balanced parentheses stand for themselves -/
  | nested {b e t d} (hb : LitString b e) (ht : LitString t d) :
      LitString (0x28 :: (b ++ 0x29 :: t)) (0x28 :: (e ++ 0x29 :: d))
  /-- the escapes of table 3 -/
  | esc {t d} (c v : UInt8) (h : escapeOf c = some v) (ht : LitString t d) :
      LitString (0x5C :: c :: t) (v :: d)
  /-- one to three octal digits; high-order overflow is ignored -/
  | oct3 {t d} (a b c : UInt8) (x y z : Nat) (ha : octVal a = some x) (hb : octVal b = some y)
      (hc : octVal c = some z) (ht : LitString t d) :
      LitString (0x5C :: a :: b :: c :: t) (UInt8.ofNat (64 * x + 8 * y + z) :: d)
  | oct2 {t d} (a b : UInt8) (x y : Nat) (ha : octVal a = some x) (hb : octVal b = some y)
      (hn : NoOctHead t) (ht : LitString t d) :
      LitString (0x5C :: a :: b :: t) (UInt8.ofNat (8 * x + y) :: d)
  | oct1 {t d} (a : UInt8) (x : Nat) (ha : octVal a = some x) (hn : NoOctHead t) (ht : LitString t d) :
      LitString (0x5C :: a :: t) (UInt8.ofNat x :: d)
  /-- a backslash at the end of a line continues the string on the next line -/
  | contLf {t d} (ht : LitString t d) : LitString (0x5C :: 0x0A :: t) d
  | contCr {t d} (h : NoLfHead t) (ht : LitString t d) : LitString (0x5C :: 0x0D :: t) d
  | contCrLf {t d} (ht : LitString t d) : LitString (0x5C :: 0x0D :: 0x0A :: t) d
  /-- a backslash before any other character is ignored -/
  | other {t d} (c : UInt8) (h1 : escapeOf c = none) (h2 : octVal c = none) (h3 : c ≠ 0x0A ∧ c ≠ 0x0D)
      (ht : LitString t d) : LitString (0x5C :: c :: t) (c :: d)

/-- What may follow a short octal escape in the fragment below: not a parenthesis, and (to be a short
escape) not an octal digit. -/
def PlainHead (t : List UInt8) : Prop :=
  ∃ c r, t = c :: r ∧ c ≠ 0x28 ∧ c ≠ 0x29 ∧ octVal c = none

/-- The literal strings without: a carriage return outside `\` CR, a backslash before a character that
needs none, `\` CR LF, and a short octal escape directly before a parenthesis inside the string.
`top` says whether the text is the whole string (a short octal escape may then end it). -/
inductive CoreString : Bool → List UInt8 → List UInt8 → Prop
  | nil {top} : CoreString top [] []
  | char {top t d} (c : UInt8) (h : c ≠ 0x28 ∧ c ≠ 0x29 ∧ c ≠ 0x5C ∧ c ≠ 0x0D) (ht : CoreString top t d) :
      CoreString top (c :: t) (c :: d)
  | nested {top b e t d} (hb : CoreString false b e) (ht : CoreString top t d) :
      CoreString top (0x28 :: (b ++ 0x29 :: t)) (0x28 :: (e ++ 0x29 :: d))
  | esc {top t d} (c v : UInt8) (h : escapeOf c = some v) (ht : CoreString top t d) :
      CoreString top (0x5C :: c :: t) (v :: d)
  | oct3 {top t d} (a b c : UInt8) (x y z : Nat) (ha : octVal a = some x) (hb : octVal b = some y)
      (hc : octVal c = some z) (ht : CoreString top t d) :
      CoreString top (0x5C :: a :: b :: c :: t) (UInt8.ofNat (64 * x + 8 * y + z) :: d)
  | oct2 {top t d} (a b : UInt8) (x y : Nat) (ha : octVal a = some x) (hb : octVal b = some y)
      (hn : PlainHead t) (ht : CoreString top t d) :
      CoreString top (0x5C :: a :: b :: t) (UInt8.ofNat (8 * x + y) :: d)
  | oct1 {top t d} (a : UInt8) (x : Nat) (ha : octVal a = some x) (hn : PlainHead t)
      (ht : CoreString top t d) : CoreString top (0x5C :: a :: t) (UInt8.ofNat x :: d)
  | oct2end (a b : UInt8) (x y : Nat) (ha : octVal a = some x) (hb : octVal b = some y) :
      CoreString true [0x5C, a, b] [UInt8.ofNat (8 * x + y)]
  | oct1end (a : UInt8) (x : Nat) (ha : octVal a = some x) : CoreString true [0x5C, a] [UInt8.ofNat x]
  | contLf {top t d} (ht : CoreString top t d) : CoreString top (0x5C :: 0x0A :: t) d
  | contCr {top t d} (h : NoLfHead t) (ht : CoreString top t d) : CoreString top (0x5C :: 0x0D :: t) d

theorem PlainHead.noOct {t : List UInt8} (h : PlainHead t) : NoOctHead t := by
  obtain ⟨c, r, h1, _, _, h2⟩ := h
  intro c' r' e
  rw [h1] at e; cases e; exact h2

/-- The fragment is part of the language. -/
theorem CoreString.lit {top : Bool} {t d : List UInt8} (h : CoreString top t d) : LitString t d := by
  induction h with
  | nil => exact .nil
  | char c h _ ih => exact .char c h ih
  | nested _ _ ih1 ih2 => exact .nested ih1 ih2
  | esc c v h _ ih => exact .esc c v h ih
  | oct3 a b c x y z ha hb hc _ ih => exact .oct3 a b c x y z ha hb hc ih
  | oct2 a b x y ha hb hn _ ih => exact .oct2 a b x y ha hb hn.noOct ih
  | oct1 a x ha hn _ ih => exact .oct1 a x ha hn.noOct ih
  | oct2end a b x y ha hb => exact .oct2 a b x y ha hb (by intro c r e; cases e) .nil
  | oct1end a x ha => exact .oct1 a x ha (by intro c r e; cases e) .nil
  | contLf _ ih => exact .contLf ih
  | contCr h _ ih => exact .contCr h ih

/-- `NameText text name`: the characters after the slash denote `name` (ISO 32000-1 section 7.3.5): a
number sign and two hexadecimal digits stand for a byte, any other regular character for itself. -/
inductive NameText (hexVal : UInt8 → Option Nat) : List UInt8 → List UInt8 → Prop
  | nil : NameText hexVal [] []
  | char {t n} (c : UInt8) (h : c ≠ 0x23) (ht : NameText hexVal t n) : NameText hexVal (c :: t) (c :: n)
  | code {t n} (a b : UInt8) (x y : Nat) (ha : hexVal a = some x) (hb : hexVal b = some y)
      (ht : NameText hexVal t n) :
      NameText hexVal (0x23 :: a :: b :: t) (UInt8.ofNat (16 * x + y) :: n)

/-- What may separate tokens: white space, and comments (a percent sign up to the end of the line). -/
inductive Separator (white : UInt8 → Prop) : List UInt8 → Prop
  | nil : Separator white []
  | space {t} (c : UInt8) (h : white c) (ht : Separator white t) : Separator white (c :: t)
  | comment {t} (text : List UInt8) (eol : UInt8) (h : ∀ c ∈ text, c ≠ 0x0A ∧ c ≠ 0x0D)
      (he : eol = 0x0A ∨ eol = 0x0D) (ht : Separator white t) :
      Separator white (0x25 :: (text ++ eol :: t))

end Pdfmm.Spec
