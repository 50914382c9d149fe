import Verif.Base.Basic
import Verif.Base.SMap
set_option autoImplicit false
/-
The operators of content streams: names and operand counts (PdfOperatorUtils).  Property C121.
-/
namespace Pdfmm

/-- `enum class PdfOperator` without `Unknown`, `src/pdfmm/base/PdfDeclarations.h:622-715`. -/
inductive PdfOp
  | opw | opJ | opj | opM | opd | opri | opi | opgs | opq | opQ | opcm | opm | opl | opc | opv | opy | oph | opre 
  | opS | ops | opf | opF | opfStar | opB | opBStar | opb | opbStar | opn | opW | opWStar | opBT | opET | opTc 
  | opTw | opTz | opTL | opTf | opTr | opTs | opTd | opTD | opTm | opTStar | opTj | opTJ | opQuote | opDoubleQuote 
  | opd0 | opd1 | opCS | opcs | opSC | opSCN | opsc | opscn | opG | opg | opRG | oprg | opK | opk | opsh | opBI 
  | opID | opEI | opDo | opMP | opDP | opBMC | opBDC | opEMC | opBX | opEX
  deriving DecidableEq, Repr

/-- The comparisons of `TryGetPdfOperator`, in order, `src/pdfmm/base/PdfOperatorUtils.cpp:22-395`. -/
def opTable : List (Bytes × PdfOp) :=
  [([119], .opw),
   ([74], .opJ),
   ([106], .opj),
   ([77], .opM),
   ([100], .opd),
   ([114, 105], .opri),
   ([105], .opi),
   ([103, 115], .opgs),
   ([113], .opq),
   ([81], .opQ),
   ([99, 109], .opcm),
   ([109], .opm),
   ([108], .opl),
   ([99], .opc),
   ([118], .opv),
   ([121], .opy),
   ([104], .oph),
   ([114, 101], .opre),
   ([83], .opS),
   ([115], .ops),
   ([102], .opf),
   ([70], .opF),
   ([102, 42], .opfStar),
   ([66], .opB),
   ([66, 42], .opBStar),
   ([98], .opb),
   ([98, 42], .opbStar),
   ([110], .opn),
   ([87], .opW),
   ([87, 42], .opWStar),
   ([66, 84], .opBT),
   ([69, 84], .opET),
   ([84, 99], .opTc),
   ([84, 119], .opTw),
   ([84, 122], .opTz),
   ([84, 76], .opTL),
   ([84, 102], .opTf),
   ([84, 114], .opTr),
   ([84, 115], .opTs),
   ([84, 100], .opTd),
   ([84, 68], .opTD),
   ([84, 109], .opTm),
   ([84, 42], .opTStar),
   ([84, 106], .opTj),
   ([84, 74], .opTJ),
   ([39], .opQuote),
   ([34], .opDoubleQuote),
   ([100, 48], .opd0),
   ([100, 49], .opd1),
   ([67, 83], .opCS),
   ([99, 115], .opcs),
   ([83, 67], .opSC),
   ([83, 67, 78], .opSCN),
   ([115, 99], .opsc),
   ([115, 99, 110], .opscn),
   ([71], .opG),
   ([103], .opg),
   ([82, 71], .opRG),
   ([114, 103], .oprg),
   ([75], .opK),
   ([107], .opk),
   ([115, 104], .opsh),
   ([66, 73], .opBI),
   ([73, 68], .opID),
   ([69, 73], .opEI),
   ([68, 111], .opDo),
   ([77, 80], .opMP),
   ([68, 80], .opDP),
   ([66, 77, 67], .opBMC),
   ([66, 68, 67], .opBDC),
   ([69, 77, 67], .opEMC),
   ([66, 88], .opBX),
   ([69, 88], .opEX)]

/-- `TryGetPdfOperator`, `src/pdfmm/base/PdfOperatorUtils.cpp:22-394`: the first name that is equal; `none` when it returns false. -/
def opOfName (b : Bytes) : Option PdfOp := SMap.find? b opTable

/-- `TryGetPdfOperatorName`, `src/pdfmm/base/PdfOperatorUtils.cpp:644-1018`. -/
def opName : PdfOp → Bytes
  | .opw => [119]
  | .opJ => [74]
  | .opj => [106]
  | .opM => [77]
  | .opd => [100]
  | .opri => [114, 105]
  | .opi => [105]
  | .opgs => [103, 115]
  | .opq => [113]
  | .opQ => [81]
  | .opcm => [99, 109]
  | .opm => [109]
  | .opl => [108]
  | .opc => [99]
  | .opv => [118]
  | .opy => [121]
  | .oph => [104]
  | .opre => [114, 101]
  | .opS => [83]
  | .ops => [115]
  | .opf => [102]
  | .opF => [70]
  | .opfStar => [102, 42]
  | .opB => [66]
  | .opBStar => [66, 42]
  | .opb => [98]
  | .opbStar => [98, 42]
  | .opn => [110]
  | .opW => [87]
  | .opWStar => [87, 42]
  | .opBT => [66, 84]
  | .opET => [69, 84]
  | .opTc => [84, 99]
  | .opTw => [84, 119]
  | .opTz => [84, 122]
  | .opTL => [84, 76]
  | .opTf => [84, 102]
  | .opTr => [84, 114]
  | .opTs => [84, 115]
  | .opTd => [84, 100]
  | .opTD => [84, 68]
  | .opTm => [84, 109]
  | .opTStar => [84, 42]
  | .opTj => [84, 106]
  | .opTJ => [84, 74]
  | .opQuote => [39]
  | .opDoubleQuote => [34]
  | .opd0 => [100, 48]
  | .opd1 => [100, 49]
  | .opCS => [67, 83]
  | .opcs => [99, 115]
  | .opSC => [83, 67]
  | .opSCN => [83, 67, 78]
  | .opsc => [115, 99]
  | .opscn => [115, 99, 110]
  | .opG => [71]
  | .opg => [103]
  | .opRG => [82, 71]
  | .oprg => [114, 103]
  | .opK => [75]
  | .opk => [107]
  | .opsh => [115, 104]
  | .opBI => [66, 73]
  | .opID => [73, 68]
  | .opEI => [69, 73]
  | .opDo => [68, 111]
  | .opMP => [77, 80]
  | .opDP => [68, 80]
  | .opBMC => [66, 77, 67]
  | .opBDC => [66, 68, 67]
  | .opEMC => [69, 77, 67]
  | .opBX => [66, 88]
  | .opEX => [69, 88]

/-- `TryGetOperandCount`, `src/pdfmm/base/PdfOperatorUtils.cpp:405-633`; -1 stands for a variable number. -/
def opCount : PdfOp → Int
  | .opw => 1
  | .opJ => 1
  | .opj => 1
  | .opM => 1
  | .opd => 2
  | .opri => 1
  | .opi => 1
  | .opgs => 1
  | .opq => 0
  | .opQ => 0
  | .opcm => 6
  | .opm => 2
  | .opl => 2
  | .opc => 6
  | .opv => 4
  | .opy => 4
  | .oph => 0
  | .opre => 4
  | .opS => 0
  | .ops => 0
  | .opf => 0
  | .opF => 0
  | .opfStar => 0
  | .opB => 0
  | .opBStar => 0
  | .opb => 0
  | .opbStar => 0
  | .opn => 0
  | .opW => 0
  | .opWStar => 0
  | .opBT => 0
  | .opET => 0
  | .opTc => 1
  | .opTw => 1
  | .opTz => 1
  | .opTL => 1
  | .opTf => 2
  | .opTr => 1
  | .opTs => 1
  | .opTd => 2
  | .opTD => 2
  | .opTm => 6
  | .opTStar => 0
  | .opTj => 1
  | .opTJ => 1
  | .opQuote => 1
  | .opDoubleQuote => 3
  | .opd0 => 2
  | .opd1 => 6
  | .opCS => 1
  | .opcs => 1
  | .opSC => -1
  | .opSCN => -1
  | .opsc => -1
  | .opscn => -1
  | .opG => 1
  | .opg => 1
  | .opRG => 3
  | .oprg => 3
  | .opK => 4
  | .opk => 4
  | .opsh => 1
  | .opBI => 0
  | .opID => 0
  | .opEI => 0
  | .opDo => 1
  | .opMP => 1
  | .opDP => 2
  | .opBMC => 1
  | .opBDC => 2
  | .opEMC => 0
  | .opBX => 0
  | .opEX => 0

/-! ### Specification -/

/-- The operators of ISO 32000-1, Annex A, by the number of operands they take (`none`: as many as the colour space has components). -/
def Spec.isoOperators : List (Option Nat × List String) :=
  [(some 0, ["b", "B", "b*", "B*", "BI", "BT", "BX", "EI", "EMC", "ET", "EX", "f", "F", "f*", "h", "ID", "n", "q", "Q", "s", "S", "T*", "W", "W*"]),
   (some 1, ["BMC", "cs", "CS", "Do", "g", "G", "gs", "i", "j", "J", "M", "MP", "ri", "sh", "Tc", "Tj", "TJ", "TL", "Tr", "Ts", "Tw", "Tz", "w", "'"]),
   (some 2, ["BDC", "d", "d0", "DP", "l", "m", "Td", "TD", "Tf"]),
   (some 3, ["rg", "RG", "\""]),
   (some 4, ["k", "K", "re", "v", "y"]),
   (some 6, ["c", "cm", "d1", "Tm"]),
   (none, ["sc", "SC", "scn", "SCN"])]

/-- The bytes of an operator's name. -/
def Spec.nameBytes (s : String) : Bytes := s.toList.map fun c => UInt8.ofNat c.toNat

/-- The byte string names an operator that takes that many operands. -/
def Spec.TakesOperands (b : Bytes) (n : Option Nat) : Prop := ∃ l s, (n, l) ∈ Spec.isoOperators ∧ s ∈ l ∧ Spec.nameBytes s = b

/-! ### Proofs -/

theorem opTable_names : ∀ p ∈ opTable, opName p.2 = p.1 := by decide +kernel

theorem opOfName_name (op : PdfOp) : opOfName (opName op) = some op := by cases op <;> decide +kernel

/-- C121, names. The two tables are inverse to each other: a byte string is recognised as an operator exactly when it is that operator's
name. -/
theorem C121_names (b : Bytes) (op : PdfOp) : opOfName b = some op ↔ opName op = b := by
  constructor
  · intro h
    exact opTable_names _ (SMap.find_mem h)
  · intro h
    rw [← h]; exact opOfName_name op

/-- The operand count, -1 standing for a variable number. -/
def Spec.countOf (n : Int) : Option Nat := if n = -1 then none else some n.toNat

/-- All names of the specification with their counts. -/
def isoFlat : List (Bytes × Option Nat) := Spec.isoOperators.flatMap fun p => p.2.map fun s => (Spec.nameBytes s, p.1)

theorem takes_flat (b : Bytes) (n : Option Nat) : Spec.TakesOperands b n ↔ (b, n) ∈ isoFlat := by
  unfold Spec.TakesOperands isoFlat
  rw [List.mem_flatMap]
  constructor
  · rintro ⟨l, s, h1, h2, h3⟩
    exact ⟨(n, l), h1, List.mem_map.2 ⟨s, h2, by rw [h3]⟩⟩
  · rintro ⟨⟨m, l⟩, h1, h2⟩
    obtain ⟨s, h3, h4⟩ := List.mem_map.1 h2
    cases h4
    exact ⟨l, s, h1, h3, rfl⟩

theorem flat_known : ∀ p ∈ isoFlat, (opOfName p.1).map (fun op => Spec.countOf (opCount op)) = some p.2 := by decide +kernel

theorem known_flat (op : PdfOp) : (opName op, Spec.countOf (opCount op)) ∈ isoFlat := by cases op <;> decide +kernel

/-- C121, operands. The recognised operators are exactly those of the specification, and the operand counts are the specification's. -/
theorem C121_operands (b : Bytes) (n : Option Nat) :
    Spec.TakesOperands b n ↔ ∃ op, opOfName b = some op ∧ Spec.countOf (opCount op) = n := by
  rw [takes_flat]
  constructor
  · intro h
    have := flat_known _ h
    cases ho : opOfName b with
    | none => simp [ho] at this
    | some op => simp [ho] at this; exact ⟨op, rfl, this⟩
  · rintro ⟨op, h1, h2⟩
    have := known_flat op
    rw [(C121_names b op).1 h1, h2] at this
    exact this

/-- Non-vacuity. -/
example : Spec.TakesOperands [99, 109] (some 6) ∧ opOfName [99, 109] = some .opcm ∧ opOfName [120] = none :=
  ⟨⟨["c", "cm", "d1", "Tm"], "cm", by simp [Spec.isoOperators], by simp, by decide +kernel⟩, by decide +kernel, by decide +kernel⟩

end Pdfmm
