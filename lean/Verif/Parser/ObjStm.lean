import Verif.Syntax.ObjectProps
import Verif.Objects.ObjListProps
import Verif.XRef.TextProps
import Verif.Fonts.CMapModel
set_option autoImplicit false
/-
Objects in object streams, `src/pdfmm/base/PdfObjectStreamParser.cpp`, and the part of `PdfParser::ReadObjectsInternal` that reads them.
Property C126.
-/
namespace Pdfmm

/-! ### Model -/

/-- An indirect object as the parser leaves it: a `PdfParserObject` that will be read at an offset, or an object that came out of an object
stream, which is a plain `PdfObject` (`src/pdfmm/base/PdfObjectStreamParser.cpp:78`). -/
inductive POb
  | at (off : Nat)
  | value (v : Var)

/-- What `Parse` takes from the stream object, `src/pdfmm/base/PdfObjectStreamParser.cpp:30-34`: `/N`, `/First` and the decoded data. -/
structure ObjStm where
  n : Int
  first : Int
  data : Bytes

/-- `device.Seek(first + offset)` and `ReadNextVariant` with a new tokenizer, `src/pdfmm/base/PdfObjectStreamParser.cpp:53-65`.  The largest
`int64_t` minus a negative offset overflows; a negative position becomes a huge one, which `Seek` refuses
(`src/pdfmm/base/PdfStreamDevice.cpp`, `SeekPosition`). -/
def objStmAt (cfg : Cfg) (st : ObjStm) (off : Int) : Res Var :=
  if off < 0 then .error .ub
  else if st.first ≥ 9223372036854775807 - off then raise .BrokenFile
  else if st.first + off < 0 ∨ st.first + off > st.data.length then raise .ValueOutOfRange
  else
    match tryReadVariant cfg ⟨[], st.data.drop (st.first + off).toNat, 0⟩ with
    | (.error e, _) => .error e
    | (.ok none, _) => raise .UnexpectedEOF
    | (.ok (some v), _) => .ok v

/-- `PushObject` of a compressed object, when it is wanted, `src/pdfmm/base/PdfObjectStreamParser.cpp:67-82`. -/
def pushWanted (wanted : List Nat) (n : Int) (v : Var) (o : OL POb) : OL POb :=
  if n ∈ wanted.map (fun k : Nat => (k : Int)) then o.push ⟨truncTo 32 n, 0⟩ (.value v) else o

/-- The loop of `readObjectsFromStream`, `src/pdfmm/base/PdfObjectStreamParser.cpp:49-88`, with `k` rounds to go; the table of contents is read
by a tokenizer of its own whose position is restored in every round.  The counter is an `int`; more than 2^31 rounds are not modelled. -/
def objStmLoop (cfg : Cfg) (st : ObjStm) (wanted : List Nat) : Nat → PS → OL POb → Res (OL POb)
  | 0, _, o => .ok o
  | k + 1, s, o =>
    match readNextNumber cfg.cap s with
    | (.error e, _) => .error e
    | (.ok n, s1) =>
      match readNextNumber cfg.cap s1 with
      | (.error e, _) => .error e
      | (.ok off, s2) =>
        match objStmAt cfg st off with
        | .error e => .error e
        | .ok v => objStmLoop cfg st wanted k s2 (pushWanted wanted n v o)

/-- `PdfObjectStreamParser::Parse`, `src/pdfmm/base/PdfObjectStreamParser.cpp:30-40`. -/
def parseObjStm (cfg : Cfg) (st : ObjStm) (wanted : List Nat) (o : OL POb) : Res (OL POb) :=
  objStmLoop cfg st wanted st.n.toNat ⟨[], st.data, 0⟩ o

/-- The loop over the object streams, `src/pdfmm/base/PdfParser.cpp:787-795`, and `ReadCompressedObjectFromStream`, `:813-832`: the object
stream must itself be an object at an offset.  `stm` gives the object stream at an offset, `ignore` is `m_IgnoreBrokenObjects`. -/
def readCompressed (cfg : Cfg) (ignore : Bool) (stm : Nat → Res ObjStm) : List (Nat × List Nat) → OL POb → Res (OL POb)
  | [], o => .ok o
  | (s, wanted) :: l, o =>
    match o.getObject ⟨s, 0⟩ with
    | some (.at off) =>
      match stm off with
      | .error e => .error e
      | .ok st =>
        match parseObjStm cfg st wanted o with
        | .error e => .error e
        | .ok o => readCompressed cfg ignore stm l { o with streams := s :: o.streams }
    | _ => if ignore then readCompressed cfg ignore stm l { o with streams := s :: o.streams } else raise .NoObject

/-- The loading of all streams when objects are not loaded on demand, `src/pdfmm/base/PdfParser.cpp:797-808`: a plain object is not a
`PdfParserObject`, the cast gives a null pointer, and it is used.  `load` is `ParseStream` of the object at an offset. -/
def loadStreams (load : Nat → Res Unit) : List (Ref × POb) → Res Unit
  | [] => .ok ()
  | (_, .value _) :: _ => .error .ub
  | (_, .at off) :: l =>
    match load off with
    | .error e => .error e
    | .ok () => loadStreams load l

/-! ### Specification -/

namespace Spec

/-- Any white space. -/
def White (w : Bytes) : Prop := ∀ c ∈ w, isWhitespace c = true

/-- The table of contents of an object stream (ISO 32000-1, 7.5.7): pairs of numbers separated by white space, in this order. -/
inductive StmTable : List (Nat × Nat) → Bytes → Prop
  | nil (r : Bytes) : StmTable [] r
  | cons {n off : Nat} {l : List (Nat × Nat)} {a b r : Bytes} : White a → White b → b ≠ [] → StartsOk r → StmTable l r →
      StmTable ((n, off) :: l) (a ++ (fmtNat n ++ (b ++ (fmtNat off ++ r))))

/-- What follows a number does not make it a reference: the second token after it is not `R`. -/
def NoR (cap : Nat) (t : Bytes) : Prop := ∀ a t1 b t2, lex cap t = some (a, t1) → lex cap t1 = some (b, t2) → b.text ≠ [82]

/-- At the beginning of `t` stands `v`, in any of the writer's formats, after any white space. -/
def Stands (cfg : Cfg) (v : Var) (t : Bytes) : Prop :=
  ∃ (w : Bytes) (f : WFlags) (rest : Bytes), (f.clean = true ∨ f.noInline = false) ∧ White w ∧ Writable cfg.cap v ∧ gnest v < cfg.maxDepth ∧
    StartsOk rest ∧ ((∃ n, v = .num n) → NoR cfg.cap rest) ∧ t = w ++ (text f v ++ rest)

/-- An object stream that holds these objects, anywhere behind `/First`, in any order. -/
structure HoldsObjs (cfg : Cfg) (objs : List (Nat × Var)) (st : ObjStm) : Prop where
  count : st.n = objs.length
  table : ∃ offs : List Nat, offs.length = objs.length ∧ StmTable ((objs.map Prod.fst).zip offs) st.data ∧
    ∀ p ∈ objs.zip offs, 0 ≤ st.first + p.2 ∧ st.first + p.2 ≤ st.data.length ∧ Stands cfg p.1.2 (st.data.drop (st.first + p.2).toNat)
  small : st.data.length < 9223372036854775807
  first : 0 ≤ st.first
  numbers : ∀ p ∈ objs, p.1 < 4294967296

end Spec

open Spec

/-! ### Proofs -/

theorem lex_white {cap : Nat} (hcap : 2 ≤ cap) {w : Bytes} (h : White w) (r : Bytes) : lex cap (w ++ r) = lex cap r := by
  induction w with
  | nil => rfl
  | cons c w ih =>
    rw [List.cons_append, lex_ws hcap (h c (by simp))]
    exact ih (fun x hx => h x (by simp [hx]))

theorem tryReadToken_fresh (cap : Nat) (t : Bytes) (d : Nat) {a : Tok} {t1 : Bytes} (h : lex cap t = some (a, t1)) :
    tryReadToken cap ⟨[], t, d⟩ = (some a, ⟨[], t1, d⟩) := by
  simp [tryReadToken, h]

theorem readNextNumber_at {cap : Nat} (hcap : 20 ≤ cap) {n : Nat} (hn : n < 9223372036854775808) {w r : Bytes} (hw : White w) (hr : StartsOk r) (d : Nat) :
    readNextNumber cap ⟨[], w ++ (fmtNat n ++ r), d⟩ = (.ok (n : Int), ⟨[], r, d⟩) := by
  have hl : lex cap (w ++ (fmtNat n ++ r)) = some (⟨fmtNat n, .literal⟩, r) := by
    rw [lex_white (by omega) hw]
    apply lex_literal (fmtNat_lit n) (fmtNat_ne_nil n) _ hr
    have := fmtNat_length n 18 (Nat.lt_of_lt_of_le hn (by decide)); omega
  have he := fromChars_fmtNat n hn [] (by simp)
  rw [List.append_nil] at he
  rw [readNextNumber, tryReadToken_fresh _ _ _ hl]
  simp only [he]

theorem lookRef_noR {cap : Nat} {t : Bytes} (d : Nat) (n : Int) (h : NoR cap t) : ∃ s', lookRef cap n ⟨[], t, d⟩ = (.val (.num n), s') := by
  rw [lookRef]
  cases hl : lex cap t with
  | none => exact ⟨_, by simp [tryReadToken, hl]; rfl⟩
  | some p =>
    obtain ⟨a, t1⟩ := p
    rw [tryReadToken_fresh _ _ _ hl]
    simp only
    split
    · exact ⟨_, rfl⟩
    · split
      · exact ⟨_, rfl⟩
      · cases hl2 : lex cap t1 with
        | none => exact ⟨_, by simp [tryReadToken, hl2]; rfl⟩
        | some q =>
          obtain ⟨b, t2⟩ := q
          rw [tryReadToken_fresh _ _ _ hl2]
          simp only
          rw [if_neg (fun hc => h a t1 b t2 hl hl2 hc.2)]
          exact ⟨_, rfl⟩

theorem fuel_fresh {cfg : Cfg} (hcap : 2 ≤ cfg.cap) (f : WFlags) (v : Var) {T rest : Bytes} (hT : lex cfg.cap T = lex cfg.cap (text f v ++ rest))
    {t : Tok} {s1 : PS} {d : Nat} (h : tryReadToken cfg.cap ⟨[], T, d⟩ = (some t, s1)) : fuelFor f v ≤ 2 * s1.weight + 2 := by
  have e : tryReadToken cfg.cap ⟨[], text f v ++ rest, d⟩ = (some t, s1) := by
    rw [← h]; simp only [tryReadToken]; rw [hT]
  have hs1 : s1 = (tryReadToken cfg.cap ⟨[], text f v ++ rest, d⟩).2 := by rw [e]
  cases v with
  | arr l =>
    rw [hs1, fuelFor]
    simp only [text, List.cons_append]
    rw [weight_arr _ hcap]; simp; omega
  | dict l =>
    rw [hs1, fuelFor]
    simp only [text, List.cons_append, List.nil_append]
    rw [weight_dict _ hcap]; simp; omega
  | _ => simp [fuelFor]

theorem stands_read {cfg : Cfg} (hcap : 20 ≤ cfg.cap) (hr : cfg.readRefs = true) {v : Var} {t : Bytes} (h : Stands cfg v t) :
    ∃ s', tryReadVariant cfg ⟨[], t, 0⟩ = (.ok (some v), s') := by
  obtain ⟨w, f, rest, hf, hw, hv, hd, hs, hn, rfl⟩ := h
  have hT : lex cfg.cap (w ++ (text f v ++ rest)) = lex cfg.cap (text f v ++ rest) := lex_white (by omega) hw _
  by_cases hnum : ∃ n, v = .num n
  · obtain ⟨n, rfl⟩ := hnum
    have hn := hn ⟨n, rfl⟩
    cases hv with
    | num _ h1 h2 =>
      have hl : lex cfg.cap (text f (.num n) ++ rest) = some (⟨fmtInt n, .literal⟩, rest) := by
        rw [text, List.append_assoc, lex_sp (by omega) f]
        exact lex_literal (fmtInt_lit n) (fmtInt_ne_nil n) (by have := fmtInt_length h1 h2; omega) hs
      obtain ⟨w1, w2, w3, _⟩ := fmtInt_not_word n
      obtain ⟨s', hs'⟩ := lookRef_noR 1 n hn
      rw [tryReadVariant, tryReadToken_fresh _ _ _ (hT.trans hl)]
      refine ⟨{ s' with depth := s'.depth - 1 }, ?_⟩
      simp only
      unfold readTok
      apply guarded_ok (by show 0 < cfg.maxDepth; omega)
      unfold P.andThen
      have : determine cfg ⟨fmtInt n, .literal⟩ ⟨[], rest, 0 + 1⟩ = (.ok (.val (.num n)), s') := by
        unfold determine
        simp only [if_neg w1, if_neg w2, if_neg w3, fmtInt_scan, fromChars_exact n h1 h2, hr, if_true]
        rw [hs']
      rw [this]
      simp only [readDT]
  · obtain ⟨t, s1, k1, k2, _, _, k4⟩ := readsBack_all hcap hr f hf v hv
      ⟨[], w ++ (text f v ++ rest), 0⟩ _ rest ⟨hs, fun _ hc => absurd hc hnum⟩ hT (Rep2_fresh _ _ _)
    obtain ⟨d, s2, s3, m1, m2, m3, m4⟩ := k4 1 (2 * s1.weight + 2) (by omega) (fuel_fresh (by omega) f v hT k1)
    have k2' : s1.depth = 0 := k2
    refine ⟨{ s3 with depth := s3.depth - 1 }, ?_⟩
    unfold tryReadVariant
    rw [k1]; dsimp only
    unfold readTok
    apply guarded_ok (by omega)
    unfold P.andThen
    rw [k2', m1]; dsimp only; rw [m2]

/-- What the document holds afterwards under a reference. -/
def Spec.afterObjs (wanted : List Nat) (objs : List (Nat × Var)) (o : OL POb) (r : Ref) : Option POb :=
  match objs.find? (fun p => decide (p.1 = r.num ∧ r.gen = 0 ∧ p.1 ∈ wanted)) with
  | some p => some (.value p.2)
  | none => o.getObject r

theorem truncTo_stmNat {n : Nat} (h : n < 4294967296) : truncTo 32 (n : Int) = n := by
  unfold truncTo
  have : ((n : Int) % ((2 ^ 32 : Nat) : Int)) = n := Int.emod_eq_of_lt (by omega) (by omega)
  rw [this]; rfl

theorem objStmAt_ok {cfg : Cfg} (hcap : 20 ≤ cfg.cap) (hr : cfg.readRefs = true) {st : ObjStm} {off : Nat} {v : Var}
    (h0 : 0 ≤ st.first + off) (h1 : st.first + off ≤ st.data.length) (hs : st.data.length < 9223372036854775807)
    (h : Stands cfg v (st.data.drop (st.first + off).toNat)) : objStmAt cfg st off = .ok v := by
  obtain ⟨s', e⟩ := stands_read hcap hr h
  rw [objStmAt, if_neg (by omega), if_neg (by omega), if_neg (by omega), e]

theorem objStmLoop_ok {cfg : Cfg} (hcap : 20 ≤ cfg.cap) (hr : cfg.readRefs = true) {st : ObjStm} (wanted : List Nat)
    (hs : st.data.length < 9223372036854775807) (hf : 0 ≤ st.first) : ∀ (objs : List (Nat × Var)) (offs : List Nat) (T : Bytes) (o : OL POb),
    offs.length = objs.length → StmTable ((objs.map Prod.fst).zip offs) T →
    (∀ p ∈ objs.zip offs, 0 ≤ st.first + p.2 ∧ st.first + p.2 ≤ st.data.length ∧ Stands cfg p.1.2 (st.data.drop (st.first + p.2).toNat)) →
    (∀ p ∈ objs, p.1 < 4294967296) → (objs.map Prod.fst).Nodup → SMap.Sorted o.objs →
    ∃ o', objStmLoop cfg st wanted objs.length ⟨[], T, 0⟩ o = .ok o' ∧ SMap.Sorted o'.objs ∧
      ∀ r, SMap.find? r o'.objs = match objs.find? (fun p => decide (p.1 = r.num ∧ r.gen = 0 ∧ p.1 ∈ wanted)) with
        | some p => some (.value p.2)
        | none => SMap.find? r o.objs
  | [], offs, T, o, _, _, _, _, _, ho => ⟨o, by rw [List.length_nil, objStmLoop], ho, fun _ => rfl⟩
  | (n, v) :: objs, [], T, o, hl, _, _, _, _, _ => by simp at hl
  | (n, v) :: objs, off :: offs, T, o, hl, ht, hp, hn, hd, ho => by
    simp only [List.map_cons, List.zip_cons_cons] at ht hp
    cases ht with
    | cons ha hb hbne hr' ht =>
      rename_i a b r
      obtain ⟨h0, h1, h2⟩ := hp ((n, v), off) (by simp)
      have hn0 : n < 4294967296 := hn (n, v) (by simp)
      simp only at h0 h1 h2
      have hb' : StartsOk (b ++ (fmtNat off ++ r)) := by
        cases b with
        | nil => exact absurd rfl hbne
        | cons c b => exact StartsOk.cons_ws (hb c (by simp))
      simp only [List.map_cons, List.nodup_cons] at hd
      have ho1 : SMap.Sorted (pushWanted wanted n v o).objs := by
        unfold pushWanted
        split
        · rw [objs_push]; exact SMap.sorted_insert _ _ _ ho
        · exact ho
      obtain ⟨o', e1, e2, e3⟩ := objStmLoop_ok hcap hr wanted hs hf objs offs r (pushWanted wanted n v o)
        (by simpa using hl) ht (fun p hp' => hp p (by simp [hp'])) (fun p hp' => hn p (by simp [hp'])) hd.2 ho1
      refine ⟨o', ?_, e2, ?_⟩
      · rw [List.length_cons, objStmLoop, readNextNumber_at hcap (by omega) ha hb']
        simp only
        rw [readNextNumber_at hcap (by omega) hb hr']
        simp only
        rw [objStmAt_ok hcap hr h0 h1 hs h2]
        exact e1
      · intro q
        rw [e3 q, List.find?_cons]
        by_cases hq : n = q.num ∧ q.gen = 0 ∧ n ∈ wanted
        · have hnone : objs.find? (fun p => decide (p.1 = q.num ∧ q.gen = 0 ∧ p.1 ∈ wanted)) = none := by
            rw [List.find?_eq_none]
            intro p hp' hc
            simp only [decide_eq_true_eq] at hc
            exact hd.1 (List.mem_map.2 ⟨p, hp', by rw [hc.1, hq.1]⟩)
          rw [hnone]
          rw [decide_eq_true hq]
          simp only
          have hqr : (⟨truncTo 32 (n : Int), 0⟩ : Ref) = q := by
            rw [truncTo_stmNat hn0]; cases q; simp only at hq; rw [hq.1, hq.2.1]
          have hw : (n : Int) ∈ wanted.map (fun k : Nat => (k : Int)) := List.mem_map.2 ⟨n, hq.2.2, rfl⟩
          rw [pushWanted, if_pos hw, objs_push, hqr, SMap.find_insert_self]
        · rw [decide_eq_false hq]
          simp only
          split
          · rfl
          · unfold pushWanted
            split
            · rename_i hw
              obtain ⟨k, hk1, hk2⟩ := List.mem_map.1 hw
              have : k = n := by omega
              subst this
              rw [objs_push, SMap.find_insert_ne]
              rw [truncTo_stmNat hn0]
              intro hc
              subst hc
              exact hq ⟨rfl, rfl, hk1⟩
            · rfl

/-- C126.  Reading an object stream that holds any objects, anywhere in it and written in any of the library's formats, puts exactly the
wanted ones into the document, each under its number with generation 0, and leaves every other object as it was. -/
theorem C126_compressed_objects (cfg : Cfg) (hcap : 20 ≤ cfg.cap) (hr : cfg.readRefs = true) (st : ObjStm) (objs : List (Nat × Var))
    (h : HoldsObjs cfg objs st) (hd : (objs.map Prod.fst).Nodup) (wanted : List Nat) (o : OL POb) (ho : SMap.Sorted o.objs) :
    ∃ o', parseObjStm cfg st wanted o = .ok o' ∧ ∀ r, o'.getObject r = afterObjs wanted objs o r := by
  obtain ⟨offs, h1, h2, h3⟩ := h.table
  obtain ⟨o', e1, e2, e3⟩ := objStmLoop_ok hcap hr wanted h.small h.first objs offs st.data o h1 h2 h3 h.numbers hd ho
  refine ⟨o', ?_, ?_⟩
  · rw [parseObjStm, h.count]; exact e1
  · intro r
    rw [getObject_eq _ _ e2, e3 r, afterObjs, getObject_eq _ _ ho]

theorem find_wanted {wanted : List Nat} {objs : List (Nat × Var)} (hd : (objs.map Prod.fst).Nodup) {n : Nat} {v : Var} (h : (n, v) ∈ objs)
    (hw : n ∈ wanted) : objs.find? (fun p => decide (p.1 = n ∧ (0 : Nat) = 0 ∧ p.1 ∈ wanted)) = some (n, v) := by
  induction objs with
  | nil => cases h
  | cons p l ih =>
    simp only [List.map_cons, List.nodup_cons] at hd
    rw [List.find?_cons]
    rcases List.mem_cons.1 h with h | h
    · subst h
      rw [decide_eq_true ⟨rfl, rfl, hw⟩]
    · have : p.1 ≠ n := by
        intro hc
        exact hd.1 (List.mem_map.2 ⟨(n, v), h, hc.symm⟩)
      rw [decide_eq_false (fun hc => this hc.1)]
      exact ih hd.2 h

/-- C126, for a whole document: when every object stream that the cross-reference names is an object of the file and holds its objects, each
object it is said to hold is found under its number, and every other object is as it was.  (`hfree`: the cross-reference has one entry per
number, so an object is not both compressed and an object stream, nor in two streams.) -/
theorem C126_document (cfg : Cfg) (hcap : 20 ≤ cfg.cap) (hr : cfg.readRefs = true) (ignore : Bool) (stm : Nat → Res ObjStm)
    (held : Nat → List (Nat × Var)) : ∀ (L : List (Nat × List Nat)) (o : OL POb), SMap.Sorted o.objs →
    (∀ p ∈ L, ∃ off st, o.getObject ⟨p.1, 0⟩ = some (.at off) ∧ stm off = .ok st ∧ HoldsObjs cfg (held p.1) st ∧ ((held p.1).map Prod.fst).Nodup) →
    (∀ p ∈ L, ∀ q ∈ L, p.1 ∉ q.2) → L.Pairwise (fun p q => ∀ n ∈ p.2, n ∉ q.2) →
    ∃ o', readCompressed cfg ignore stm L o = .ok o' ∧ (∀ p ∈ L, ∀ n ∈ p.2, ∀ v, (n, v) ∈ held p.1 → o'.getObject ⟨n, 0⟩ = some (.value v)) ∧
      ∀ r, (∀ p ∈ L, r.gen = 0 → r.num ∉ p.2) → o'.getObject r = o.getObject r
  | [], o, _, _, _, _ => ⟨o, rfl, (fun p hp => by cases hp), fun _ _ => rfl⟩
  | (s, wanted) :: L, o, ho, hst, hfree, hdis => by
    obtain ⟨off, st, h1, h2, h3, h4⟩ := hst (s, wanted) (by simp)
    simp only at h1 h3 h4
    obtain ⟨offs, t1, t2, t3⟩ := h3.table
    obtain ⟨o1, e1, e2, e3⟩ := objStmLoop_ok hcap hr wanted h3.small h3.first (held s) offs st.data o t1 t2 t3 h3.numbers h4 ho
    obtain ⟨o2, ho2⟩ : ∃ o2 : OL POb, o2 = { o1 with streams := s :: o1.streams } := ⟨_, rfl⟩
    have hobjs : o2.objs = o1.objs := by rw [ho2]
    have hs2 : SMap.Sorted o2.objs := by rw [hobjs]; exact e2
    have keep : ∀ r : Ref, (r.gen = 0 → r.num ∉ wanted) → o2.getObject r = o.getObject r := by
      intro r hr'
      have hn : (held s).find? (fun p => decide (p.1 = r.num ∧ r.gen = 0 ∧ p.1 ∈ wanted)) = none := by
        rw [List.find?_eq_none]
        intro p _ hc
        simp only [decide_eq_true_eq] at hc
        exact hr' hc.2.1 (hc.1 ▸ hc.2.2)
      rw [getObject_eq _ _ hs2, hobjs, e3 r, hn, getObject_eq _ _ ho]
    rw [List.pairwise_cons] at hdis
    obtain ⟨o', f1, f2, f3⟩ := C126_document cfg hcap hr ignore stm held L o2 hs2
      (by
        intro p hp
        obtain ⟨off', st', g1, g2, g3, g4⟩ := hst p (by simp [hp])
        refine ⟨off', st', ?_, g2, g3, g4⟩
        rw [keep ⟨p.1, 0⟩ (fun _ => hfree p (by simp [hp]) (s, wanted) (by simp))]
        exact g1)
      (fun p hp q hq => hfree p (by simp [hp]) q (by simp [hq])) hdis.2
    refine ⟨o', ?_, ?_, ?_⟩
    · rw [readCompressed, h1]
      simp only [h2]
      have : parseObjStm cfg st wanted o = .ok o1 := by rw [parseObjStm, h3.count]; exact e1
      rw [this]
      simp only
      rw [← ho2]
      exact f1
    · intro p hp n hn v hv
      rcases List.mem_cons.1 hp with rfl | hp
      · rw [f3 ⟨n, 0⟩ (fun q hq _ => hdis.1 q hq n hn), getObject_eq _ _ hs2, hobjs, e3]
        have := find_wanted h4 hv hn
        simp only at this ⊢
        rw [this]
      · exact f2 p hp n hn v hv
    · intro r hr'
      rw [f3 r (fun p hp => hr' p (by simp [hp]))]
      exact keep r (hr' (s, wanted) (by simp))

/-- An object stream with the objects 3, the number 5, and 4, the array `[7 0 R /A]`. -/
def sampleStm : ObjStm := ⟨2, 8, asciiB "3 0 4 2 5 [ 7 0 R/A]"⟩

/-- What a reference denotes afterwards, as text. -/
def valueAt (r : Res (OL POb)) (n : Nat) : Option Bytes :=
  match r with
  | .error _ => none
  | .ok o => match o.getObject ⟨n, 0⟩ with | some (.value v) => some (text ⟨false, false⟩ v) | _ => none

/-- A list without objects. -/
def noObjs : OL POb := ⟨[], 1, [], [], [], true⟩

/-- Whether reading raised or ended in undefined behaviour. -/
def isFault (r : Res (OL POb)) : Bool := match r with | .error _ => true | .ok _ => false

/-- Non-vacuity: the stream `sampleStm` is one, and object 4 comes out of it when it is wanted. -/
theorem sampleStm_holds : HoldsObjs {} [(3, .num 5), (4, .arr [.ref 7 0, .name [65]])] sampleStm ∧
    valueAt (parseObjStm {} sampleStm [4] noObjs) 4 = some (asciiB "[ 7 0 R/A]") ∧ valueAt (parseObjStm {} sampleStm [4] noObjs) 3 = none := by
  refine ⟨⟨rfl, ⟨[0, 2], rfl, ?_, ?_⟩, by decide +kernel, by decide, by decide⟩, by decide +kernel, by decide +kernel⟩
  · have h2 : StmTable [(4, 2)] (asciiB " 4 2 5 [ 7 0 R/A]") :=
      .cons (a := [32]) (b := [32]) (r := asciiB " 5 [ 7 0 R/A]") (by simp [White, isWhitespace]) (by simp [White, isWhitespace]) (by simp)
        (StartsOk.cons_ws (by decide)) (.nil _)
    exact .cons (a := []) (b := [32]) (r := asciiB " 4 2 5 [ 7 0 R/A]") (by simp [White]) (by simp [White, isWhitespace]) (by simp)
        (StartsOk.cons_ws (by decide)) h2
  · intro p hp
    simp only [List.zip_cons_cons, List.zip_nil_right, List.mem_cons, List.not_mem_nil, or_false] at hp
    rcases hp with rfl | rfl
    · refine ⟨by decide, by decide +kernel, [], ⟨true, true⟩, asciiB " [ 7 0 R/A]", Or.inl rfl, by simp [White], .num _ (by decide) (by decide), by decide,
        StartsOk.cons_ws (by decide), ?_, by decide +kernel⟩
      intro _ a t1 b t2 h1 h2
      have e1 : lex ({} : Cfg).cap (asciiB " [ 7 0 R/A]") = some (⟨[91], .sqL⟩, asciiB " 7 0 R/A]") := by decide +kernel
      rw [e1] at h1; cases h1
      have e2 : lex ({} : Cfg).cap (asciiB " 7 0 R/A]") = some (⟨[55], .literal⟩, asciiB " 0 R/A]") := by decide +kernel
      rw [e2] at h2; cases h2
      decide
    · refine ⟨by decide, by decide +kernel, [], ⟨false, false⟩, [], Or.inr rfl, by simp [White], ?_, by decide, Or.inl rfl, ?_, by decide +kernel⟩
      · refine .arr _ ?_
        intro v hv
        simp only [List.mem_cons, List.not_mem_nil, or_false] at hv
        rcases hv with rfl | rfl
        · exact .ref _ _ (by decide) (by decide)
        · exact .name _ (by decide) (by decide)
      · rintro ⟨n, hn⟩; cases hn

example : ∃ o', readCompressed {} true (fun _ => .ok sampleStm) [(9, [3, 4])] ⟨[(⟨9, 0⟩, .at 100)], 10, [], [], [], true⟩ = .ok o' ∧
    o'.getObject ⟨3, 0⟩ = some (.value (.num 5)) := by
  obtain ⟨o', h1, h2, _⟩ := C126_document {} (by decide) rfl true (fun _ => .ok sampleStm) (fun _ => [(3, .num 5), (4, .arr [.ref 7 0, .name [65]])])
    [(9, [3, 4])] ⟨[(⟨9, 0⟩, .at 100)], 10, [], [], [], true⟩ (by simp [SMap.Sorted])
    (by
      intro p hp
      simp only [List.mem_cons, List.not_mem_nil, or_false] at hp
      subst hp
      exact ⟨100, sampleStm, rfl, rfl, sampleStm_holds.1, by decide⟩)
    (by simp) (by simp)
  exact ⟨o', h1, h2 (9, [3, 4]) (by simp) 3 (by simp) _ (by simp)⟩

/-- C126 is false for objects nobody wants: an object that a later update has replaced is still read, and when it cannot be read the whole
document cannot be loaded.  Here object 3, which is broken, is not wanted. -/
theorem C126_unwanted_object_false : ∃ st : ObjStm, isFault (parseObjStm {} st [4] noObjs) = true ∧
    valueAt (parseObjStm {} { st with n := 1 } [4] noObjs) 4 = some (asciiB " 5") :=
  ⟨⟨2, 8, asciiB "4 0 3 2 5 [ "⟩, by decide +kernel, by decide +kernel⟩

/-- C126 is false when objects are not loaded on demand: as soon as one object came out of an object stream, a null pointer is used. -/
theorem C126_eager_false (load : Nat → Res Unit) (hload : ∀ off, load off = .ok ()) (l : List (Ref × POb)) (r : Ref) (v : Var)
    (h : (r, POb.value v) ∈ l) : loadStreams load l = .error .ub := by
  induction l with
  | nil => cases h
  | cons p l ih =>
    obtain ⟨q, x⟩ := p
    cases x with
    | value w => rw [loadStreams]
    | «at» off =>
      rw [loadStreams, hload]
      simp only
      refine ih ?_
      rcases List.mem_cons.1 h with h | h
      · cases h
      · exact h

/-- C126 is false for a table with a negative offset: the check of the position overflows. -/
theorem C126_negative_offset_false (cfg : Cfg) (st : ObjStm) (off : Int) (h : off < 0) : objStmAt cfg st off = .error .ub := by
  rw [objStmAt, if_pos h]

end Pdfmm
