import Verif.Filters.ChainModel
import Verif.Filters.AsciiProps
/-
Property theorems for filter chains and the filter protocol (C12, C13).
-/
namespace Pdfmm
open Codec

/-! ### Specification -/

/-- A filter that decodes what it encodes, whatever the cuts on either side: C01 and C03 say so of
ASCIIHex and ASCII85; for Flate it is an assumption about zlib. -/
def RoundTrips {σ τ : Type} (enc : Codec σ) (dec : Codec τ) : Prop :=
  ∀ eb : List Bytes, ∃ text, enc.run eb = .ok text ∧
    ∀ db : List Bytes, db.flatten = text → dec.run db = .ok eb.flatten

/-- Protocol state: idle, or between Begin and End of one direction. -/
inductive Spec.Phase
  | idle | encoding | decoding
  deriving DecidableEq, Repr

/-- The protocol: Begin only when idle, Block and End only in their own direction; End and failed
operations lead back to idle. -/
def Spec.protocol (p : Spec.Phase) : FilterCall → Spec.Phase × CallOutcome
  | .beginEncode i _ => if p ≠ .idle then (p, .refused) else if i = .ok then (.encoding, .done) else (.idle, .failed)
  | .beginDecode i _ => if p ≠ .idle then (p, .refused) else if i = .ok then (.decoding, .done) else (.idle, .failed)
  | .encodeBlock i _ => if p ≠ .encoding then (p, .refused) else if i = .ok then (p, .done) else (.idle, .failed)
  | .decodeBlock i _ => if p ≠ .decoding then (p, .refused) else if i = .ok then (p, .done) else (.idle, .failed)
  | .endEncode i f => if p ≠ .encoding then (p, .refused) else if i = .ok ∧ f then (.idle, .done) else (.idle, .failed)
  | .endDecode i f => if p ≠ .decoding then (p, .refused) else if i = .ok ∧ f then (.idle, .done) else (.idle, .failed)

/-- Outcomes of a history of calls according to the protocol. -/
def Spec.protocolRun : Spec.Phase → List FilterCall → List CallOutcome
  | _, [] => []
  | p, c :: cs => (Spec.protocol p c).2 :: Spec.protocolRun (Spec.protocol p c).1 cs

/-- No call of the other direction is made while a direction is open. -/
def Spec.NoMixing : Spec.Phase → List FilterCall → Prop
  | _, [] => True
  | p, c :: cs =>
    (match p, c with
      | .encoding, .decodeBlock _ _ => False
      | .encoding, .endDecode _ _ => False
      | .decoding, .encodeBlock _ _ => False
      | .decoding, .endEncode _ _ => False
      | _, _ => True) ∧ Spec.NoMixing (Spec.protocol p c).1 cs

/-- The output stream can be flushed and nothing but `PdfError` is thrown. -/
def Spec.Ordinary : FilterCall → Prop
  | .beginEncode i f | .encodeBlock i f | .endEncode i f | .beginDecode i f | .decodeBlock i f | .endDecode i f =>
    f = true ∧ i ≠ .otherException

/-! ### C12 -/

/-- What reaches the first codec of a chain when `eb` is written to its top (`fs` above it). -/
private def encChunks : List Filt → List Bytes → Res (List Bytes)
  | [], eb => .ok eb
  | f :: fs, eb =>
    match encChunks fs eb with
    | .error e => .error e
    | .ok bs =>
      match f.enc.writes bs with
      | .error e => .error e
      | .ok o => .ok (nonEmptyWrites o)

private theorem writes_of_run {σ : Type} {c : Codec σ} {bs : List Bytes} {t : Bytes} (h : c.run bs = .ok t) :
    ∃ o, c.writes bs = .ok o ∧ o.flatten = t := by
  unfold run at h
  cases hw : c.writes bs with
  | error e => rw [hw] at h; cases h
  | ok o => rw [hw] at h; exact ⟨o, rfl, by simpa using h⟩

private theorem encChunks_ok (fs : List Filt) (hf : ∀ f ∈ fs, RoundTrips f.enc f.dec) (eb : List Bytes) :
    ∃ bs, encChunks fs eb = .ok bs := by
  induction fs with
  | nil => exact ⟨eb, rfl⟩
  | cons f fs ih =>
    obtain ⟨bs, hbs⟩ := ih (fun g hg => hf g (by simp [hg]))
    obtain ⟨t, ht, -⟩ := hf f (by simp) bs
    obtain ⟨o, ho, -⟩ := writes_of_run ht
    exact ⟨nonEmptyWrites o, by simp only [encChunks, hbs, ho]⟩

private theorem encodeLoop_writes (fs : List Filt) (hf : ∀ f ∈ fs, RoundTrips f.enc f.dec) (acc : AnyCodec)
    (eb bs : List Bytes) (h : encChunks fs eb = .ok bs) :
    (encodeLoop acc fs).codec.writes eb = acc.codec.writes bs := by
  induction fs generalizing acc bs with
  | nil =>
    simp only [encChunks, Except.ok.injEq] at h
    subst h
    rfl
  | cons f fs ih =>
    obtain ⟨bs1, hbs1⟩ := encChunks_ok fs (fun g hg => hf g (by simp [hg])) eb
    simp only [encodeLoop]
    rw [ih (fun g hg => hf g (by simp [hg])) _ bs1 hbs1]
    simp only [encChunks, hbs1] at h
    cases ho : f.enc.writes bs1 with
    | error e => rw [ho] at h; cases h
    | ok o =>
      rw [ho] at h
      simp only [Except.ok.injEq] at h
      subst h
      exact stack_writes _ _ _ _ ho

private theorem decodeLoop_snoc (acc : AnyCodec) (fs : List Filt) (f : Filt) :
    decodeLoop acc (fs ++ [f]) = ⟨_, stack f.dec (decodeLoop acc fs).codec⟩ := by
  induction fs generalizing acc with
  | nil => rfl
  | cons g fs ih => simp only [List.cons_append, decodeLoop]; exact ih _

private theorem createDecode_cons (f g : Filt) (fs : List Filt) :
    ∃ d, createDecodeStream (g :: fs) = .ok d ∧
      createDecodeStream (f :: g :: fs) = .ok ⟨_, stack f.dec d.codec⟩ := by
  unfold createDecodeStream
  cases hr : (g :: fs).reverse with
  | nil => simp at hr
  | cons x rest =>
    refine ⟨_, rfl, ?_⟩
    have : (f :: g :: fs).reverse = x :: (rest ++ [f]) := by
      rw [List.reverse_cons, hr]; rfl
    rw [this]
    simp only
    rw [decodeLoop_snoc]

private theorem decode_chain (fs : List Filt) :
    ∀ (f : Filt) (eb db bs : List Bytes) (text : Bytes), (∀ g ∈ f :: fs, RoundTrips g.enc g.dec) →
      encChunks fs eb = .ok bs → f.enc.run bs = .ok text → db.flatten = text →
      ∃ d, createDecodeStream (f :: fs) = .ok d ∧ d.codec.run db = .ok eb.flatten := by
  induction fs with
  | nil =>
    intro f eb db bs text hf hbs ht hdb
    simp only [encChunks, Except.ok.injEq] at hbs
    subst hbs
    obtain ⟨t, h1, h2⟩ := hf f (by simp) eb
    rw [ht] at h1
    cases h1
    exact ⟨⟨_, f.dec⟩, rfl, h2 db hdb⟩
  | cons g fs ih =>
    intro f eb db bs text hf hbs ht hdb
    obtain ⟨bs1, hbs1⟩ := encChunks_ok fs (fun x hx => hf x (by simp [hx])) eb
    simp only [encChunks, hbs1] at hbs
    obtain ⟨t1, ht1, -⟩ := hf g (by simp) bs1
    obtain ⟨o, ho, hof⟩ := writes_of_run ht1
    rw [ho] at hbs
    simp only [Except.ok.injEq] at hbs
    subst hbs
    -- `f` is undone
    obtain ⟨t, h1, h2⟩ := hf f (by simp) (nonEmptyWrites o)
    rw [ht] at h1
    cases h1
    have hfd := h2 db hdb
    obtain ⟨o2, ho2, hof2⟩ := writes_of_run hfd
    obtain ⟨d, hd1, hd2⟩ := createDecode_cons f g fs
    refine ⟨_, hd2, ?_⟩
    unfold run
    rw [stack_writes _ _ _ _ ho2]
    have hfl : (nonEmptyWrites o2).flatten = t1 := by
      rw [nonEmptyWrites_flatten, hof2, nonEmptyWrites_flatten, hof]
    obtain ⟨d', hd1', hrun⟩ := ih g eb (nonEmptyWrites o2) bs1 t1 (fun x hx => hf x (by simp [hx])) hbs1 ht1 hfl
    rw [hd1] at hd1'
    cases hd1'
    exact hrun

/-- C12. For every non-empty list of round-tripping filters: writing data through
`CreateEncodeStream(filters)` in any pieces never fails, and pushing the resulting bytes in any pieces
through the decoding chain of the same list returns the data. -/
theorem C12_chain_roundtrip (fs : List Filt) (hne : fs ≠ []) (hf : ∀ f ∈ fs, RoundTrips f.enc f.dec)
    (eb : List Bytes) :
    ∃ e d text, createEncodeStream fs = .ok e ∧ createDecodeStream fs = .ok d ∧
      e.codec.run eb = .ok text ∧
      ∀ db : List Bytes, db.flatten = text → d.codec.run db = .ok eb.flatten := by
  cases fs with
  | nil => exact absurd rfl hne
  | cons f fs =>
    obtain ⟨bs, hbs⟩ := encChunks_ok fs (fun g hg => hf g (by simp [hg])) eb
    obtain ⟨text, ht, -⟩ := hf f (by simp) bs
    have he : (encodeLoop ⟨_, f.enc⟩ fs).codec.run eb = .ok text := by
      unfold run
      rw [encodeLoop_writes fs (fun g hg => hf g (by simp [hg])) _ eb bs hbs]
      exact ht
    obtain ⟨d, hd, -⟩ := decode_chain fs f eb [text] bs text hf hbs ht (by simp)
    refine ⟨_, d, text, rfl, hd, he, ?_⟩
    intro db hdb
    obtain ⟨d', hd', hrun⟩ := decode_chain fs f eb db bs text hf hbs ht hdb
    rw [hd] at hd'
    cases hd'
    exact hrun

/-- The two modelled encoders meet the hypothesis, so any mix of them does. -/
theorem C12_ascii_filters_roundtrip :
    RoundTrips hexEnc hexDec ∧ RoundTrips a85Enc a85Dec := ⟨C01_hex_roundtrip, C03_a85_roundtrip⟩

/-- An empty filter list is refused by both. -/
theorem C12_empty_refused :
    createEncodeStream [] = raise .InternalLogic ∧ createDecodeStream [] = raise .InternalLogic := ⟨rfl, rfl⟩

/-- The ASCIIHex filter. -/
def hexFilt : Filt := ⟨_, _, hexEnc, hexDec⟩
/-- The ASCII85 filter. -/
def a85Filt : Filt := ⟨_, _, a85Enc, a85Dec⟩

example (eb : List Bytes) : ∃ e d text, createEncodeStream [a85Filt, hexFilt, a85Filt] = .ok e ∧
    createDecodeStream [a85Filt, hexFilt, a85Filt] = .ok d ∧ e.codec.run eb = .ok text ∧
      ∀ db : List Bytes, db.flatten = text → d.codec.run db = .ok eb.flatten :=
  C12_chain_roundtrip _ (by simp) (by
    intro f hf
    simp only [List.mem_cons, List.not_mem_nil, or_false] at hf
    rcases hf with rfl | rfl | rfl
    · exact C12_ascii_filters_roundtrip.2
    · exact C12_ascii_filters_roundtrip.1
    · exact C12_ascii_filters_roundtrip.2) eb

/-! ### Reading through the decode stream -/

/-- Answers of the underlying stream: end of file is announced exactly once, with the last one. -/
def Spec.EofLast : List (Bytes × Bool) → Prop
  | [] => False
  | [(_, e)] => e = true
  | (_, e) :: r => e = false ∧ Spec.EofLast r

private theorem reads_inv {σ : Type} (c : Codec σ) (ns : List Nat) :
    ∀ (st : BufDec σ) (input : List (Bytes × Bool)) (out : Bytes),
      ((st.inputEof = true ∧ input = [] ∧ out = st.buffer.drop st.offset) ∨
       (st.inputEof = false ∧ Spec.EofLast input ∧ ∃ s o o', 
          c.blocks st.filter (nonEmptyWrites (input.map Prod.fst)) = .ok (s, o) ∧ c.finish s = .ok o' ∧
          out = st.buffer.drop st.offset ++ (o ++ o').flatten)) →
      ∃ d eof, BufDec.reads c st input ns = .ok (d, eof) ∧ d <+: out ∧ (eof = true → d = out) ∧
        ((∀ n ∈ ns, 1 ≤ n) → out.length + input.length < ns.length → eof = true) := by
  induction ns with
  | nil =>
    intro st input out _
    exact ⟨[], false, rfl, List.nil_prefix, by simp, by intro _ h; simp at h⟩
  | cons n ns ih =>
    intro st input out h
    unfold BufDec.reads BufDec.read
    by_cases hoff : st.offset < st.buffer.length
    · rw [if_pos hoff]
      simp only [Bool.false_eq_true, if_false]
      have hsplit : st.buffer.drop st.offset =
          (st.buffer.drop st.offset).take (min n (st.buffer.length - st.offset)) ++
            st.buffer.drop (st.offset + min n (st.buffer.length - st.offset)) := by
        rw [← List.drop_drop, List.take_append_drop]
      obtain ⟨out', hout', hnew⟩ : ∃ out', out = (st.buffer.drop st.offset).take (min n (st.buffer.length - st.offset)) ++ out' ∧
          ((({ st with offset := st.offset + min n (st.buffer.length - st.offset) } : BufDec σ).inputEof = true ∧ input = [] ∧
              out' = st.buffer.drop (st.offset + min n (st.buffer.length - st.offset))) ∨
            (st.inputEof = false ∧ Spec.EofLast input ∧ ∃ s o o', 
              c.blocks st.filter (nonEmptyWrites (input.map Prod.fst)) = .ok (s, o) ∧ c.finish s = .ok o' ∧
              out' = st.buffer.drop (st.offset + min n (st.buffer.length - st.offset)) ++ (o ++ o').flatten)) := by
        rcases h with ⟨h1, h2, h3⟩ | ⟨h1, h2, s, o, o', h3, h4, h5⟩
        · exact ⟨_, by rw [h3]; exact hsplit, Or.inl ⟨h1, h2, rfl⟩⟩
        · refine ⟨st.buffer.drop (st.offset + min n (st.buffer.length - st.offset)) ++ (o ++ o').flatten, ?_,
            Or.inr ⟨h1, h2, s, o, o', h3, h4, rfl⟩⟩
          rw [h5, ← List.append_assoc, ← hsplit]
      obtain ⟨d, eof, hd1, hd2, hd3, hd4⟩ := ih _ input out' hnew
      rw [hd1]
      refine ⟨_, _, rfl, ?_, ?_, ?_⟩
      · rw [hout']; exact List.prefix_append_right_inj _ |>.mpr hd2
      · intro he; rw [hout', hd3 he]
      · intro hpos hlen
        apply hd4 (fun m hm => hpos m (by simp [hm]))
        have hn := hpos n (by simp)
        rw [hout'] at hlen
        simp only [List.length_append, List.length_take, List.length_drop, List.length_cons] at hlen
        omega
    · rw [if_neg hoff]
      have hnil : st.buffer.drop st.offset = [] := List.drop_eq_nil_of_le (by omega)
      rcases h with ⟨h1, h2, h3⟩ | ⟨h1, h2, s, o, o', h3, h4, h5⟩
      · rw [h1]
        simp only [if_true]
        rw [hnil] at h3
        exact ⟨[], true, rfl, List.nil_prefix, fun _ => h3.symm, fun _ _ => rfl⟩
      · rw [h1]
        simp only [Bool.false_eq_true, if_false]
        cases input with
        | nil => exact absurd h2 (by simp [Spec.EofLast])
        | cons r rest =>
          obtain ⟨chunk, e⟩ := r
          simp only
          simp only [List.map_cons] at h3
          have hcat : nonEmptyWrites (chunk :: rest.map Prod.fst) =
              nonEmptyWrites [chunk] ++ nonEmptyWrites (rest.map Prod.fst) := by
            rw [← nonEmptyWrites_append]; rfl
          rw [hcat, blocks_append] at h3
          cases hb : c.blocks st.filter (nonEmptyWrites [chunk]) with
          | error e => rw [hb] at h3; cases h3
          | ok p =>
            obtain ⟨s1, o1⟩ := p
            rw [hb] at h3
            simp only at h3
            cases hb2 : c.blocks s1 (nonEmptyWrites (rest.map Prod.fst)) with
            | error e => rw [hb2] at h3; cases h3
            | ok q =>
              obtain ⟨s2, o2⟩ := q
              rw [hb2] at h3
              simp only [Except.ok.injEq, Prod.mk.injEq] at h3
              obtain ⟨rfl, rfl⟩ := h3
              rw [hnil, List.nil_append] at h5
              simp only
              -- the buffer filled by this read
              obtain ⟨tl, out', htail, hout, hnew⟩ : ∃ tl out',
                  (if e = true then c.finish s1 else .ok []) = .ok tl ∧
                  out = ((o1 ++ tl).flatten).take (min n (o1 ++ tl).flatten.length) ++ out' ∧
                  ((e = true ∧ rest = [] ∧ out' = ((o1 ++ tl).flatten).drop (min n (o1 ++ tl).flatten.length)) ∨
                   (e = false ∧ Spec.EofLast rest ∧ ∃ s o o', 
                      c.blocks s1 (nonEmptyWrites (rest.map Prod.fst)) = .ok (s, o) ∧ c.finish s = .ok o' ∧
                      out' = ((o1 ++ tl).flatten).drop (min n (o1 ++ tl).flatten.length) ++ (o ++ o').flatten)) := by
                cases hrest : rest with
                | nil =>
                  subst hrest
                  have he : e = true := h2
                  subst he
                  simp only [List.map_nil, nonEmptyWrites, List.filter_nil, blocks, Except.ok.injEq,
                    Prod.mk.injEq] at hb2
                  obtain ⟨rfl, rfl⟩ := hb2
                  refine ⟨o', _, h4, ?_, Or.inl ⟨rfl, rfl, rfl⟩⟩
                  rw [List.take_append_drop, h5]
                  simp
                | cons r2 rest2 =>
                  rw [hrest] at h2
                  have he : e = false := h2.1
                  subst he
                  refine ⟨[], (o1.flatten).drop (min n o1.flatten.length) ++ (o2 ++ o').flatten, rfl, ?_,
                    Or.inr ⟨rfl, h2.2, s2, o2, o', ?_, h4, ?_⟩⟩
                  · rw [List.append_nil, ← List.append_assoc, List.take_append_drop, h5]
                    simp
                  · rw [← hrest]; exact hb2
                  · rw [List.append_nil]
              have htail' : (if e = true then c.finish s1 else Except.ok []) = .ok tl := htail
              rw [htail']
              simp only
              obtain ⟨d, eof, hd1, hd2, hd3, hd4⟩ := ih ⟨e, min n (o1 ++ tl).flatten.length, (o1 ++ tl).flatten, s1⟩ rest out' hnew
              rw [hd1]
              refine ⟨_, _, rfl, ?_, ?_, ?_⟩
              · rw [hout]; exact List.prefix_append_right_inj _ |>.mpr hd2
              · intro hee; rw [hout, hd3 hee]
              · intro hpos hlen
                apply hd4 (fun m hm => hpos m (by simp [hm]))
                rw [hout] at hlen
                simp only [List.length_append, List.length_cons] at hlen
                omega

/-- C12, reading side. If pushing the raw pieces through the decoder yields `data`, then a client of the
decode stream reading with any sizes gets, in order, exactly the bytes of `data`: what was delivered is
always a prefix, everything has been delivered when end of file is reported, and with read sizes of at
least 1 end of file is reported after at most `|data| + |pieces| + 1` reads. -/
theorem C12_read_stream {σ : Type} (c : Codec σ) (input : List (Bytes × Bool)) (data : Bytes) (sizes : List Nat)
    (hin : Spec.EofLast input) (hrun : c.run (nonEmptyWrites (input.map Prod.fst)) = .ok data) :
    ∃ d eof, BufDec.reads c (BufDec.init c) input sizes = .ok (d, eof) ∧ d <+: data ∧ (eof = true → d = data) ∧
      ((∀ n ∈ sizes, 1 ≤ n) → data.length + input.length < sizes.length → eof = true) := by
  obtain ⟨o, ho, hof⟩ := writes_of_run hrun
  unfold writes at ho
  cases hb : c.blocks c.start (nonEmptyWrites (input.map Prod.fst)) with
  | error e => rw [hb] at ho; cases ho
  | ok p =>
    obtain ⟨s, o1⟩ := p
    rw [hb] at ho
    simp only at ho
    cases hf : c.finish s with
    | error e => rw [hf] at ho; cases ho
    | ok o2 =>
      rw [hf] at ho
      simp only [Except.ok.injEq] at ho
      subst ho
      exact reads_inv c sizes (BufDec.init c) input data (Or.inr ⟨rfl, hin, s, o1, o2, hb, hf, by simp [BufDec.init, hof]⟩)

example : Spec.EofLast [([0x34, 0x41], false), ([0x34], false), ([0x42], true)] := ⟨rfl, rfl, rfl⟩
example : BufDec.reads hexDec (BufDec.init hexDec) [([0x34, 0x41], false), ([0x34], false), ([0x42], true)]
    [1, 5, 1, 1, 1] = .ok ([0x4A, 0x4B], true) := by decide +kernel

/-! ### C13 -/

/-- C13 is false of the code: after `BeginDecode` the filter accepts `EncodeBlock`. -/
theorem C13_direction_not_checked :
    ¬ ∀ cs : List FilterCall, (∀ c ∈ cs, Spec.Ordinary c) → filterCalls false cs = Spec.protocolRun .idle cs := by
  intro h
  have := h [.beginDecode .ok true, .encodeBlock .ok true] (by simp [Spec.Ordinary])
  exact absurd this (by decide)

/-- C13 is also false when flushing the output stream fails: after a failed operation the filter still
counts as open and refuses the next Begin. -/
theorem C13_flush_failure_blocks :
    filterCalls false [.beginEncode .ok true, .endEncode .ok false, .beginEncode .ok true] =
      [.done, .failed, .refused] ∧
    filterCalls false [.beginDecode .ok true, .decodeBlock .pdfError false, .beginDecode .ok true] =
      [.done, .failed, .refused] ∧
    filterCalls false [.beginDecode .ok true, .endDecode .otherException true, .beginDecode .ok true] =
      [.done, .failed, .refused] := by decide

/-- C13, the part that holds: for every history in which the two directions are not mixed inside one
Begin/End bracket, `Flush` works and only `PdfError`s are thrown, the filter answers every call as the
protocol demands (in particular it refuses calls outside a bracket and can be used again after End or a
failure). -/
theorem C13_protocol_partial (cs : List FilterCall) (ho : ∀ c ∈ cs, Spec.Ordinary c)
    (hm : Spec.NoMixing .idle cs) : filterCalls false cs = Spec.protocolRun .idle cs := by
  suffices H : ∀ (cs : List FilterCall) (p : Spec.Phase), (∀ c ∈ cs, Spec.Ordinary c) → Spec.NoMixing p cs →
      filterCalls (decide (p ≠ .idle)) cs = Spec.protocolRun p cs from H cs .idle ho hm
  intro cs
  induction cs with
  | nil => intro p _ _; rfl
  | cons c cs ih =>
    intro p ho hm
    have hc := ho c (by simp)
    have key : (filterCall (decide (p ≠ .idle)) c) =
        (decide ((Spec.protocol p c).1 ≠ .idle), (Spec.protocol p c).2) := by
      have hm1 := hm.1
      cases c <;> rename_i i f <;> obtain ⟨rfl, hi⟩ := hc <;> cases p <;> cases i <;>
        first | rfl | exact absurd rfl hi | exact absurd hm1 id
    simp only [filterCalls, Spec.protocolRun]
    rw [key]
    exact congrArg _ (ih _ (fun x hx => ho x (by simp [hx])) hm.2)

example : Spec.NoMixing .idle [.encodeBlock .ok true, .beginEncode .ok true, .beginDecode .ok true,
    .encodeBlock .pdfError true, .beginDecode .ok true, .endDecode .ok true] ∧
  filterCalls false [.encodeBlock .ok true, .beginEncode .ok true, .beginDecode .ok true,
    .encodeBlock .pdfError true, .beginDecode .ok true, .endDecode .ok true] =
    [.refused, .done, .refused, .failed, .done, .done] := by
  simp [Spec.NoMixing, Spec.protocol]; decide

end Pdfmm
