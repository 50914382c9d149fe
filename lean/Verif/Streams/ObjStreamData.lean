import Verif.Streams.ObjStreamProps
set_option autoImplicit false
/-!
# Stream objects: setting, appending, copying and moving data

Properties C62 (for histories), C88, C89, C90.
-/
namespace Pdfmm
open Codec
open Spec (Writable nest nestKVs nestArr)

/-! ## Specification -/

/-- The filters data can be encoded with. -/
def Spec.Encodable (f : FilterName) : Prop :=
  f = .ASCIIHexDecode ∨ f = .ASCII85Decode ∨ f = .FlateDecode

/-- One use of an output stream: whether it appends, its filters, and the writes made. -/
structure StreamUse where
  append : Bool
  filters : List FilterName
  pieces : List Bytes

/-- The contents after a history of uses, starting with `b`. -/
def Spec.contents : Bytes → List StreamUse → Bytes
  | b, [] => b
  | b, u :: us => Spec.contents ((if u.append then b else []) ++ u.pieces.flatten) us

/-- The uses carried out one after the other. -/
def StObj.uses (flate : Filt) : StObj → List StreamUse → Res StObj
  | o, [] => .ok o
  | o, u :: us =>
    match o.output flate u.filters u.append u.pieces with
    | (.error e, _) => .error e
    | (.ok (), o') => StObj.uses flate o' us

/-! ## Filters -/

theorem filtEnc_ok (flate : Filt) (hfl : RoundTrips flate.enc flate.dec) (f : FilterName)
    (h : Spec.Encodable f) :
    ∃ c, filtEnc flate f = .ok c ∧ filtDec flate f none = .ok c ∧ RoundTrips c.enc c.dec ∧
      isMedia f = .ok false ∧ ∃ n, filterToName f = .ok n := by
  rcases h with rfl | rfl | rfl
  · exact ⟨hexFilt, rfl, rfl, C12_ascii_filters_roundtrip.1, rfl, _, rfl⟩
  · exact ⟨a85Filt, rfl, rfl, C12_ascii_filters_roundtrip.2, rfl, _, rfl⟩
  · exact ⟨flate, rfl, rfl, hfl, rfl, _, rfl⟩

theorem filtEnc_unsupported (flate : Filt) (f : FilterName) (h : ¬ Spec.Encodable f) :
    filtEnc flate f = raise .UnsupportedFilter := by
  unfold Spec.Encodable at h
  cases f <;> simp at h <;> rfl

theorem filts_ok (flate : Filt) (hfl : RoundTrips flate.enc flate.dec) (fs : List FilterName)
    (h : ∀ f ∈ fs, Spec.Encodable f) :
    ∃ cs, filtsEnc flate fs = .ok cs ∧ filtsDec flate (fs.zip (List.replicate fs.length none)) = .ok cs ∧
      (∀ c ∈ cs, RoundTrips c.enc c.dec) ∧ cs.length = fs.length := by
  induction fs with
  | nil => exact ⟨[], rfl, rfl, by simp, rfl⟩
  | cons f fs ih =>
    obtain ⟨cs, h1, h2, h3, h4⟩ := ih (fun g hg => h g (List.mem_cons_of_mem _ hg))
    obtain ⟨c, k1, k2, k3, -, -⟩ := filtEnc_ok flate hfl f (h f List.mem_cons_self)
    refine ⟨c :: cs, by simp only [filtsEnc, k1, h1], ?_, ?_, by simp [h4]⟩
    · simp only [List.length_cons, List.replicate_succ, List.zip_cons_cons, filtsDec, k2, h2]
    · intro d hd
      rcases List.mem_cons.mp hd with rfl | hd
      · exact k3
      · exact h3 d hd

theorem filtsEnc_unsupported (flate : Filt) (fs : List FilterName) (h : ∃ f ∈ fs, ¬ Spec.Encodable f) :
    filtsEnc flate fs = raise .UnsupportedFilter := by
  induction fs with
  | nil => obtain ⟨f, hf, -⟩ := h; cases hf
  | cons f fs ih =>
    by_cases hf : Spec.Encodable f
    · have hr : ∃ f ∈ fs, ¬ Spec.Encodable f := by
        obtain ⟨g, hg, hn⟩ := h
        rcases List.mem_cons.mp hg with rfl | hg
        · exact absurd hf hn
        · exact ⟨g, hg, hn⟩
      have : ∃ c, filtEnc flate f = .ok c := by
        rcases hf with rfl | rfl | rfl <;> exact ⟨_, rfl⟩
      obtain ⟨c, hc⟩ := this
      simp only [filtsEnc, hc, ih hr, raise]
    · simp only [filtsEnc, filtEnc_unsupported flate f hf, raise]

theorem stripMedia_ok (fs reg : List FilterName) (h : ∀ f ∈ fs, isMedia f = .ok false) :
    stripMedia fs reg [] = .ok (reg ++ fs, []) := by
  induction fs generalizing reg with
  | nil => simp [stripMedia]
  | cons f fs ih =>
    simp only [stripMedia, h f List.mem_cons_self, ne_eq, not_true, if_false]
    rw [ih _ (fun g hg => h g (List.mem_cons_of_mem _ hg))]
    simp

theorem filterNames_ok (fs : List FilterName) (h : ∀ f ∈ fs, ∃ n, filterToName f = .ok n) :
    ∃ names : List String, fs.map filterToName = names.map .ok ∧
      filterNames fs = .ok (names.map (fun n => .name (litBytes n))) := by
  induction fs with
  | nil => exact ⟨[], rfl, rfl⟩
  | cons f fs ih =>
    obtain ⟨names, h1, h2⟩ := ih (fun g hg => h g (List.mem_cons_of_mem _ hg))
    obtain ⟨n, hn⟩ := h f List.mem_cons_self
    exact ⟨n :: names, by simp [hn, h1], by simp only [filterNames, hn, h2]; rfl⟩

theorem setFilterKey_ok (d : List (Bytes × Var)) (hs : SMap.Sorted d) (fs : List FilterName)
    (h : ∀ f ∈ fs, ∃ n, filterToName f = .ok n) :
    ∃ d', setFilterKey d fs = .ok d' ∧ Spec.FilterEntry d' fs ∧ SMap.Sorted d' ∧
      (∀ k, k ≠ kFilter → SMap.find? k d' = SMap.find? k d) ∧
      (d' = SMap.erase kFilter d ∨ (∃ n, d' = SMap.insert kFilter (.name (litBytes n)) d ∧ fs.map filterToName = [.ok n]) ∨
        ∃ names, d' = SMap.insert kFilter (.arr (List.map (fun n => .name (litBytes n)) names)) d ∧
          fs.map filterToName = List.map .ok names) := by
  obtain ⟨names, h1, h2⟩ := filterNames_ok fs h
  match names, h1, h2 with
  | [], h1, h2 =>
    refine ⟨SMap.erase kFilter d, by simp only [setFilterKey, h2]; rfl, ⟨[], h1, ?_⟩, SMap.sorted_erase _ hs, ?_,
      Or.inl rfl⟩
    · show SMap.find? kFilter _ = none
      rw [SMap.find_erase _ _ hs, if_pos rfl]
    · intro k hk; rw [SMap.find_erase _ _ hs, if_neg hk]
  | [n], h1, h2 =>
    refine ⟨SMap.insert kFilter (.name (litBytes n)) d, by simp only [setFilterKey, h2]; rfl, ⟨[n], h1, ?_⟩,
      SMap.sorted_insert _ _ _ hs, ?_, Or.inr (Or.inl ⟨n, rfl, h1⟩)⟩
    · exact Or.inl (SMap.find_insert_self _ _ _)
    · intro k hk; exact SMap.find_insert_ne _ _ hk
  | n :: m :: l, h1, h2 =>
    refine ⟨SMap.insert kFilter (.arr ((n :: m :: l).map (fun n => .name (litBytes n)))) d,
      by simp only [setFilterKey, h2]; rfl, ⟨n :: m :: l, h1, ?_⟩, SMap.sorted_insert _ _ _ hs, ?_,
      Or.inr (Or.inr ⟨_, rfl, h1⟩)⟩
    · exact SMap.find_insert_self _ _ _
    · intro k hk; exact SMap.find_insert_ne _ _ hk

theorem encodePieces_ok (flate : Filt) (hfl : RoundTrips flate.enc flate.dec) (fs : List FilterName)
    (h : ∀ f ∈ fs, Spec.Encodable f) (pieces : List Bytes) :
    ∃ b, encodePieces flate fs pieces = .ok b ∧
      ∀ d, SMap.find? kDecodeParms d = none → ∀ lk,
        (⟨d, b, fs, lk⟩ : StObj).copyTo flate = .ok pieces.flatten := by
  by_cases hne : fs = []
  · subst hne
    exact ⟨pieces.flatten, by simp [encodePieces], by intro d _ lk; simp [StObj.copyTo]⟩
  · obtain ⟨cs, h1, h2, h3, h4⟩ := filts_ok flate hfl fs h
    have hcs : cs ≠ [] := by
      intro e; rw [e] at h4; exact hne (List.length_eq_zero_iff.mp h4.symm)
    obtain ⟨e, dd, tx, k1, k2, k3, k4⟩ := C12_chain_roundtrip cs hcs h3 pieces
    refine ⟨tx, by simp only [encodePieces, if_neg hne, h1, k1, k3], ?_⟩
    intro d hd lk
    have hm : stripMedia fs [] [] = .ok (fs, []) := by
      have := stripMedia_ok fs [] (fun f hf => by
        obtain ⟨_, _, _, _, hm, _⟩ := filtEnc_ok flate hfl f (h f hf); exact hm)
      simpa using this
    have hp : decodeParms (⟨d, tx, fs, lk⟩ : StObj) = .ok (List.replicate fs.length none) := by
      simp only [decodeParms, hd]
    simp only [StObj.copyTo, if_neg hne, hp, hm, ne_eq, not_true, if_false, h2, k2]
    exact k4 [tx] (by simp)

/-! ## C88 -/

/-- **C88** (one use). Writing any pieces through an output stream with any encodable filters, replacing
or appending, succeeds, and decoding then gives the old contents (when appending) followed by the
pieces; /Filter says which filters were used and the other keys are untouched. Missing: objects with
a /DecodeParms entry, see `C88_stale_parms_false` and `C88_parms_overrun_false`. -/
theorem C88_use_partial (flate : Filt) (hfl : RoundTrips flate.enc flate.dec) (o : StObj)
    (hlk : o.locked = false) (hs : SMap.Sorted o.dict) (hp : SMap.find? kDecodeParms o.dict = none)
    (u : StreamUse) (hu : ∀ f ∈ u.filters, Spec.Encodable f) (old : Bytes)
    (hold : o.copyTo flate = .ok old) :
    ∃ o', o.output flate u.filters u.append u.pieces = (.ok (), o') ∧
      o'.copyTo flate = .ok ((if u.append then old else []) ++ u.pieces.flatten) ∧
      o'.filters = u.filters ∧ Spec.FilterEntry o'.dict u.filters ∧
      (∀ k, k ≠ kFilter → SMap.find? k o'.dict = SMap.find? k o.dict) ∧
      o'.locked = false ∧ SMap.Sorted o'.dict := by
  obtain ⟨d', d1, d2, d3, d4, -⟩ := setFilterKey_ok o.dict hs u.filters
    (fun f hf => by obtain ⟨_, _, _, _, _, hn⟩ := filtEnc_ok flate hfl f (hu f hf); exact hn)
  have hp' : SMap.find? kDecodeParms d' = none := by rw [d4 _ (by decide), hp]
  have key : ∀ old' : Bytes, (if u.append then o.copyTo flate else .ok []) = .ok old' →
      ∃ o', o.output flate u.filters u.append u.pieces = (.ok (), o') ∧
        o'.copyTo flate = .ok (old' ++ u.pieces.flatten) ∧ o' = ⟨d', o'.buf, u.filters, false⟩ := by
    intro old' h'
    obtain ⟨b, b1, b2⟩ := encodePieces_ok flate hfl u.filters hu (if old'.length = 0 then u.pieces else old' :: u.pieces)
    refine ⟨⟨d', b, u.filters, false⟩, ?_, ?_, rfl⟩
    · simp only [StObj.output, hlk, h', b1, d1]
      simp
    · rw [b2 d' hp' false]
      split
      · rename_i h0
        rw [List.length_eq_zero_iff.mp h0]
        rfl
      · rfl
  obtain ⟨o', k1, k2, k3⟩ := key (if u.append then old else []) (by cases u.append <;> simp [hold])
  refine ⟨o', k1, k2, ?_, ?_, ?_, ?_, ?_⟩
  · rw [k3]
  · rw [k3]; exact d2
  · rw [k3]; exact d4
  · rw [k3]
  · rw [k3]; exact d3

/-- **C88** (histories). After any history of replacing and appending uses, decoding gives what a
plain buffer would hold. -/
theorem C88_history_partial (flate : Filt) (hfl : RoundTrips flate.enc flate.dec) (us : List StreamUse)
    (hus : ∀ u ∈ us, ∀ f ∈ u.filters, Spec.Encodable f) (o : StObj) (hlk : o.locked = false)
    (hs : SMap.Sorted o.dict) (hp : SMap.find? kDecodeParms o.dict = none) (b : Bytes)
    (hb : o.copyTo flate = .ok b) :
    ∃ o', o.uses flate us = .ok o' ∧ o'.copyTo flate = .ok (Spec.contents b us) ∧
      o'.locked = false ∧ SMap.find? kDecodeParms o'.dict = none := by
  induction us generalizing o b with
  | nil => exact ⟨o, rfl, hb, hlk, hp⟩
  | cons u us ih =>
    obtain ⟨o1, h1, h2, -, -, h5, h6, h7⟩ := C88_use_partial flate hfl o hlk hs hp u
      (hus u List.mem_cons_self) b hb
    obtain ⟨o', k1, k2⟩ := ih (fun v hv => hus v (List.mem_cons_of_mem _ hv)) o1 h6 h7
      (by rw [h5 _ (by decide), hp]) _ h2
    exact ⟨o', by simp only [StObj.uses, h1]; exact k1, k2⟩

theorem nestArr_names (names : List String) : nestArr (List.map (fun n => Var.name (litBytes n)) names) = 0 := by
  induction names with
  | nil => simp [nestArr]
  | cons n names ih => simp [nestArr, nest, ih]

theorem output_saveable (flate : Filt) (hfl : RoundTrips flate.enc flate.dec) (o o' : StObj)
    (hw : Writable 4095 (.dict o.dict)) (hn : nest (.dict o.dict) < 256) (u : StreamUse)
    (hu : ∀ f ∈ u.filters, Spec.Encodable f)
    (h : o.output flate u.filters u.append u.pieces = (.ok (), o')) :
    Writable 4095 (.dict o'.dict) ∧ nest (.dict o'.dict) < 256 ∧ Spec.FilterEntry o'.dict o'.filters := by
  have hsrt : SMap.Sorted o.dict := by cases hw with | dict _ hs _ _ => exact hs
  obtain ⟨d', d1, d2, d3, d4, d5⟩ := setFilterKey_ok o.dict hsrt u.filters
    (fun f hf => by obtain ⟨_, _, _, _, _, hn⟩ := filtEnc_ok flate hfl f (hu f hf); exact hn)
  have ho : o'.dict = d' ∧ o'.filters = u.filters := by
    unfold StObj.output at h
    split at h
    · cases h
    · split at h
      · cases h
      · split at h
        · cases h
        · rw [d1] at h
          cases h
          exact ⟨rfl, rfl⟩
  rw [ho.1, ho.2]
  have hlit : ∀ (fs : List FilterName) (names : List String), fs.map filterToName = names.map .ok →
      (∀ f ∈ fs, Spec.Encodable f) → ∀ n ∈ names, Writable 4095 (.name (litBytes n)) := by
    intro fs
    induction fs with
    | nil => intro names h _ n hn; cases names with
      | nil => cases hn
      | cons _ _ => simp at h
    | cons f fs ih =>
      intro names h he n hn
      cases names with
      | nil => cases hn
      | cons m names =>
        simp only [List.map_cons, List.cons.injEq] at h
        rcases List.mem_cons.mp hn with rfl | hn
        · rcases he f List.mem_cons_self with rfl | rfl | rfl <;>
            (have h1 := h.1; simp only [filterToName] at h1; cases h1; exact .name _ (by decide) (by decide))
        · exact ih names h.2 (fun g hg => he g (List.mem_cons_of_mem _ hg)) n hn
  rcases d5 with rfl | ⟨n, rfl, hn1⟩ | ⟨names, rfl, hn1⟩
  · refine ⟨?_, ?_, d2⟩
    · cases hw with
      | dict _ hs hk hv =>
        exact .dict _ d3 (fun p hp => hk p (SMap.mem_erase hp)) (fun p hp => hv p (SMap.mem_erase hp))
    · rw [nest] at *
      have h1 : nestKVs o.dict ≤ 254 := by omega
      have : nestKVs (SMap.erase kFilter o.dict) ≤ 254 := by
        rw [nestKVs_le_iff] at *
        intro p hp
        exact h1 p (SMap.mem_erase hp)
      omega
  · refine ⟨mem_find_insert_writable hw _ _ (by decide) ?_, ?_, d2⟩
    · exact hlit u.filters [n] (by simpa using hn1) hu n (by simp)
    · have := nest_insert kFilter (.name (litBytes n)) o.dict 255 (by simp [nest]) (by omega)
      omega
  · refine ⟨mem_find_insert_writable hw _ _ (by decide) ?_, ?_, d2⟩
    · refine .arr _ ?_
      intro v hv
      obtain ⟨n, hn, rfl⟩ := List.mem_map.mp hv
      exact hlit u.filters names hn1 hu n hn
    · have h0 := nestArr_names names
      have := nest_insert kFilter (.arr (List.map (fun n => Var.name (litBytes n)) names)) o.dict 255
        (by rw [nest, h0]; omega) (by omega)
      omega

theorem uses_saveable (flate : Filt) (hfl : RoundTrips flate.enc flate.dec) (us : List StreamUse)
    (hus : ∀ u ∈ us, ∀ f ∈ u.filters, Spec.Encodable f) (o o' : StObj)
    (hw : Writable 4095 (.dict o.dict)) (hn : nest (.dict o.dict) < 256)
    (hf : Spec.FilterEntry o.dict o.filters) (h : o.uses flate us = .ok o') :
    Writable 4095 (.dict o'.dict) ∧ nest (.dict o'.dict) < 256 ∧ Spec.FilterEntry o'.dict o'.filters := by
  induction us generalizing o with
  | nil => simp only [StObj.uses] at h; cases h; exact ⟨hw, hn, hf⟩
  | cons u us ih =>
    simp only [StObj.uses] at h
    split at h
    · cases h
    · rename_i o1 h1
      obtain ⟨a, b, c⟩ := output_saveable flate hfl o o1 hw hn u (hus u List.mem_cons_self) h1
      exact ih (fun v hv => hus v (List.mem_cons_of_mem _ hv)) o1 a b c h

/-- **C62** (whole life). A stream object without /DecodeParms goes through any history of replacing
and appending uses, is saved, and is read from the file: decoding what was read gives what a plain
buffer would hold. Missing: see `C62_write_read_partial`. -/
theorem C62_history_save_partial (flate : Filt) (hfl : RoundTrips flate.enc flate.dec) (us : List StreamUse)
    (hus : ∀ u ∈ us, ∀ f ∈ u.filters, Spec.Encodable f) (o : StObj) (hlk : o.locked = false)
    (ho : Spec.Saveable o) (hp : SMap.find? kDecodeParms o.dict = none) (b : Bytes)
    (hb : o.copyTo flate = .ok b) (isMeta : Bool) (s : SaveOpts)
    (hs : s.flags.clean = true ∨ s.flags.noInline = false) (r : Ref) (hr : Spec.IsRef r) (rest : Bytes) :
    ∃ o', o.uses flate us = .ok o' ∧
      (o'.buf.length < 9223372036854775808 →
       (s.noCompress = true ∨ o'.filters ≠ [] ∨ isMeta = true) →
       ∃ t o'' o2, o'.write flate isMeta s r = .ok (t, o'') ∧
        loadObject {} (t ++ rest) = .ok (r, .stream o2) ∧
        o2.copyTo flate = .ok (Spec.contents b us)) := by
  have hsrt : SMap.Sorted o.dict := by cases ho.writable with | dict _ hs _ _ => exact hs
  obtain ⟨o', h1, h2, -, -⟩ := C88_history_partial flate hfl us hus o hlk hsrt hp b hb
  refine ⟨o', h1, ?_⟩
  intro hsz hc
  obtain ⟨a1, a2, a3⟩ := uses_saveable flate hfl us hus o o' ho.writable ho.depth ho.filters h1
  obtain ⟨t, o'', o2, k1, k2, -, -, -, -, -, -, -, k3⟩ := C62_write_read_partial flate isMeta s hs r hr o'
    ⟨a1, a2, a3, hsz⟩ hc rest
  exact ⟨t, o'', o2, k1, k2, by rw [k3, h2]⟩

/-! ### Decode parameters left behind -/

theorem predSwitch_shape (cfg : PredCfg) (st st' : PredState) (b : Byte) (h : predSwitch cfg st b = .ok st') :
    st'.row = st.row ∧ st'.prev.length = st.prev.length := by
  have hsub : ∀ st', predSub cfg st b = .ok st' → st'.row = st.row ∧ st'.prev.length = st.prev.length := by
    intro st' h
    unfold predSub at h
    split at h
    · cases h
    · split at h
      · cases h; simp
      · cases h
  unfold predSwitch at h
  split at h
  · split at h
    · exact hsub _ h
    · cases h
  split at h
  · split at h
    · cases h; simp
    · cases h
  split at h
  · exact hsub _ h
  split at h
  · split at h
    · cases h
    · cases h; simp
  split at h
  · split at h
    · cases h
    · split at h
      · cases h
      · cases h; simp
  split at h
  · split at h
    · cases h
    · split at h
      · cases h
      · split at h
        · cases h
        · split at h
          · cases h
          · cases h; simp
  split at h
  · cases h
  · cases h; simp

theorem predLoop_length (cfg : PredCfg) (st0 : PredState) (bs : Bytes) (st s' : PredState) (o : List Bytes)
    (hrow : st.row < cfg.rows) (hprev : st.prev.length = cfg.rows)
    (h : (predStepper cfg st0).loop st bs = .ok (s', o)) :
    o.flatten.length + s'.row + (if st.next ∧ bs ≠ [] then 1 else 0) ≤ st.row + bs.length := by
  induction bs generalizing st o with
  | nil =>
    simp only [Stepper.loop] at h
    cases h
    simp
  | cons b bs ih =>
    simp only [Stepper.loop] at h
    have hs : (predStepper cfg st0).step st b = predStep cfg st b := rfl
    rw [hs] at h
    have key : ∀ st1 o1, predStep cfg st b = .ok (st1, o1) →
        st1.row < cfg.rows ∧ st1.prev.length = cfg.rows ∧
        o1.flatten.length + st1.row + (if st.next then 1 else 0) ≤ st.row + 1 := by
      intro st1 o1 h1
      unfold predStep at h1
      cases hn : st.next with
      | true =>
        simp only [hn, if_true] at h1
        rw [if_neg (by simp; omega)] at h1
        cases h1
        simp
        exact ⟨hrow, hprev⟩
      | false =>
        simp only [hn] at h1
        cases hsw : predSwitch cfg st b with
        | error e => simp [hsw] at h1
        | ok st2 =>
          obtain ⟨q1, q2⟩ := predSwitch_shape cfg st st2 b hsw
          simp only [hsw] at h1
          simp only [Bool.false_eq_true, if_false] at h1
          split at h1
          · cases h1
            rename_i hge
            simp
            refine ⟨by omega, by omega, by omega⟩
          · cases h1
            rename_i hge
            simp
            refine ⟨by omega, by omega, by omega⟩
    cases hst : predStep cfg st b with
    | error e => rw [hst] at h; cases h
    | ok p =>
      obtain ⟨st1, o1⟩ := p
      rw [hst] at h
      simp only at h
      obtain ⟨k1, k2, k3⟩ := key st1 o1 hst
      cases hl : (predStepper cfg st0).loop st1 bs with
      | error e => rw [hl] at h; cases h
      | ok q =>
        obtain ⟨s2, o2⟩ := q
        rw [hl] at h
        cases h
        have := ih st1 o2 k1 k2 hl
        simp only [List.flatten_append, List.length_append, List.length_cons]
        have h3 : (if st.next = true ∧ b :: bs ≠ [] then 1 else 0) = (if st.next = true then 1 else 0) := by simp
        rw [h3]
        omega

theorem predRun_shorter (p : PredParams) (cfg : PredCfg) (st0 : PredState) (h : predInit p = .ok (cfg, st0))
    (hp : 10 ≤ toInt32 p.predictor) (bs : List Bytes) (hne : bs.flatten ≠ []) (out : Bytes)
    (hr : (predDec cfg st0).run bs = .ok out) : out.length < bs.flatten.length := by
  have hcfg : cfg.predictor = toInt32 p.predictor ∧ st0.row = 0 ∧ st0.next = true ∧
      1 ≤ cfg.rows ∧ st0.prev.length = cfg.rows := by
    unfold predInit at h
    simp only at h
    split at h
    · cases h
    · split at h
      · cases h
      · split at h
        · cases h
        · split at h
          · cases h
          · split at h
            · cases h
            · cases h
              simp
              omega
  obtain ⟨c1, c2, c3, c4, c5⟩ := hcfg
  unfold predDec at hr
  rw [if_neg (by omega)] at hr
  unfold run at hr
  rw [ofStepper_writes] at hr
  have hst : (predStepper cfg st0).start = st0 := rfl
  rw [hst] at hr
  cases hl : (predStepper cfg st0).loop st0 bs.flatten with
  | error e => rw [hl] at hr; cases hr
  | ok q =>
    obtain ⟨s, o⟩ := q
    rw [hl] at hr
    have hfin : (predStepper cfg st0).finish s = .ok [] := rfl
    simp only [hfin, List.append_nil] at hr
    cases hr
    have := predLoop_length cfg st0 bs.flatten st0 s o (by omega) c5 hl
    rw [if_pos ⟨c3, hne⟩] at this
    omega

/-- The key `Predictor`. -/
def kPredictor : Bytes := [80, 114, 101, 100, 105, 99, 116, 111, 114]

/-- **C88** fails: replacing the data of a stream leaves /DecodeParms behind. When it names a PNG
predictor, no non-empty data set with the default filter is read back. -/
theorem C88_stale_parms_false (flate : Filt) (hfl : RoundTrips flate.enc flate.dec) (o : StObj)
    (hlk : o.locked = false) (hs : SMap.Sorted o.dict) (p : List (Bytes × Var))
    (hp : SMap.find? kDecodeParms o.dict = some (.dict p)) (n : Int)
    (hn : SMap.find? kPredictor p = some (.num n)) (h1 : 10 ≤ n) (h2 : n ≤ 15) (data : Bytes)
    (hd : data ≠ []) :
    ∃ o', o.output flate [.FlateDecode] false [data] = (.ok (), o') ∧ o'.copyTo flate ≠ .ok data := by
  obtain ⟨d', d1, d2, d3, d4, -⟩ := setFilterKey_ok o.dict hs [.FlateDecode]
    (fun f hf => by rw [List.mem_singleton.mp hf]; exact ⟨_, rfl⟩)
  obtain ⟨tx, t1, t2⟩ := hfl [data]
  have he : encodePieces flate [.FlateDecode] [data] = .ok tx := by
    simp only [encodePieces, filtsEnc, filtEnc, createEncodeStream, encodeLoop]
    exact t1
  refine ⟨⟨d', tx, [.FlateDecode], false⟩, ?_, ?_⟩
  · simp [StObj.output, hlk, he, d1]
  intro hc
  have hp' : SMap.find? kDecodeParms d' = some (.dict p) := by rw [d4 _ (by decide), hp]
  have hdp : decodeParms (⟨d', tx, [.FlateDecode], false⟩ : StObj) = .ok [some p] := by
    simp [decodeParms, hp']
  have hm : stripMedia [.FlateDecode] [] [] = .ok ([.FlateDecode], []) := rfl
  simp only [StObj.copyTo, hdp, hm] at hc
  simp only [List.cons_ne_nil, if_false, ne_eq, not_true, List.zip_cons_cons, List.zip_nil_right, filtsDec, filtDec,
    withPredictor] at hc
  cases hpp : predParams p with
  | error e => simp [hpp] at hc
  | ok pp =>
  simp only [hpp] at hc
  cases hi : predInit pp with
  | error e => simp [hi] at hc
  | ok q =>
    obtain ⟨cfg, st0⟩ := q
    simp only [hi, createDecodeStream, List.reverse_cons, List.reverse_nil, List.nil_append, decodeLoop] at hc
    have hrun := t2 [tx] (by simp)
    unfold run at hrun
    cases hw : flate.dec.writes [tx] with
    | error e => rw [hw] at hrun; cases hrun
    | ok w =>
      rw [hw] at hrun
      have hwf : w.flatten = data := by simpa using hrun
      unfold run at hc
      rw [stack_writes _ _ _ _ hw] at hc
      have hnf : (nonEmptyWrites w).flatten = data := by rw [nonEmptyWrites_flatten, hwf]
      have hpr : toInt32 pp.predictor = n := by
        have : pp.predictor = n := by
          have h0 : intParm p kPredictor 1 = .ok n := by simp [intParm, hn]
          unfold predParams at hpp
          change (intParm p kPredictor 1 >>= _) = _ at hpp
          rw [h0] at hpp
          simp only [bind, Except.bind] at hpp
          repeat (split at hpp; · cases hpp)
          cases hpp
          rfl
        rw [this]
        unfold toInt32
        simp only
        rw [if_pos (by omega)]
        omega
      have := predRun_shorter pp cfg st0 hi (by omega) (nonEmptyWrites w) (by rw [hnf]; exact hd) data
        (by unfold run; exact hc)
      rw [hnf] at this
      omega

theorem parmsArr_overrun (l : List Var) (n i : Nat) (acc : List (Option (List (Bytes × Var))))
    (h : ∃ j d, l[j]? = some (.dict d) ∧ n ≤ i + j) : parmsArr n i l acc = .error .ub := by
  induction l generalizing i acc with
  | nil => obtain ⟨j, d, h, -⟩ := h; simp at h
  | cons v l ih =>
    obtain ⟨j, d, h1, h2⟩ := h
    cases j with
    | zero =>
      simp at h1
      subst h1
      simp only [parmsArr]
      rw [if_pos (by omega)]
    | succ j =>
      have hr : ∃ j d, l[j]? = some (.dict d) ∧ n ≤ (i + 1) + j := ⟨j, d, by simpa using h1, by omega⟩
      cases v with
      | dict d' =>
        simp only [parmsArr]
        split
        · rfl
        · exact ih (i + 1) _ hr
      | _ => simp only [parmsArr]; exact ih (i + 1) _ hr

/-- **C88** fails: with a /DecodeParms array that has a dictionary at an index beyond the filters,
reading the stream writes outside a vector. Replacing the data by data with fewer filters leaves such
an array behind. -/
theorem C88_parms_overrun_false (flate : Filt) (o : StObj) (hf : o.filters ≠ []) (l : List Var)
    (hp : SMap.find? kDecodeParms o.dict = some (.arr l)) (j : Nat) (d : List (Bytes × Var))
    (hj : l[j]? = some (.dict d)) (hlen : o.filters.length ≤ j) : o.copyTo flate = .error .ub := by
  have : decodeParms o = .error .ub := by
    simp only [decodeParms, hp]
    exact parmsArr_overrun l _ 0 _ ⟨j, d, hj, by omega⟩
  simp only [StObj.copyTo, if_neg hf, this]

/-- Non-vacuity: an object whose stale parameters name a PNG predictor, and a history of uses. -/
example : SMap.find? kDecodeParms [(kDecodeParms, Var.dict [(kPredictor, .num 12)])] =
      some (.dict [(kPredictor, .num 12)]) ∧ SMap.find? kPredictor [(kPredictor, Var.num 12)] = some (.num 12) ∧
    (∀ u ∈ [(⟨false, [.ASCIIHexDecode, .FlateDecode], [[1], [2, 3]]⟩ : StreamUse), ⟨true, [], [[4]]⟩],
      ∀ f ∈ u.filters, Spec.Encodable f) ∧
    Spec.contents [9] [⟨false, [.ASCIIHexDecode, .FlateDecode], [[1], [2, 3]]⟩, ⟨true, [], [[4]]⟩] = [1, 2, 3, 4] := by
  refine ⟨by simp [SMap.find?], by simp [SMap.find?], ?_, by decide⟩
  simp [Spec.Encodable]

/-! ## C89 -/

/-- **C89** fails: setting data with a filter that cannot encode raises an error, but the old data is
gone, while the old /Filter and filter list stay. True for every object, every such filter list and
all data. -/
theorem C89_failed_set_false (flate : Filt) (o : StObj) (hlk : o.locked = false) (fs : List FilterName)
    (hf : ∃ f ∈ fs, ¬ Spec.Encodable f) (pieces : List Bytes) :
    o.output flate fs false pieces = (raise .UnsupportedFilter, { o with buf := [] }) := by
  have hne : fs ≠ [] := by rintro rfl; obtain ⟨f, hf, -⟩ := hf; cases hf
  simp [StObj.output, hlk, encodePieces, if_neg hne, filtsEnc_unsupported flate fs hf, raise]

/-- **C89** (proved part). Two kinds of failure leave the object as it was: when it is in use, and when
its old contents cannot be decoded before appending. With encodable filters nothing fails
(`C88_use_partial`). Missing: `C89_failed_set_false`. -/
theorem C89_failed_use_partial (flate : Filt) (o : StObj) (fs : List FilterName) (append : Bool)
    (pieces : List Bytes) :
    (o.locked = true → o.output flate fs append pieces = (raise .InternalLogic, o)) ∧
    (∀ e, o.locked = false → append = true → o.copyTo flate = .error e →
      o.output flate fs append pieces = (.error e, o)) := by
  refine ⟨fun h => by simp [StObj.output, h], ?_⟩
  intro e h1 h2 h3
  subst h2
  simp [StObj.output, h1, h3]

/-- Non-vacuity: run-length encoding cannot be written. -/
example : ¬ Spec.Encodable .RunLengthDecode ∧ ¬ Spec.Encodable .DCTDecode := by
  constructor <;> simp [Spec.Encodable]

/-! ## C90 -/

theorem find_copyEntry (k k0 : Bytes) (src dst : List (Bytes × Var)) (hs : SMap.Sorted dst) :
    SMap.find? k0 (copyEntry k src dst) = if k0 = k then SMap.find? k src else SMap.find? k0 dst := by
  unfold copyEntry
  cases h : SMap.find? k src with
  | none => rw [SMap.find_erase _ _ hs]
  | some v => rw [SMap.find_insert]

theorem sorted_copyEntry (k : Bytes) (src dst : List (Bytes × Var)) (hs : SMap.Sorted dst) :
    SMap.Sorted (copyEntry k src dst) := by
  unfold copyEntry
  cases h : SMap.find? k src with
  | none => exact SMap.sorted_erase _ hs
  | some v => exact SMap.sorted_insert _ _ _ hs

/-- **C90** (copying). The target decodes to what the source decodes to, stores the same bytes under
the same filters, and keeps its other keys; the source is not touched. -/
theorem C90_copy (flate : Filt) (o src : StObj) (hlk : o.locked = false) (hs : SMap.Sorted o.dict) :
    ∃ o', o.copyFrom src = (.ok (), o') ∧ o'.copyTo flate = src.copyTo flate ∧ o'.buf = src.buf ∧
      o'.filters = src.filters ∧ SMap.find? kFilter o'.dict = SMap.find? kFilter src.dict ∧
      (∀ k, k ≠ kFilter → k ≠ kDecodeParms → SMap.find? k o'.dict = SMap.find? k o.dict) := by
  have h1 := sorted_copyEntry kFilter src.dict o.dict hs
  refine ⟨{ o with
      dict := copyEntry kDecodeParms src.dict (copyEntry kFilter src.dict o.dict)
      buf := src.buf
      filters := src.filters },
    by rw [StObj.copyFrom, if_neg (by simp [hlk])], ?_, rfl, rfl, ?_, ?_⟩
  · refine copyTo_congr flate src _ rfl rfl ?_
    show SMap.find? kDecodeParms (copyEntry kDecodeParms _ _) = _
    rw [find_copyEntry _ _ _ _ h1, if_pos rfl]
  · show SMap.find? kFilter (copyEntry kDecodeParms _ _) = _
    rw [find_copyEntry _ _ _ _ h1, if_neg (by decide), find_copyEntry _ _ _ _ hs, if_pos rfl]
  · intro k k1 k2
    show SMap.find? k (copyEntry kDecodeParms _ _) = _
    rw [find_copyEntry _ _ _ _ h1, if_neg k2, find_copyEntry _ _ _ _ hs, if_neg k1]

/-- **C90** (moving). As copying; the source is left empty, without filters, with its other keys. -/
theorem C90_move (flate : Filt) (o src : StObj) (hlk : o.locked = false) (hs : SMap.Sorted o.dict)
    (hs' : SMap.Sorted src.dict) :
    ∃ o' src', o.moveFrom src = (.ok (), o', src') ∧ o'.copyTo flate = src.copyTo flate ∧
      o'.buf = src.buf ∧ o'.filters = src.filters ∧
      SMap.find? kFilter o'.dict = SMap.find? kFilter src.dict ∧
      (∀ k, k ≠ kFilter → k ≠ kDecodeParms → SMap.find? k o'.dict = SMap.find? k o.dict) ∧
      src'.copyTo flate = .ok [] ∧ Spec.FilterEntry src'.dict src'.filters ∧
      SMap.find? kDecodeParms src'.dict = none ∧
      (∀ k, k ≠ kFilter → k ≠ kDecodeParms → SMap.find? k src'.dict = SMap.find? k src.dict) := by
  have h1 := sorted_copyEntry kFilter src.dict o.dict hs
  have h2 := SMap.sorted_erase kFilter hs'
  refine ⟨{ o with
      dict := copyEntry kDecodeParms src.dict (copyEntry kFilter src.dict o.dict)
      buf := src.buf
      filters := src.filters },
    { src with
      dict := SMap.erase kDecodeParms (SMap.erase kFilter src.dict)
      buf := []
      filters := [] },
    by rw [StObj.moveFrom, if_neg (by simp [hlk])], ?_, rfl, rfl, ?_, ?_, by simp [StObj.copyTo],
    ⟨[], rfl, ?_⟩, ?_, ?_⟩
  · refine copyTo_congr flate src _ rfl rfl ?_
    show SMap.find? kDecodeParms (copyEntry kDecodeParms _ _) = _
    rw [find_copyEntry _ _ _ _ h1, if_pos rfl]
  · show SMap.find? kFilter (copyEntry kDecodeParms _ _) = _
    rw [find_copyEntry _ _ _ _ h1, if_neg (by decide), find_copyEntry _ _ _ _ hs, if_pos rfl]
  · intro k k1 k2
    show SMap.find? k (copyEntry kDecodeParms _ _) = _
    rw [find_copyEntry _ _ _ _ h1, if_neg k2, find_copyEntry _ _ _ _ hs, if_neg k1]
  · show SMap.find? kFilter (SMap.erase kDecodeParms _) = none
    rw [SMap.find_erase _ _ h2, if_neg (by decide), SMap.find_erase _ _ hs', if_pos rfl]
  · show SMap.find? kDecodeParms (SMap.erase kDecodeParms _) = none
    rw [SMap.find_erase _ _ h2, if_pos rfl]
  · intro k k1 k2
    show SMap.find? k (SMap.erase kDecodeParms _) = _
    rw [SMap.find_erase _ _ h2, if_neg k2, SMap.find_erase _ _ hs', if_neg k1]

/-- Non-vacuity: a source with two filters, a target with other keys. -/
example : ∃ o src : StObj, o.locked = false ∧ SMap.Sorted o.dict ∧ SMap.Sorted src.dict ∧
    src.filters = [.ASCIIHexDecode, .ASCII85Decode] ∧ SMap.find? [65] o.dict = some (.num 3) :=
  ⟨⟨[([65], .num 3)], [], [], false⟩, ⟨[(kFilter, .arr [.name (litBytes "ASCIIHexDecode"),
    .name (litBytes "ASCII85Decode")])], [1], [.ASCIIHexDecode, .ASCII85Decode], false⟩, rfl,
    by simp [SMap.Sorted], by simp [SMap.Sorted], rfl, by simp [SMap.find?]⟩

/-- What may stand between the keyword `stream` and the data: blanks, then a line feed, alone or after a carriage return
(ISO 32000-1, 7.3.8.1). -/
inductive Spec.StreamEol : Bytes → Prop
  | lf : Spec.StreamEol [10]
  | crlf : Spec.StreamEol [13, 10]
  | blank {c : Byte} {e : Bytes} : c = 32 ∨ c = 9 → Spec.StreamEol e → Spec.StreamEol (c :: e)

/-- The data of a stream begins right after the line end that follows the keyword, whatever the data. -/
theorem C91_stream_data_start (e d : Bytes) (h : Spec.StreamEol e) : streamStart (e ++ d) = .ok d := by
  induction h with
  | lf => simp [streamStart]
  | crlf => simp [streamStart]
  | blank hc _ ih => rw [List.cons_append, streamStart.eq_def]; dsimp only; rw [if_pos hc]; exact ih

example : Spec.StreamEol [32, 13, 10] ∧ streamStart [32, 13, 10, 10, 13, 65] = .ok [10, 13, 65] :=
  ⟨.blank (.inl rfl) .crlf, C91_stream_data_start [32, 13, 10] [10, 13, 65] (.blank (.inl rfl) .crlf)⟩

end Pdfmm
