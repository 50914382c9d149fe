import Verif.XRef.TextProps
/-
Cross-reference streams: reading back what was written, and where the reader looks.
-/
set_option autoImplicit false
namespace Pdfmm
open Spec

/-! ### Numbers -/

theorem readBE_spec (b : Bytes) : ∀ (pre post : Bytes) (acc : Nat),
    readBE (pre ++ (b ++ post)) pre.length b.length acc =
      .ok (b.foldl (fun a x => (a * 256 + x.toNat) % 18446744073709551616) acc) := by
  induction b with
  | nil => intro pre post acc; rfl
  | cons c b ih =>
    intro pre post acc
    rw [List.length_cons, readBE]
    have h1 : (pre ++ (c :: b ++ post))[pre.length]? = some c := by simp
    rw [h1]
    dsimp only
    have h2 := ih (pre ++ [c]) post ((acc * 256 + c.toNat) % 18446744073709551616)
    simp only [List.length_append, List.length_cons, List.length_nil, List.append_assoc, List.cons_append,
      List.nil_append] at h2
    rw [List.cons_append, h2]; rfl

theorem beBytes_length (k n : Nat) : (beBytes k n).length = k := by
  induction k generalizing n with
  | zero => rfl
  | succ k ih => simp [beBytes, ih]

theorem beBytes_value (k n : Nat) (hk : k ≤ 8) :
    (beBytes k n).foldl (fun a x => (a * 256 + x.toNat) % 18446744073709551616) 0 = n % 256 ^ k := by
  induction k generalizing n with
  | zero => simp [beBytes, Nat.mod_one]
  | succ k ih =>
    rw [beBytes, List.foldl_append, ih _ (by omega)]
    simp only [List.foldl_cons, List.foldl_nil]
    have h1 : (UInt8.ofNat (n % 256)).toNat = n % 256 := by
      simp
    have h2 : 256 ^ (k + 1) ≤ 18446744073709551616 := by
      have : 256 ^ (k + 1) ≤ 256 ^ 8 := Nat.pow_le_pow_right (by omega) hk
      exact this
    have h3 : n / 256 % 256 ^ k < 256 ^ k := Nat.mod_lt _ (Nat.pow_pos (by omega))
    have h4 : n % 256 ^ (k + 1) = n / 256 % 256 ^ k * 256 + n % 256 := by
      rw [Nat.pow_succ, Nat.mul_comm (256 ^ k) 256, Nat.mod_mul]
      omega
    rw [h1, ← h4]
    refine Nat.mod_eq_of_lt (Nat.lt_of_lt_of_le (Nat.mod_lt _ (Nat.pow_pos (by omega))) h2)

/-! ### One entry -/

/-- What becomes of an entry: offsets are kept modulo 2^32 and generations modulo 2^16. -/
def cutEntry (e : XEntry) : XEntry := ⟨e.type, e.variant % 4294967296, e.gen % 65536⟩

theorem readStreamEntry_spec {e : XEntry} (ht : e.type ≠ .compressed) :
    ∃ b, streamEntry e = .ok b ∧ b.length = 7 ∧ ∀ pre post,
      readStreamEntry (pre ++ (b ++ post)) pre.length 1 4 2 = .ok (cutEntry e) := by
  have key : ∀ (t : Byte) (ty : XType), (t = 0 ∧ ty = .free ∨ t = 1 ∧ ty = .inUse) → ∀ pre post : Bytes,
      readStreamEntry (pre ++ ((t :: beBytes 4 (u32 e.variant) ++ beBytes 2 (e.gen % 65536)) ++ post)) pre.length 1 4 2 =
        .ok ⟨ty, e.variant % 4294967296, e.gen % 65536⟩ := by
    intro t ty hty pre post
    have r0 := readBE_spec [t] pre (beBytes 4 (u32 e.variant) ++ (beBytes 2 (e.gen % 65536) ++ post)) 0
    have r1 := readBE_spec (beBytes 4 (u32 e.variant)) (pre ++ [t]) (beBytes 2 (e.gen % 65536) ++ post) 0
    have r2 := readBE_spec (beBytes 2 (e.gen % 65536)) (pre ++ [t] ++ beBytes 4 (u32 e.variant)) post 0
    simp only [List.length_append, List.length_cons, List.length_nil, beBytes_length] at r0 r1 r2
    rw [beBytes_value _ _ (by omega)] at r1 r2
    have e0 : pre ++ ((t :: beBytes 4 (u32 e.variant) ++ beBytes 2 (e.gen % 65536)) ++ post) =
        pre ++ ([t] ++ (beBytes 4 (u32 e.variant) ++ (beBytes 2 (e.gen % 65536) ++ post))) := by simp
    have e1 : pre ++ [t] ++ (beBytes 4 (u32 e.variant) ++ (beBytes 2 (e.gen % 65536) ++ post)) =
        pre ++ ([t] ++ (beBytes 4 (u32 e.variant) ++ (beBytes 2 (e.gen % 65536) ++ post))) := by simp
    have e2 : pre ++ [t] ++ beBytes 4 (u32 e.variant) ++ (beBytes 2 (e.gen % 65536) ++ post) =
        pre ++ ([t] ++ (beBytes 4 (u32 e.variant) ++ (beBytes 2 (e.gen % 65536) ++ post))) := by simp
    rw [e1] at r1
    rw [e2] at r2
    rw [e0]
    unfold readStreamEntry
    simp only [Nat.zero_add] at r0 r1 r2
    rw [if_neg (by omega), r0]
    dsimp only
    rw [if_neg (by omega), r1]
    dsimp only
    rw [if_neg (by omega), r2]
    have v1 : u32 e.variant % 256 ^ 4 = e.variant % 4294967296 := by
      simp only [u32]
      have : (256 : Nat) ^ 4 = 4294967296 := rfl
      rw [this]; omega
    have v2 : u32 (e.gen % 65536 % 256 ^ 2) = e.gen % 65536 := by
      simp only [u32]
      have : (256 : Nat) ^ 2 = 65536 := rfl
      rw [this]; omega
    dsimp only
    rw [v1, v2]
    rcases hty with ⟨rfl, rfl⟩ | ⟨rfl, rfl⟩
    · rfl
    · rfl
  unfold streamEntry cutEntry
  cases h : e.type with
  | compressed => exact absurd h ht
  | free => exact ⟨_, rfl, by simp [beBytes_length], key 0 .free (.inl ⟨rfl, rfl⟩)⟩
  | inUse => exact ⟨_, rfl, by simp [beBytes_length], key 1 .inUse (.inr ⟨rfl, rfl⟩)⟩

/-- What an entry that is not yet known becomes. -/
def mergeCut (es : XEntries) (xs : List (Ref × XEntry)) (n : Nat) : Option XEntry :=
  (known es n).or ((entryAt xs n).map cutEntry)

theorem readStreamEntries_spec : ∀ (xs : List (Ref × XEntry)) (i : Nat) (es : XEntries) (pre post : Bytes),
    xs.map (·.1.num) = List.range' i xs.length → (∀ x ∈ xs, x.2.type ≠ .compressed) → i + xs.length ≤ es.length →
    es.length < 4294967296 →
    ∃ b, streamData xs = .ok b ∧ ∃ es',
      readStreamEntries (pre ++ (b ++ post)) 1 4 2 xs.length i pre.length es = (.ok es', pre.length + b.length) ∧
        es'.length = es.length ∧ ∀ n, known es' n = mergeCut es xs n
  | [], i, es, pre, post, _, _, _, _ => by
    refine ⟨[], rfl, es, rfl, rfl, fun n => ?_⟩
    simp [mergeCut, entryAt]
  | x :: xs, i, es, pre, post, hn, hok, hl, hmax => by
    simp only [List.map_cons, List.length_cons, List.range'_succ, List.cons.injEq] at hn
    obtain ⟨b1, hb1, hb1l, hp⟩ := readStreamEntry_spec (hok x (by simp))
    have hlt : i < es.length := by simp at hl; omega
    let es1 : XEntries := if es[i] = none then es.set i (some (cutEntry x.2)) else es
    have hes1 : es1.length = es.length := by simp only [es1]; split <;> simp
    obtain ⟨b2, hb2, es', h1, h2, h3⟩ := readStreamEntries_spec xs (i + 1) es1 (pre ++ b1) post hn.2
      (fun y hy => hok y (by simp [hy])) (by simp at hl; omega) (by omega)
    refine ⟨b1 ++ b2, by simp [streamData, hb1, hb2], es', ?_, by omega, fun n => ?_⟩
    · rw [List.length_cons, readStreamEntries, if_neg (by simp only [List.length_append, hb1l]; omega)]
      have e1 : pre ++ (b1 ++ b2 ++ post) = pre ++ (b1 ++ (b2 ++ post)) := by simp
      rw [e1, hp, List.getElem?_eq_getElem hlt]
      have hu : u32 (i + 1) = i + 1 := u32_of_lt (by omega)
      have e2 : pre ++ b1 ++ (b2 ++ post) = pre ++ (b1 ++ (b2 ++ post)) := by simp
      have e3 : (pre ++ b1).length = pre.length + (1 + 4 + 2) := by simp [hb1l]
      rw [e2, e3] at h1
      rw [hu]
      have e4 : pre.length + (b1 ++ b2).length = pre.length + (1 + 4 + 2) + b2.length := by simp [hb1l]; omega
      rw [e4, ← h1]
      simp only [es1]
      cases h : es[i] with
      | none => simp
      | some y => simp
    · rw [h3 n]
      unfold mergeCut
      have hnot : n = i → entryAt xs n = none := by
        intro e
        refine entryAt_none fun y hy e' => ?_
        have : y.1.num ∈ xs.map (·.1.num) := List.mem_map.2 ⟨y, hy, rfl⟩
        rw [hn.2, List.mem_range'_1] at this
        omega
      have hcons : entryAt (x :: xs) n = if n = i then some x.2 else entryAt xs n := by
        unfold entryAt
        rw [List.find?_cons, hn.1]
        by_cases h : n = i
        · simp [h]
        · simp [h, Ne.symm h]
      have hkn : known es1 n = if n = i ∧ es[i] = none then some (cutEntry x.2) else known es n := by
        simp only [es1, known]
        by_cases h : n = i
        · subst h
          by_cases h' : es[n] = none
          · simp [h', hlt]
          · simp [h']
        · by_cases h' : es[i] = none
          · simp [h', h, List.getElem?_set_ne (Ne.symm h)]
          · simp [h']
      rw [hcons, hkn]
      by_cases h : n = i
      · subst h
        rw [hnot rfl]
        by_cases h' : es[n] = none
        · simp [h', known, hlt]
        · simp only [h', and_false, if_false, if_true]
          cases h2 : es[n] with
          | none => exact absurd h2 h'
          | some y => simp [known, hlt, h2]
      · simp [h]

theorem streamData_append : ∀ (xs ys : List (Ref × XEntry)) (a b : Bytes), streamData xs = .ok a → streamData ys = .ok b →
    streamData (xs ++ ys) = .ok (a ++ b) := by
  intro xs
  induction xs with
  | nil => intro ys a b h1 h2; simp only [streamData] at h1; rw [← Except.ok.inj h1]; exact h2
  | cons x xs ih =>
    intro ys a b h1 h2
    simp only [streamData] at h1
    split at h1
    · rename_i c d hc hd
      rw [← Except.ok.inj h1]
      simp [streamData, hc, ih ys d b hd h2]
    · cases h1
    · cases h1

/-- A subsection of a stream that is read back. -/
structure StreamSectionOk (max : Nat) (s : XSection) : Prop where
  nums : s.entries.map (·.1.num) = List.range' s.first s.count
  fits : s.first + s.count ≤ max
  entries : ∀ x ∈ s.entries, x.2.type ≠ .compressed

theorem readStreamIndex_spec {max : Nat} (hmax : max < 4294967296) : ∀ (ss : List XSection) (es : XEntries) (pre : Bytes),
    (∀ s ∈ ss, StreamSectionOk max s) → es.length ≤ max →
    ∃ b, streamData (allEntries ss) = .ok b ∧ ∀ post, ∃ es',
      readStreamIndex (pre ++ (b ++ post)) max 1 4 2 (streamIndex ss) pre.length es = .ok es' ∧
        ∀ n, known es' n = mergeCut es (allEntries ss) n
  | [], es, pre, _, _ => by
    refine ⟨[], rfl, fun post => ⟨es, rfl, fun n => ?_⟩⟩
    simp [mergeCut, entryAt, allEntries]
  | s :: ss, es, pre, hok, hl => by
    have hs := hok s (by simp)
    have hf := hs.fits
    have hlen : s.entries.length = s.count := by
      have := congrArg List.length hs.nums; simpa using this
    let es1 : XEntries := es ++ List.replicate (s.first + s.count - es.length) none
    have hes1 : es1.length ≤ max := by
      simp only [es1, List.length_append, List.length_replicate]; omega
    have hin : s.first + s.count ≤ es1.length := by
      simp only [es1, List.length_append, List.length_replicate]; omega
    have e : allEntries (s :: ss) = s.entries ++ allEntries ss := by simp [allEntries]
    obtain ⟨b1, hb1, es2, h1, h2, h3⟩ := readStreamEntries_spec s.entries s.first es1 pre []
      (by rw [hlen]; exact hs.nums) hs.entries (by omega) (by omega)
    obtain ⟨b2, hb2, _⟩ := readStreamIndex_spec hmax ss es2 (pre ++ b1) (fun y hy => hok y (by simp [hy])) (by omega)
    refine ⟨b1 ++ b2, by rw [e]; exact streamData_append _ _ _ _ hb1 hb2, fun post => ?_⟩
    obtain ⟨b1', hb1', es3, h1, h2, h3⟩ := readStreamEntries_spec s.entries s.first es1 pre (b2 ++ post)
      (by rw [hlen]; exact hs.nums) hs.entries (by omega) (by omega)
    rw [hb1] at hb1'
    have hb := Except.ok.inj hb1'
    subst hb
    obtain ⟨b2', hb2', hr⟩ := readStreamIndex_spec hmax ss es3 (pre ++ b1) (fun y hy => hok y (by simp [hy])) (by omega)
    rw [hb2] at hb2'
    have hb := Except.ok.inj hb2'
    subst hb
    obtain ⟨es4, h4, h5⟩ := hr post
    refine ⟨es4, ?_, fun n => ?_⟩
    · have e1 : pre ++ (b1 ++ b2 ++ post) = pre ++ (b1 ++ (b2 ++ post)) := by simp
      have e2 : pre ++ b1 ++ (b2 ++ post) = pre ++ (b1 ++ (b2 ++ post)) := by simp
      have e3 : (pre ++ b1).length = pre.length + b1.length := by simp
      rw [e2, e3] at h4
      have hen : enlarge max es ((s.first : Int) + (s.count : Int)) = .ok es1 := by
        unfold enlarge
        rw [if_neg (by omega), if_neg (by omega), if_neg (by omega)]
        have : ((s.first : Int) + (s.count : Int)).toNat = s.first + s.count := by omega
        rw [this]
      have t1 : truncTo 32 (s.first : Int) = s.first := truncTo_of_lt (by
        have : (2 : Nat) ^ 32 = 4294967296 := rfl
        omega)
      have t2 : truncTo 32 (s.count : Int) = s.count := truncTo_of_lt (by
        have : (2 : Nat) ^ 32 = 4294967296 := rfl
        omega)
      rw [e1]
      simp only [streamIndex, List.map_cons, readStreamIndex, hen, t1, t2]
      rw [← hlen, h1]
      exact h4
    · rw [h5 n, e]
      unfold mergeCut
      rw [h3 n, entryAt_append]
      unfold mergeCut
      rw [show known es1 n = known es n from known_append_none _ _ _]
      cases known es n <;> cases entryAt s.entries n <;> simp

/-! ### C38 -/
namespace Spec

/-- What a cross-reference stream can hold: offsets below 2^32, generations below 2^16, and no more numbers
than the reader accepts. -/
structure StreamFits (max : Nat) (adds : List XAdd) : Prop where
  valid : Adds adds
  offset : ∀ r off, XAdd.inUse r off ∈ adds → off < 4294967296
  gen : ∀ a ∈ adds, a.ref.gen < 65536
  num : ∀ a ∈ adds, a.ref.num < max

end Spec

/-- The entries of the subsections with the offset of the stream itself filled in. -/
def patchSections (self : Ref) (offset : Nat) (ss : List XSection) : List XSection :=
  ss.map fun s => { s with entries := s.entries.map (patchSelf self offset) }

theorem patchSelf_num (self : Ref) (offset : Nat) (x : Ref × XEntry) : (patchSelf self offset x).1 = x.1 := by
  unfold patchSelf; split <;> rfl

theorem patch_entries (self : Ref) (offset : Nat) (ss : List XSection) :
    allEntries (patchSections self offset ss) = (allEntries ss).map (patchSelf self offset) := by
  induction ss with
  | nil => rfl
  | cons s ss ih =>
    simp only [patchSections, List.map_cons, allEntries, List.flatMap_cons, List.map_append] at *
    rw [ih]

theorem entryAt_patch (self : Ref) (offset : Nat) (xs : List (Ref × XEntry)) (n : Nat) :
    entryAt (xs.map (patchSelf self offset)) n =
      ((xs.find? (fun x => decide (x.1.num = n))).map (fun x => (patchSelf self offset x).2)) := by
  unfold entryAt
  induction xs with
  | nil => rfl
  | cons x xs ih =>
    rw [List.map_cons, List.find?_cons, List.find?_cons, patchSelf_num]
    split
    · rfl
    · exact ih

/-- **C38.** The entries written in a cross-reference stream whose own object is `self` and which starts at
`offset` are read back with its `/W` and `/Index`: every number that is not known yet gets the entry given for it,
`self` with `offset`. -/
theorem C38_stream_round_trip_partial {max : Nat} (hmax1 : 1 ≤ max) (hmax : max < 4294967296) {adds : List XAdd}
    (h : Spec.StreamFits max adds) (inc : Bool) (hne : inc = true ∨ ∃ a ∈ adds, a.written ≠ none)
    (self : Ref) (offset : Nat) (hoff : offset < 4294967296) (es : XEntries) (hes : es.length ≤ max) :
    ∃ ss data es', writeSections inc adds = .ok ss ∧ Spec.IsTable adds ss ∧
      streamData ((Spec.allEntries ss).map (patchSelf self offset)) = .ok data ∧
      parseXRefStream data max 1 4 2 (streamIndex ss) es = .ok es' ∧
      ∀ n, Spec.known es' n = (Spec.known es n).or
        (((Spec.allEntries ss).find? (fun x => decide (x.1.num = n))).map
          (fun x => if x.1 = self then { x.2 with variant := offset } else x.2)) := by
  obtain ⟨ss, hw, ht⟩ := C34_table h.valid inc hne
  have hpos := table_count_pos h.valid inc hne hw
  have hent : ∀ x ∈ allEntries ss, x.2.type ≠ .compressed ∧ x.1.num < max ∧ x.2.variant < 4294967296 ∧ x.2.gen < 65536 := by
    rintro ⟨r, e⟩ hx
    obtain ⟨h1, h2, h3⟩ := ht.only r e hx
    refine ⟨?_, ?_, ?_, ?_⟩
    · rcases h3 with h3 | h3 <;> simp [h3]
    · rcases h2 with ⟨h2, _⟩ | ⟨a, ha, hwr⟩
      · rw [h2]; exact hmax1
      · rw [← written_ref hwr]; exact h.num a ha
    · rcases h3 with h3 | ⟨_, h3 | ⟨f, hf, h3⟩⟩
      · have he : e = ⟨.inUse, e.variant, r.gen⟩ := by cases e; simp_all
        rw [he] at hx
        exact h.offset r _ ((ht.inUse r e.variant).2 hx)
      · dsimp only; omega
      · have := (h.valid.range _ hf).2
        simp only [XAdd.ref] at this
        dsimp only; omega
    · dsimp only
      rw [h1]
      rcases h2 with ⟨h2, _⟩ | ⟨a, ha, hwr⟩
      · rw [h2]; decide
      · rw [← written_ref hwr]; exact h.gen a ha
  have hok : ∀ s ∈ patchSections self offset ss, StreamSectionOk max s := by
    intro s hs
    obtain ⟨s0, hs0, rfl⟩ := List.mem_map.1 hs
    have hp := hpos s0 hs0
    have hc := ht.consecutive s0 hs0
    refine ⟨?_, ?_, ?_⟩
    · dsimp only
      rw [List.map_map, ← hc]
      exact List.map_congr_left (fun x _ => by simp [patchSelf_num])
    · have : s0.first + s0.count - 1 ∈ s0.entries.map (·.1.num) := by
        rw [hc, List.mem_range'_1]; omega
      obtain ⟨x, hx, e⟩ := List.mem_map.1 this
      have := (hent x (List.mem_flatMap.2 ⟨s0, hs0, hx⟩)).2.1
      dsimp only
      omega
    · intro x hx
      obtain ⟨y, hy, rfl⟩ := List.mem_map.1 hx
      have := (hent y (List.mem_flatMap.2 ⟨s0, hs0, hy⟩)).1
      unfold patchSelf
      split <;> exact this
  obtain ⟨b, hb, hr⟩ := readStreamIndex_spec hmax (patchSections self offset ss) es [] hok hes
  obtain ⟨es', h1, h2⟩ := hr []
  rw [patch_entries] at hb
  refine ⟨ss, b, es', hw, ht, hb, ?_, fun n => ?_⟩
  · unfold parseXRefStream
    rw [if_neg (by decide), if_neg (by decide)]
    have hidx : streamIndex (patchSections self offset ss) = streamIndex ss := by
      simp only [streamIndex, patchSections, List.map_map]; rfl
    rw [hidx] at h1
    simpa using h1
  · rw [h2 n, mergeCut, patch_entries, entryAt_patch]
    congr 1
    rw [Option.map_map]
    cases hf : (allEntries ss).find? (fun x => decide (x.1.num = n)) with
    | none => rfl
    | some x =>
      have hx := hent x (List.mem_of_find?_eq_some hf)
      simp only [Option.map_some, Function.comp, patchSelf]
      split
      · simp only [cutEntry, u32]
        congr 2
        · omega
        · omega
      · simp only [cutEntry]
        cases hx2 : x.2 with
        | mk t v g =>
          rw [hx2] at hx
          dsimp only at hx ⊢
          congr 2 <;> omega

/-- An offset of 2^32 or more is read back reduced modulo 2^32, without an error. -/
theorem C38_large_offset_false {off gen : Nat} (hoff : 4294967296 ≤ off) :
    ∃ data, streamData [(⟨1, gen⟩, ⟨.inUse, off, gen⟩)] = .ok data ∧
      ∃ e, readStreamEntry data 0 1 4 2 = .ok e ∧ e.type = .inUse ∧ e.variant ≠ off := by
  obtain ⟨b, hb, _, hr⟩ := readStreamEntry_spec (e := ⟨.inUse, off, gen⟩) (by simp)
  refine ⟨b, by simp [streamData, hb], _, by simpa using hr [] [], rfl, ?_⟩
  simp only [cutEntry]; omega

example : Spec.StreamFits 8388607 [.inUse ⟨4, 0⟩ 4294967295, .inUse ⟨1, 0⟩ 15, .free ⟨2, 3⟩, .inUse ⟨7, 1⟩ 300] := by
  refine ⟨⟨by decide, by decide⟩, ?_, by decide, by decide⟩
  intro r off h
  simp at h
  omega

/-! ### C39 -/

theorem readBE_inside (data : Bytes) : ∀ (k pos acc : Nat), pos + k ≤ data.length → readBE data pos k acc ≠ .error .ub
  | 0, _, _, _ => by simp [readBE]
  | k + 1, pos, acc, h => by
    rw [readBE, List.getElem?_eq_getElem (by omega)]
    exact readBE_inside data k _ _ (by omega)

theorem readStreamEntry_inside {data : Bytes} {pos w0 w1 w2 : Nat} (h : pos + (w0 + w1 + w2) ≤ data.length) :
    readStreamEntry data pos w0 w1 w2 ≠ .error .ub := by
  have h0 := readBE_inside data w0 pos 0 (by omega)
  have h1 := readBE_inside data w1 (pos + w0) 0 (by omega)
  have h2 := readBE_inside data w2 (pos + w0 + w1) 0 (by omega)
  unfold readStreamEntry
  split
  · simp [raise]
  · split
    · rename_i f hf; rw [hf] at h0; simpa using h0
    · split
      · simp [raise]
      · split
        · rename_i f hf; rw [hf] at h1; simpa using h1
        · split
          · simp [raise]
          · split
            · rename_i f hf; rw [hf] at h2; simpa using h2
            · dsimp only
              repeat' split
              all_goals simp [raise]

theorem readStreamEntries_inside {data : Bytes} {w0 w1 w2 : Nat} (hd : ∃ m, data.length = (w0 + w1 + w2) * m) :
    ∀ (k i pos : Nat) (es : XEntries), (∃ m, pos = (w0 + w1 + w2) * m) →
    (readStreamEntries data w0 w1 w2 k i pos es).1 ≠ .error .ub ∧
      ∃ m, (readStreamEntries data w0 w1 w2 k i pos es).2 = (w0 + w1 + w2) * m
  | 0, i, pos, es, hp => by rw [readStreamEntries]; exact ⟨by simp, hp⟩
  | k + 1, i, pos, es, hp => by
    have hnext : ∃ m, pos + (w0 + w1 + w2) = (w0 + w1 + w2) * m := by
      obtain ⟨m, hm⟩ := hp
      exact ⟨m + 1, by rw [Nat.mul_succ, ← hm]⟩
    rw [readStreamEntries]
    split
    · exact ⟨by simp [raise], hp⟩
    · rename_i hlt
      have hin : pos + (w0 + w1 + w2) ≤ data.length := by
        obtain ⟨a, ha⟩ := hp
        obtain ⟨b, hb⟩ := hd
        rw [ha, hb] at hlt ⊢
        have : a < b := by
          rcases Nat.lt_or_ge a b with h | h
          · exact h
          · exact absurd (Nat.mul_le_mul_left (w0 + w1 + w2) h) hlt
        rw [← Nat.mul_succ]
        exact Nat.mul_le_mul_left _ this
      have he := readStreamEntry_inside hin
      split
      · split
        · exact readStreamEntries_inside hd k _ _ _ hnext
        · rename_i f hf
          rw [hf] at he
          exact ⟨by simpa using he, hp⟩
      · exact readStreamEntries_inside hd k _ _ _ hnext

/-- **C39.** If the data is a whole number of entries and the sums in `/Index` fit an `int64_t`, then, whatever the
entries of `/W` and `/Index` and the data are, the parser stays inside the data. -/
theorem C39_stays_inside_partial (data : Bytes) (max : Nat) (w0 w1 w2 : Int) (idx : List (Int × Int)) (es : XEntries)
    (hd : ∃ m : Int, (data.length : Int) = (w0 + w1 + w2) * m)
    (hi : ∀ p ∈ idx, -9223372036854775808 ≤ p.1 + p.2 ∧ p.1 + p.2 < 9223372036854775808) :
    parseXRefStream data max w0 w1 w2 idx es ≠ .error .ub := by
  unfold parseXRefStream
  split
  · simp [raise]
  · split
    · simp [raise]
    · rename_i hneg _
      have hd' : ∃ m : Nat, data.length = (w0.toNat + w1.toNat + w2.toNat) * m := by
        obtain ⟨m, hm⟩ := hd
        have e : (w0 + w1 + w2) = ((w0.toNat + w1.toNat + w2.toNat : Nat) : Int) := by omega
        rw [e] at hm
        generalize w0.toNat + w1.toNat + w2.toNat = t at hm
        rcases Int.lt_or_le m 0 with h | h
        · refine ⟨0, ?_⟩
          have : ((t : Int) * m) ≤ 0 := Int.mul_nonpos_of_nonneg_of_nonpos (by omega) (by omega)
          omega
        · refine ⟨m.toNat, ?_⟩
          have : (m.toNat : Int) = m := by omega
          have h2 : ((data.length : Nat) : Int) = ((t * m.toNat : Nat) : Int) := by
            rw [hm]; push_cast; rw [this]
          exact_mod_cast h2
      have key : ∀ (idx : List (Int × Int)) (pos : Nat) (es : XEntries),
          (∀ p ∈ idx, -9223372036854775808 ≤ p.1 + p.2 ∧ p.1 + p.2 < 9223372036854775808) →
          (∃ m, pos = (w0.toNat + w1.toNat + w2.toNat) * m) →
          readStreamIndex data max w0.toNat w1.toNat w2.toNat idx pos es ≠ .error .ub := by
        intro idx
        induction idx with
        | nil => intro pos es _ _; simp [readStreamIndex]
        | cons p idx ih =>
          intro pos es hi hp
          obtain ⟨first, count⟩ := p
          have hb := hi (first, count) (by simp)
          dsimp only at hb
          rw [readStreamIndex]
          have hen : enlarge max es (first + count) ≠ .error .ub := by
            unfold enlarge
            rw [if_neg (by omega)]
            split
            · simp [raise]
            · split
              · simp [raise]
              · simp
          split
          · rename_i f hf; rw [hf] at hen; simpa using hen
          · rename_i es1 _
            have h := readStreamEntries_inside hd' (truncTo 32 count) (truncTo 32 first) pos es1 hp
            split
            · rename_i f q hf; rw [hf] at h; simpa using h.1
            · rename_i es2 q hf
              rw [hf] at h
              exact ih _ _ (fun p hp => hi p (by simp [hp])) h.2
      exact key idx 0 es hi ⟨0, by simp⟩

/-- A stream that ends inside an entry is read past its end: with `/W [1 4 2]` only the first byte of an entry is
checked to be there. -/
theorem C39_reads_outside_false :
    (∀ b : Byte, parseXRefStream [b] 8388607 1 4 2 [(0, 1)] [] = .error .ub) ∧
    parseXRefStream [1, 0, 0, 0, 15, 0, 0, 1, 0, 0] 8388607 1 4 2 [(3, 2)] [] = .error .ub := by
  constructor
  · intro b; rfl
  · rfl

/-- Sums in `/Index` that overflow are undefined behaviour before any check. -/
theorem C39_index_overflow_false (data : Bytes) (es : XEntries) :
    parseXRefStream data 8388607 1 4 2 [(9223372036854775807, 1)] es = .error .ub := by rfl

example : parseXRefStream [1, 0, 0, 0, 15, 0, 0, 2, 0, 0, 0, 5, 0, 1] 8388607 1 4 2 [(3, 2)] [] =
    .ok [none, none, none, some ⟨.inUse, 15, 0⟩, some ⟨.compressed, 5, 1⟩] := by rfl

example : ∃ m : Int, ((List.replicate 14 (0 : Byte)).length : Int) = (1 + 4 + 2) * m := ⟨2, rfl⟩

end Pdfmm
