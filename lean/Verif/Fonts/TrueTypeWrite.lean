import Verif.Fonts.TrueTypeFile
set_option autoImplicit false
/-
C134, C137: the file that is written has the tables that were made.
-/
namespace Pdfmm
open Spec (be)

/-! ### The form of the file -/

/-- Tables with their data: the directory as it is filled in. -/
def dirOf : List (TtTable × Bytes) → Nat → Bytes
  | [], _ => []
  | (t, b) :: r, off => ttW32 t.tag ++ (ttW32 (ttChecksum (ttPad b) b.length) ++ ttW32 (off % 4294967296) ++ ttW32 (b.length % 4294967296)) ++
      dirOf r (off + (ttPad b).length)

/-- The data of the tables one after the other. -/
def padsOf (l : List (TtTable × Bytes)) : Bytes := l.flatMap (fun x => ttPad x.2)

theorem padsOf_cons (t : TtTable) (b : Bytes) (l : List (TtTable × Bytes)) : padsOf ((t, b) :: l) = ttPad b ++ padsOf l := rfl

/-- The place of the last table `head`. -/
def lastHead : List (TtTable × Bytes) → Nat → Option Nat → Option Nat
  | [], _, h => h
  | (t, b) :: r, off, h => lastHead r (off + (ttPad b).length) (if t.tag = tagHead then some off else h)

theorem dirOf_length (l : List (TtTable × Bytes)) : ∀ off, (dirOf l off).length = 16 * l.length := by
  induction l with
  | nil =>
    intro off
    rfl
  | cons a l ih =>
    intro off
    obtain ⟨t, b⟩ := a
    rw [dirOf]
    simp only [List.length_append, W32_length, ih, List.length_cons]
    omega

theorem placeholders_cons (t : TtTable) (r : List TtTable) : ttPlaceholders (t :: r) = ttW32 t.tag ++ (List.replicate 12 0 ++ ttPlaceholders r) := by
  rw [ttPlaceholders, List.flatMap_cons, List.append_assoc]
  rfl

theorem placeholders_length (ts : List TtTable) : (ttPlaceholders ts).length = 16 * ts.length := by
  induction ts with
  | nil => rfl
  | cons t r ih =>
    rw [placeholders_cons]
    simp only [List.length_append, W32_length, List.length_replicate, ih, List.length_cons]
    omega

theorem ttOver_at {a b c w : Bytes} {n : Nat} (hn : n = a.length) (h : w.length = b.length) : ttOver (a ++ (b ++ c)) n w = .ok (a ++ (w ++ c)) := by
  subst hn
  rw [ttOver, if_neg (by simp only [List.length_append]; omega), List.take_left, h, ← List.drop_drop, List.drop_left, List.drop_left, List.append_assoc]

theorem writeAll_spec (f : TtFont) (p : TtPlan) (ts : List TtTable) : ∀ (i : Nat) (pre data : Bytes) (head : Option Nat), pre.length = 12 + 16 * i →
    ∀ out h, f.writeAll p ts i (pre ++ (ttPlaceholders ts ++ data)) head = .ok (out, h) →
      ∃ tbs : List (TtTable × Bytes), tbs.map (·.1) = ts ∧ (∀ x ∈ tbs, f.body p x.1 = .ok x.2) ∧
        out = pre ++ (dirOf tbs (pre.length + 16 * ts.length + data.length) ++ (data ++ padsOf tbs)) ∧
        h = lastHead tbs (pre.length + 16 * ts.length + data.length) head := by
  induction ts with
  | nil =>
    intro i pre data head _ out h e
    cases e
    exact ⟨[], rfl, by simp, by simp [ttPlaceholders, dirOf, padsOf], rfl⟩
  | cons t r ih =>
    intro i pre data head hpre out h e
    rw [TtFont.writeAll, TtFont.writeTable] at e
    cases hb : f.body p t with
    | error x =>
      rw [hb] at e
      cases e
    | ok b =>
      rw [hb] at e
      dsimp only at e
      obtain ⟨W, hW⟩ : ∃ W, W = ttW32 (ttChecksum (ttPad b) b.length) ++ ttW32 ((pre ++ (ttPlaceholders (t :: r) ++ data)).length % 4294967296) ++
        ttW32 (b.length % 4294967296) := ⟨_, rfl⟩
      have hWl : W.length = 12 := by rw [hW]; simp only [List.length_append, W32_length]
      have hbl : (pre ++ (ttPlaceholders (t :: r) ++ data)).length = pre.length + 16 * (t :: r).length + data.length := by
        simp only [List.length_append, placeholders_length, List.length_cons]
        omega
      have e1 : pre ++ (ttPlaceholders (t :: r) ++ data) ++ ttPad b = (pre ++ ttW32 t.tag) ++ (List.replicate 12 0 ++ (ttPlaceholders r ++ (data ++ ttPad b))) := by
        rw [placeholders_cons]
        simp only [List.append_assoc]
      have e2 : ttOver (pre ++ (ttPlaceholders (t :: r) ++ data) ++ ttPad b) (12 + 16 * i + 4) W =
          .ok ((pre ++ ttW32 t.tag ++ W) ++ (ttPlaceholders r ++ (data ++ ttPad b))) := by
        rw [e1, ttOver_at (by rw [List.length_append, W32_length, hpre]) (by rw [hWl, List.length_replicate])]
        simp only [List.append_assoc]
      rw [← hW, e2] at e
      dsimp only at e
      have hpl : (pre ++ ttW32 t.tag ++ W).length = 12 + 16 * (i + 1) := by
        simp only [List.length_append, W32_length, hWl, hpre]
        omega
      obtain ⟨tbs, t1, t2, t3, t4⟩ := ih (i + 1) (pre ++ ttW32 t.tag ++ W) (data ++ ttPad b) _ hpl out h e
      have hoff : (pre ++ ttW32 t.tag ++ W).length + 16 * r.length + (data ++ ttPad b).length =
          pre.length + 16 * (t :: r).length + data.length + (ttPad b).length := by
        rw [hpl, hpre]
        simp only [List.length_append, List.length_cons]
        omega
      refine ⟨(t, b) :: tbs, by rw [List.map_cons, t1], ?_, ?_, ?_⟩
      · intro x hx
        rcases List.mem_cons.1 hx with rfl | hx
        · exact hb
        · exact t2 x hx
      · rw [t3, dirOf, hoff, hW, hbl, padsOf_cons]
        simp only [List.append_assoc]
      · rw [t4, lastHead, hoff, hbl]

/-! ### Finding a table -/

/-- The directory and the data agree; of a table `head` the first eight bytes may differ from what was made. -/
def Layout : List (TtTable × Bytes) → Nat → Bytes → Bytes → Prop
  | [], _, dir, blocks => dir = [] ∧ blocks = []
  | (t, b) :: r, off, dir, blocks => ∃ ck dir' blk blocks',
      dir = ttW32 t.tag ++ (ttW32 ck ++ (ttW32 (off % 4294967296) ++ (ttW32 (b.length % 4294967296) ++ dir'))) ∧ blocks = blk ++ blocks' ∧
      blk.length = (ttPad b).length ∧ (t.tag ≠ tagHead → blk = ttPad b) ∧ blk.drop 8 = (ttPad b).drop 8 ∧ Layout r (off + (ttPad b).length) dir' blocks'

theorem layout_exact (l : List (TtTable × Bytes)) : ∀ off, Layout l off (dirOf l off) (padsOf l) := by
  induction l with
  | nil =>
    intro off
    exact ⟨rfl, rfl⟩
  | cons a l ih =>
    intro off
    obtain ⟨t, b⟩ := a
    refine ⟨ttChecksum (ttPad b) b.length, dirOf l (off + (ttPad b).length), ttPad b, padsOf l, ?_, rfl, rfl, fun _ => rfl, rfl, ih _⟩
    rw [dirOf]
    simp only [List.append_assoc]

theorem layout_patched (l1 : List (TtTable × Bytes)) (t : TtTable) (b : Bytes) (l2 : List (TtTable × Bytes)) (ht : t.tag = tagHead) (blk : Bytes)
    (hl : blk.length = (ttPad b).length) (hd : blk.drop 8 = (ttPad b).drop 8) : ∀ off,
    Layout (l1 ++ (t, b) :: l2) off (dirOf (l1 ++ (t, b) :: l2) off) (padsOf l1 ++ (blk ++ padsOf l2)) := by
  induction l1 with
  | nil =>
    intro off
    refine ⟨ttChecksum (ttPad b) b.length, dirOf l2 (off + (ttPad b).length), blk, padsOf l2, ?_, rfl, hl, fun h => absurd ht h, hd, layout_exact _ _⟩
    rw [List.nil_append, dirOf]
    simp only [List.append_assoc]
  | cons a l1 ih =>
    intro off
    obtain ⟨t', b'⟩ := a
    refine ⟨ttChecksum (ttPad b') b'.length, dirOf (l1 ++ (t, b) :: l2) (off + (ttPad b').length), ttPad b', padsOf l1 ++ (blk ++ padsOf l2), ?_, ?_, rfl,
      fun _ => rfl, rfl, ih _⟩
    · rw [List.cons_append, dirOf]
      simp only [List.append_assoc]
    · rw [padsOf_cons, List.append_assoc]

theorem lastHead_split (l : List (TtTable × Bytes)) : ∀ off acc h, lastHead l off acc = some h → acc = some h ∨
    ∃ l1 t b l2, l = l1 ++ (t, b) :: l2 ∧ t.tag = tagHead ∧ h = off + (padsOf l1).length := by
  induction l with
  | nil =>
    intro off acc h e
    exact Or.inl e
  | cons a l ih =>
    intro off acc h e
    obtain ⟨t, b⟩ := a
    rw [lastHead] at e
    rcases ih _ _ _ e with e | ⟨l1, t', b', l2, e1, e2, e3⟩
    · by_cases ht : t.tag = tagHead
      · rw [if_pos ht] at e
        cases e
        exact Or.inr ⟨[], t, b, l, rfl, ht, by simp [padsOf]⟩
      · rw [if_neg ht] at e
        exact Or.inl e
    · refine Or.inr ⟨(t, b) :: l1, t', b', l2, by rw [e1]; rfl, e2, ?_⟩
      rw [e3, padsOf_cons, List.length_append]
      omega

theorem beAt_mid (a b c : Bytes) (n off : Nat) (hoff : off = a.length) (hn : n = b.length) : Spec.beAt (a ++ (b ++ c)) off n = some (be b) := by
  subst hoff hn
  rw [Spec.beAt, if_pos (by simp only [List.length_append]; omega), List.drop_left, List.take_left]

theorem pad_take (b : Bytes) : (ttPad b).take b.length = b := by rw [ttPad, List.take_left]

theorem pad_length (b : Bytes) : b.length ≤ (ttPad b).length := by rw [ttPad, List.length_append]; omega

theorem layout_find (out : Bytes) (tag : Nat) (hout : out.length < 4294967296) (l : List (TtTable × Bytes)) : ∀ (i off : Nat) (pre dir mid blocks : Bytes),
    out = pre ++ (dir ++ (mid ++ blocks)) → pre.length = 12 + 16 * i → off = pre.length + dir.length + mid.length → Layout l off dir blocks →
    (∀ x ∈ l, x.1.tag < 4294967296) → ∀ t b, l.find? (fun x => x.1.tag == tag) = some (t, b) →
    ∃ j o T, Spec.ttFind out tag l.length i = some j ∧ Spec.beAt out (12 + 16 * j + 8) 4 = some o ∧ Spec.beAt out (12 + 16 * j + 12) 4 = some b.length ∧
      Spec.slice out o b.length = some T ∧ T.length = b.length ∧ (tag ≠ tagHead → T = b) ∧ T.drop 8 = b.drop 8 := by
  induction l with
  | nil =>
    intro i off pre dir mid blocks _ _ _ _ _ t b h
    cases h
  | cons a l ih =>
    intro i off pre dir mid blocks hsplit hpre hoff hlay htags t b h
    obtain ⟨t0, b0⟩ := a
    obtain ⟨ck, dir', blk, blocks', l1, l2, l3, l4, l5, l6⟩ := hlay
    have ht0 := htags (t0, b0) (by simp)
    dsimp only at ht0
    have hE : out = pre ++ (ttW32 t0.tag ++ (ttW32 ck ++ (ttW32 (off % 4294967296) ++ (ttW32 (b0.length % 4294967296) ++ (dir' ++ (mid ++ (blk ++ blocks'))))))) := by
      rw [hsplit, l1, l2]
      simp only [List.append_assoc]
    have hlen := congrArg List.length hE
    simp only [List.length_append, W32_length] at hlen
    have hdl : dir.length = 16 + dir'.length := by
      rw [l1]
      simp only [List.length_append, W32_length]
      omega
    have hpl := pad_length b0
    rw [List.find?_cons] at h
    rw [List.length_cons, Spec.ttFind]
    have htag : Spec.beAt out (12 + 16 * i) 4 = some t0.tag := by
      rw [hE, beAt_mid _ _ _ _ _ hpre.symm (W32_length _).symm, be_W32 _ ht0]
    rw [htag]
    by_cases ht : t0.tag = tag
    · have hb : (t0.tag == tag) = true := by simp [ht]
      dsimp only at h
      rw [hb] at h
      cases h
      rw [if_pos (by rw [ht])]
      have hT : (blk ++ blocks').take b.length = blk.take b.length := List.take_append_of_le_length (by omega)
      refine ⟨i, off % 4294967296, blk.take b.length, rfl, ?_, ?_, ?_, ?_, ?_, ?_⟩
      · rw [show out = (pre ++ ttW32 t.tag ++ ttW32 ck) ++ (ttW32 (off % 4294967296) ++ (ttW32 (b.length % 4294967296) ++ (dir' ++ (mid ++ (blk ++ blocks'))))) from by
          rw [hE]; simp only [List.append_assoc]]
        rw [beAt_mid _ _ _ _ _ (by simp only [List.length_append, W32_length, hpre]) (W32_length _).symm, be_W32 _ (Nat.mod_lt _ (by omega))]
      · rw [show out = (pre ++ ttW32 t.tag ++ ttW32 ck ++ ttW32 (off % 4294967296)) ++ (ttW32 (b.length % 4294967296) ++ (dir' ++ (mid ++ (blk ++ blocks')))) from by
          rw [hE]; simp only [List.append_assoc]]
        rw [beAt_mid _ _ _ _ _ (by simp only [List.length_append, W32_length, hpre]) (W32_length _).symm, be_W32 _ (Nat.mod_lt _ (by omega)),
          Nat.mod_eq_of_lt (by omega)]
      · rw [Nat.mod_eq_of_lt (by omega), Spec.slice, if_pos (by omega)]
        have : out = (pre ++ dir ++ mid) ++ (blk ++ blocks') := by
          rw [hsplit, l2]
          simp only [List.append_assoc]
        rw [this, show off = (pre ++ dir ++ mid).length from by simp only [List.length_append]; omega, List.drop_left, hT]
      · rw [List.length_take]
        omega
      · intro hne
        rw [l4 (by rw [ht]; exact hne), pad_take]
      · rw [List.drop_take, l5, ← List.drop_take, pad_take]
    · have hb : (t0.tag == tag) = false := by simp [ht]
      dsimp only at h
      rw [hb] at h
      dsimp only at h
      rw [if_neg (by simp [ht])]
      refine ih (i + 1) (off + (ttPad b0).length) (pre ++ (ttW32 t0.tag ++ (ttW32 ck ++ (ttW32 (off % 4294967296) ++ ttW32 (b0.length % 4294967296))))) dir' (mid ++ blk) blocks'
        ?_ ?_ ?_ l6 (fun x hx => htags x (by simp [hx])) t b h
      · rw [hE]
        simp only [List.append_assoc]
      · simp only [List.length_append, W32_length, hpre]
        omega
      · simp only [List.length_append, W32_length]
        omega

/-! ### The file -/

theorem header_length (n : Nat) : (ttHeader n).length = 12 := rfl

theorem header_count (n : Nat) (h : n < 65536) (r : Bytes) : Spec.beAt (ttHeader n ++ r) 4 2 = some n := by
  rw [show ttHeader n ++ r = ttW32 0x00010000 ++ (ttW16 (n % 65536) ++ (ttW16 (2 ^ ceilLog2 n % 65536) ++ ttW16 (ceilLog2 n % 65536) ++
    ttW16 ((16 * (n % 65536) + 4294967296 - 2 ^ ceilLog2 n % 65536) % 65536) ++ r)) from by rw [ttHeader]; simp only [List.append_assoc]]
  rw [beAt_mid _ _ _ _ _ (W32_length _).symm (W16_length _).symm, be_W16 _ (by omega), Nat.mod_eq_of_lt h]

theorem body_head_length {f : TtFont} {p : TtPlan} {t : TtTable} {b : Bytes} (ht : t.tag = tagHead) (h : f.body p t = .ok b) : 8 ≤ b.length := by
  rw [TtFont.body, if_pos ht, ttCopied] at h
  cases hr : ttRead f.file t.off t.len with
  | error e =>
    rw [hr] at h
    cases h
  | ok buf =>
    rw [hr] at h
    dsimp only at h
    rw [ttOver] at h
    by_cases hb : 4 + (ttW32 0).length > buf.length
    · rw [if_pos hb] at h
      cases h
    · rw [if_neg hb] at h
      cases h
      rw [W32_length] at hb
      simp only [List.length_append, List.length_take, List.length_drop, W32_length]
      omega

theorem write_layout {f : TtFont} {p : TtPlan} {out : Bytes} (h : f.write p = .ok out) : ∃ tbs dir blocks,
    tbs.map (·.1) = f.tables ∧ (∀ x ∈ tbs, f.body p x.1 = .ok x.2) ∧ out = ttHeader f.tables.length ++ (dir ++ blocks) ∧ dir.length = 16 * f.tables.length ∧
      Layout tbs (12 + 16 * f.tables.length) dir blocks := by
  rw [TtFont.write] at h
  cases hw : f.writeAll p f.tables 0 (ttHeader f.tables.length ++ ttPlaceholders f.tables) none with
  | error e =>
    rw [hw] at h
    cases h
  | ok q =>
    obtain ⟨buf, hd⟩ := q
    rw [hw] at h
    have hw' := hw
    rw [show ttHeader f.tables.length ++ ttPlaceholders f.tables = ttHeader f.tables.length ++ (ttPlaceholders f.tables ++ []) from by rw [List.append_nil]] at hw'
    obtain ⟨tbs, t1, t2, t3, t4⟩ := writeAll_spec f p f.tables 0 (ttHeader f.tables.length) [] none (header_length _) _ _ hw'
    cases hd with
    | none => cases h
    | some hp =>
      dsimp only at h
      rw [header_length, List.length_nil, Nat.add_zero] at t3 t4
      rcases lastHead_split tbs _ _ _ t4.symm with e | ⟨l1, t, b, l2, e1, e2, e3⟩
      · cases e
      · obtain ⟨w, hwd⟩ : ∃ w, w = ttW32 ((0xB1B0AFBA + 4294967296 - ttChecksum buf (buf.length % 4294967296)) % 4294967296) := ⟨_, rfl⟩
        rw [← hwd] at h
        have hwl : w.length = 4 := by rw [hwd]; rfl
        have hb8 : 8 ≤ b.length := body_head_length (f := f) (p := p) e2 (t2 (t, b) (by rw [e1]; simp))
        have hp8 := pad_length b
        have htl : tbs.length = f.tables.length := by rw [← t1, List.length_map]
        have hpads : padsOf tbs = padsOf l1 ++ (ttPad b ++ padsOf l2) := by
          rw [e1, padsOf, List.flatMap_append, List.flatMap_cons]
          rfl
        have hsplit : buf = (ttHeader f.tables.length ++ dirOf tbs (12 + 16 * f.tables.length) ++ padsOf l1 ++ (ttPad b).take 4) ++
            (((ttPad b).drop 4).take 4 ++ ((ttPad b).drop 8 ++ padsOf l2)) := by
          rw [t3, hpads]
          have : ttPad b = (ttPad b).take 4 ++ (((ttPad b).drop 4).take 4 ++ (ttPad b).drop 8) := by
            rw [show (ttPad b).drop 8 = ((ttPad b).drop 4).drop 4 from by rw [List.drop_drop], List.take_append_drop, List.take_append_drop]
          conv => lhs; rw [this]
          simp only [List.append_assoc, List.nil_append]
        rw [hsplit, ttOver_at (by
          simp only [List.length_append, header_length, dirOf_length, List.length_take, htl]
          omega) (by rw [hwl, List.length_take, List.length_drop]; omega)] at h
        cases h
        refine ⟨tbs, dirOf tbs (12 + 16 * f.tables.length), padsOf l1 ++ (((ttPad b).take 4 ++ (w ++ (ttPad b).drop 8)) ++ padsOf l2), t1, t2, ?_, ?_, ?_⟩
        · simp only [List.append_assoc]
        · rw [dirOf_length, htl]
        · have hl4 : ((ttPad b).take 4).length = 4 := by rw [List.length_take]; omega
          have := layout_patched l1 t b l2 e2 ((ttPad b).take 4 ++ (w ++ (ttPad b).drop 8)) (by
            simp only [List.length_append, hl4, hwl, List.length_drop]
            omega) (by
            rw [show (ttPad b).take 4 ++ (w ++ (ttPad b).drop 8) = ((ttPad b).take 4 ++ w) ++ (ttPad b).drop 8 from by rw [List.append_assoc]]
            rw [List.drop_append, List.drop_eq_nil_of_le (by rw [List.length_append, hl4, hwl]; omega), List.nil_append, List.length_append, hl4, hwl]
            rfl) (12 + 16 * f.tables.length)
          rw [← e1] at this
          exact this

theorem find_map_fst (tag : Nat) (l : List (TtTable × Bytes)) {t : TtTable} (h : (l.map (·.1)).find? (fun (t : TtTable) => t.tag == tag) = some t) :
    ∃ b, l.find? (fun x => x.1.tag == tag) = some (t, b) := by
  induction l with
  | nil => cases h
  | cons a l ih =>
    rw [List.map_cons, List.find?_cons] at h
    rw [List.find?_cons]
    by_cases ht : (a.1.tag == tag) = true
    · rw [ht] at h ⊢
      cases h
      exact ⟨a.2, rfl⟩
    · have ht' : (a.1.tag == tag) = false := by simpa using ht
      rw [ht'] at h ⊢
      exact ih h

/-- A table of the file that is written is the table that was made for the entry of the font; of the table `head` the first eight bytes may be
others. -/
theorem write_table {f : TtFont} {p : TtPlan} {out : Bytes} (h : f.write p = .ok out) (hout : out.length < 4294967296) (hsize : f.tables.length < 65536)
    (hkept : ∀ t ∈ f.tables, t.tag < 4294967296) {tag : Nat} {t : TtTable} (ht : f.tables.find? (fun (t : TtTable) => t.tag == tag) = some t) :
    ∃ b T, f.body p t = .ok b ∧ Spec.ttTable out tag = some T ∧ T.length = b.length ∧ (tag ≠ tagHead → T = b) ∧ T.drop 8 = b.drop 8 := by
  obtain ⟨tbs, dir, blocks, w1, w2, w3, w4, w5⟩ := write_layout h
  rw [← w1] at ht
  obtain ⟨b, hb⟩ := find_map_fst tag tbs ht
  have htl : tbs.length = f.tables.length := by rw [← w1, List.length_map]
  obtain ⟨j, o, T, f1, f2, f3, f4, f5, f6, f7⟩ := layout_find out tag hout tbs 0 (12 + 16 * f.tables.length) (ttHeader f.tables.length) dir [] blocks w3
    (header_length _) (by rw [header_length, w4]; rfl) w5 (fun x hx => hkept x.1 (by rw [← w1]; exact List.mem_map_of_mem hx)) t b hb
  refine ⟨b, T, w2 (t, b) (List.mem_of_find?_eq_some hb), ?_, f5, f6, f7⟩
  rw [Spec.ttTable, show Spec.beAt out 4 2 = some tbs.length from by rw [w3, htl]; exact header_count _ hsize _]
  dsimp only
  rw [f1]
  dsimp only
  rw [f2, f3]
  exact f4

end Pdfmm
