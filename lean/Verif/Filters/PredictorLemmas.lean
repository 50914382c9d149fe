import Verif.Filters.PredictorModel
import Verif.Filters.Spec
/- Helper lemmas for the predictor. -/
namespace Pdfmm
open Codec Spec

/-- The row buffer while byte `i` of `raw` is being decoded over `prior`. -/
def mixRow (raw prior : Bytes) (i : Nat) : Bytes := raw.take i ++ prior.drop i

theorem mixRow_length (raw prior : Bytes) (i : Nat) (h : raw.length = prior.length) (hi : i ≤ raw.length) :
    (mixRow raw prior i).length = raw.length := by
  simp [mixRow]; omega

theorem mixRow_get (raw prior : Bytes) (i j : Nat) (_h : raw.length = prior.length) (hi : i ≤ raw.length) :
    (mixRow raw prior i)[j]? = if j < i then raw[j]? else prior[j]? := by
  unfold mixRow
  rw [List.getElem?_append]
  have hl : (raw.take i).length = i := by simp; omega
  rw [hl]
  split
  · next h1 => rw [List.getElem?_take, if_pos h1]
  · next h1 => rw [List.getElem?_drop]; congr 1; omega

theorem mixRow_set (raw prior : Bytes) (i : Nat) (h : raw.length = prior.length) (hi : i < raw.length)
    (x : Byte) (hx : raw[i]? = some x) :
    (mixRow raw prior i).set i x = mixRow raw prior (i + 1) := by
  apply List.ext_getElem?
  intro j
  rw [List.getElem?_set, mixRow_length _ _ _ h (by omega), mixRow_get _ _ _ _ h (by omega),
    mixRow_get _ _ _ _ h (by omega)]
  by_cases h1 : i = j
  · subst h1; rw [if_pos rfl, if_pos hi, if_pos (by omega), hx]
  · rw [if_neg h1]
    by_cases h2 : j < i
    · rw [if_pos h2, if_pos (by omega)]
    · rw [if_neg h2, if_neg (by omega)]

theorem byteAt_get (row : Bytes) (i : Nat) (h : i < row.length) : row[i]? = some (byteAt row i) := by
  unfold byteAt
  rw [List.getElem?_eq_getElem h, List.getD_eq_getElem?_getD, List.getElem?_eq_getElem h]
  rfl

theorem predLeft_mix (cfg : PredCfg) (st : PredState) (raw prior : Bytes) (hb : 1 ≤ cfg.bpp)
    (h : raw.length = prior.length) (hi : st.row < raw.length) (hp : st.prev = mixRow raw prior st.row) :
    predLeft cfg st = .ok (leftAt cfg.bpp raw st.row) := by
  unfold predLeft leftAt
  split
  · rfl
  · rw [hp, mixRow_get _ _ _ _ h (by omega), if_pos (by omega), byteAt_get _ _ (by omega)]

theorem u8_sub_add (a b : UInt8) : a - b + b = a := by
  simp

theorem u8_add_sub (a b : UInt8) : b + (a - b) = a := by
  rw [UInt8.add_comm, u8_sub_add]

theorem paeth_eq (a b c : Byte) : paethClosest a b c = pngPaeth a b c := rfl

/-- Signed average agrees with the unsigned one when left and up are on the same side of 128. -/
theorem average_same_side (l u x : Byte) (h : l.toNat < 128 ↔ u.toNat < 128) :
    toChar ((schar l + schar u) / 2 + schar (x - UInt8.ofNat ((l.toNat + u.toNat) / 2))) = x := by
  have hl := l.toNat_lt
  have hu := u.toNat_lt
  have hx := x.toNat_lt
  apply UInt8.toNat_inj.mp
  unfold toChar
  rw [UInt8.toNat_ofNat']
  have hd : (x - UInt8.ofNat ((l.toNat + u.toNat) / 2)).toNat
      = (256 - (l.toNat + u.toNat) / 2 + x.toNat) % 256 := by
    rw [UInt8.toNat_sub, UInt8.toNat_ofNat']
    omega
  unfold schar
  rw [hd]
  split <;> split <;> split <;> omega

/-- One filtered byte. -/
theorem predSwitch_png (cfg : PredCfg) (st : PredState) (t : Nat) (raw prior : Bytes)
    (ht : t ≤ 4) (hb : 1 ≤ cfg.bpp) (h : raw.length = prior.length) (hi : st.row < raw.length)
    (hc : st.curr = 10 + t) (hp : st.prev = mixRow raw prior st.row) (hul : st.ul.length = cfg.bpp)
    (hulv : t = 4 → ∀ j, j < st.row → st.row ≤ j + cfg.bpp → st.ul[j % cfg.bpp]? = some (byteAt prior j))
    (hav : t = 3 → ((leftAt cfg.bpp raw st.row).toNat < 128 ↔ (byteAt prior st.row).toNat < 128)) :
    ∃ ul', predSwitch cfg st (byteAt raw st.row - pngPredict t (leftAt cfg.bpp raw st.row)
        (byteAt prior st.row) (leftAt cfg.bpp prior st.row)) =
      .ok { st with prev := mixRow raw prior (st.row + 1), ul := ul' } ∧ ul'.length = cfg.bpp ∧
      (t = 4 → ∀ j, j < st.row + 1 → st.row + 1 ≤ j + cfg.bpp → ul'[j % cfg.bpp]? = some (byteAt prior j)) := by
  have hleft := predLeft_mix cfg st raw prior hb h hi hp
  have hlen : st.prev.length = raw.length := by rw [hp, mixRow_length _ _ _ h (by omega)]
  have hraw := byteAt_get raw st.row hi
  have hset := mixRow_set raw prior st.row h hi _ hraw
  have hup : st.prev[st.row]? = some (byteAt prior st.row) := by
    rw [hp, mixRow_get _ _ _ _ h (by omega), if_neg (by omega), byteAt_get _ _ (by omega)]
  unfold predSwitch
  have ht5 : t = 0 ∨ t = 1 ∨ t = 2 ∨ t = 3 ∨ t = 4 := by omega
  rcases ht5 with rfl | rfl | rfl | rfl | rfl
  · rw [if_neg (by omega), if_pos (by omega), if_pos (by omega)]
    refine ⟨st.ul, ?_, hul, by intro hh; omega⟩
    simp only [pngPredict, UInt8.sub_zero]
    rw [hp, hset]
  · rw [if_neg (by omega), if_neg (by omega), if_pos (by omega)]
    refine ⟨st.ul, ?_, hul, by intro hh; omega⟩
    unfold predSub
    rw [hleft]
    simp only [pngPredict]
    rw [if_pos (by omega), u8_sub_add, hp, hset]
  · rw [if_neg (by omega), if_neg (by omega), if_neg (by omega), if_pos (by omega)]
    refine ⟨st.ul, ?_, hul, by intro hh; omega⟩
    rw [hup]
    simp only [pngPredict]
    rw [u8_add_sub, hp, hset]
  · rw [if_neg (by omega), if_neg (by omega), if_neg (by omega), if_neg (by omega), if_pos (by omega)]
    refine ⟨st.ul, ?_, hul, by intro hh; omega⟩
    rw [hup, hleft]
    simp only [pngPredict]
    rw [average_same_side _ _ _ (hav rfl), hp, hset]
  · rw [if_neg (by omega), if_neg (by omega), if_neg (by omega), if_neg (by omega), if_neg (by omega),
      if_pos (by omega)]
    rw [hup, hleft]
    simp only
    rw [if_neg (by omega)]
    have hmod : st.row % cfg.bpp < st.ul.length := by rw [hul]; exact Nat.mod_lt _ (by omega)
    obtain ⟨u, hu⟩ : ∃ u, st.ul[st.row % cfg.bpp]? = some u := ⟨_, List.getElem?_eq_getElem hmod⟩
    rw [hu]
    simp only
    have hcc : (if st.row < cfg.bpp then 0 else u) = leftAt cfg.bpp prior st.row := by
      unfold leftAt
      split
      · rfl
      · next hge =>
        have := hulv rfl (st.row - cfg.bpp) (by omega) (by omega)
        have hm : (st.row - cfg.bpp) % cfg.bpp = st.row % cfg.bpp := by
          conv => rhs; rw [show st.row = st.row - cfg.bpp + cfg.bpp by omega]
          rw [Nat.add_mod_right]
        rw [hm, hu] at this
        exact Option.some.inj this
    rw [hcc, paeth_eq]
    refine ⟨st.ul.set (st.row % cfg.bpp) (byteAt prior st.row), ?_, by simp [hul], ?_⟩
    · simp only [pngPredict]
      rw [u8_sub_add, hp, hset]
    · intro _ j hj1 hj2
      rw [List.getElem?_set]
      by_cases he : j = st.row
      · subst he; rw [if_pos rfl, if_pos hmod]
      · rw [if_neg ?_, hulv rfl j (by omega) (by omega)]
        intro hmm
        -- two different positions less than `bpp` apart
        have h1 : (st.row - j) % cfg.bpp = 0 := Nat.sub_mod_eq_zero_of_mod_eq hmm
        rw [Nat.mod_eq_of_lt (by omega)] at h1
        omega

/-- The rest of a row, from byte `i` on. -/
theorem pred_row_loop (cfg : PredCfg) (st0 : PredState) (t : Nat) (raw prior : Bytes)
    (ht : t ≤ 4) (hb : 1 ≤ cfg.bpp) (h : raw.length = prior.length) (hn : raw.length = cfg.rows)
    (hav : t = 3 → ∀ i, i < raw.length →
      ((leftAt cfg.bpp raw i).toNat < 128 ↔ (byteAt prior i).toNat < 128)) (rest : Bytes) :
    ∀ k (st : PredState), k + st.row = raw.length → 0 < k → st.next = false → st.curr = 10 + t →
      st.prev = mixRow raw prior st.row → st.ul.length = cfg.bpp →
      (t = 4 → ∀ j, j < st.row → st.row ≤ j + cfg.bpp → st.ul[j % cfg.bpp]? = some (byteAt prior j)) →
      ∃ st', st'.row = 0 ∧ st'.next = true ∧ st'.prev = raw ∧ st'.ul.length = cfg.bpp ∧
        (predStepper cfg st0).loop st ((pngFilterRow cfg.bpp t prior raw).drop st.row ++ rest) =
          match (predStepper cfg st0).loop st' rest with
          | .error e => .error e
          | .ok (s, o) => .ok (s, raw :: o) := by
  intro k
  induction k with
  | zero => intro st _ h0; omega
  | succ k ih =>
    intro st hk _ hnext hc hp hul hulv
    have hi : st.row < raw.length := by omega
    have hfl : (pngFilterRow cfg.bpp t prior raw).length = raw.length := by simp [pngFilterRow]
    obtain ⟨ul', hsw, hul', hulv'⟩ := predSwitch_png cfg st t raw prior ht hb h hi hc hp hul hulv
      (fun h3 => hav h3 _ hi)
    have hdrop : (pngFilterRow cfg.bpp t prior raw).drop st.row =
        (byteAt raw st.row - pngPredict t (leftAt cfg.bpp raw st.row) (byteAt prior st.row)
          (leftAt cfg.bpp prior st.row)) :: (pngFilterRow cfg.bpp t prior raw).drop (st.row + 1) := by
      rw [List.drop_eq_getElem_cons (by omega)]
      congr 1
      simp [pngFilterRow]
    rw [hdrop, List.cons_append]
    have hstep : (predStepper cfg st0).step = predStep cfg := rfl
    by_cases hlast : k = 0
    · subst hlast
      refine ⟨{ st with prev := mixRow raw prior (st.row + 1), ul := ul', row := 0, next := true }, rfl, rfl, ?_,
        hul', ?_⟩
      · show mixRow raw prior (st.row + 1) = raw
        have : st.row + 1 = raw.length := by omega
        rw [this]
        unfold mixRow
        rw [List.take_length, List.drop_eq_nil_of_le (by omega), List.append_nil]
      · have hmix : mixRow raw prior (st.row + 1) = raw := by
          have : st.row + 1 = raw.length := by omega
          rw [this]
          unfold mixRow
          rw [List.take_length, List.drop_eq_nil_of_le (by omega), List.append_nil]
        have hdr : (pngFilterRow cfg.bpp t prior raw).drop (st.row + 1) = [] :=
          List.drop_eq_nil_of_le (by omega)
        rw [hdr, List.nil_append]
        conv => lhs; unfold Stepper.loop
        rw [hstep]
        unfold predStep
        rw [hnext, hsw]
        simp only [Bool.false_eq_true, if_false]
        rw [if_pos (by omega)]
        simp only [hmix, hc]
        have h10 : decide ((10 : Int) + t ≥ 10) = true := by simp; omega
        rw [h10]
        cases (predStepper cfg st0).loop _ rest <;> rfl
    · obtain ⟨st', h1, h2, h3, h4, h5⟩ := ih
        { st with prev := mixRow raw prior (st.row + 1), ul := ul', row := st.row + 1 }
        (by show k + (st.row + 1) = _; omega) (by omega) hnext hc rfl hul' hulv'
      refine ⟨st', h1, h2, h3, h4, ?_⟩
      conv => lhs; unfold Stepper.loop
      rw [hstep]
      unfold predStep
      rw [hnext, hsw]
      simp only [Bool.false_eq_true, if_false]
      rw [if_neg (by omega)]
      simp only
      simp only at h5
      rw [h5]
      cases (predStepper cfg st0).loop st' rest with
      | error e => rfl
      | ok p => rfl

/-- In rows filtered with Average, the bytes to the left and above are both below or both at least 128. -/
def AverageSameSide (bpp : Nat) (prior : Bytes) : List (Nat × Bytes) → Prop
  | [] => True
  | (t, raw) :: rows =>
    (t = 3 → ∀ i, i < raw.length → ((leftAt bpp raw i).toNat < 128 ↔ (byteAt prior i).toNat < 128)) ∧
    AverageSameSide bpp raw rows

/-- A whole image. -/
theorem pred_image_loop (cfg : PredCfg) (st0 : PredState) (img : List (Nat × Bytes)) :
    ∀ (st : PredState), 1 ≤ cfg.bpp → 1 ≤ cfg.rows → st.row = 0 → st.next = true →
      st.prev.length = cfg.rows → st.ul.length = cfg.bpp →
      (∀ r ∈ img, r.1 ≤ 4 ∧ r.2.length = cfg.rows) →
      AverageSameSide cfg.bpp st.prev img →
      ∃ s, (predStepper cfg st0).loop st (pngFilterImage cfg.bpp st.prev img) =
        .ok (s, img.map Prod.snd) := by
  induction img with
  | nil => intro st _ _ _ _ _ _ _ _; exact ⟨st, rfl⟩
  | cons r img ih =>
    obtain ⟨t, raw⟩ := r
    intro st hb hr hrow hnext hprev hul hrows hav
    have hr0 := hrows (t, raw) (by simp)
    simp only at hr0
    have hts : schar (UInt8.ofNat t) + 10 = 10 + (t : Int) := by
      unfold schar
      rw [UInt8.toNat_ofNat', Nat.mod_eq_of_lt (by omega), if_pos (by omega)]
      omega
    simp only [pngFilterImage, List.cons_append]
    have hstep : (predStepper cfg st0).step = predStep cfg := rfl
    have hs1 : predStep cfg st (UInt8.ofNat t) = .ok ({ st with curr := 10 + (t : Int), next := false }, []) := by
      unfold predStep
      rw [hnext]
      simp only [if_true, hts]
      rw [if_neg (by omega)]
    obtain ⟨st', h1, h2, h3, h4, h5⟩ := pred_row_loop cfg st0 t raw st.prev hr0.1 hb (by omega) hr0.2
      hav.1 (pngFilterImage cfg.bpp raw img) raw.length
      { st with curr := 10 + (t : Int), next := false } (by show raw.length + st.row = _; omega) (by omega) rfl rfl
      (by show st.prev = mixRow raw st.prev st.row; rw [hrow]; simp [mixRow]) hul
      (by intro _ j hj; rw [show ({ st with curr := 10 + (t : Int), next := false } : PredState).row = st.row from rfl, hrow] at hj; omega)
    obtain ⟨s, hs⟩ := ih st' hb hr h1 h2 (by rw [h3]; exact hr0.2) h4
      (fun r hr => hrows r (by simp [hr]))
      (by rw [h3]; exact hav.2)
    rw [h3] at hs
    refine ⟨s, ?_⟩
    conv => lhs; unfold Stepper.loop
    rw [hstep, hs1]
    simp only [hrow]
    simp only [hrow, List.drop_zero] at h5
    rw [h5, hs]
    rfl

/-- TIFF: the rest of a row, from byte `i` on. -/
theorem tiff_row_loop (cfg : PredCfg) (st0 : PredState) (raw prior : Bytes)
    (hb : 1 ≤ cfg.bpp) (hbpc : cfg.bpc = 8) (h : raw.length = prior.length) (hn : raw.length = cfg.rows)
    (rest : Bytes) :
    ∀ k (st : PredState), k + st.row = raw.length → 0 < k → st.next = false → st.curr = 2 →
      st.prev = mixRow raw prior st.row →
      ∃ st', st'.row = 0 ∧ st'.next = false ∧ st'.curr = 2 ∧ st'.prev = raw ∧
        (predStepper cfg st0).loop st ((tiffRow cfg.bpp raw).drop st.row ++ rest) =
          match (predStepper cfg st0).loop st' rest with
          | .error e => .error e
          | .ok (s, o) => .ok (s, raw :: o) := by
  intro k
  induction k with
  | zero => intro st _ h0; omega
  | succ k ih =>
    intro st hk _ hnext hc hp
    have hi : st.row < raw.length := by omega
    have hfl : (tiffRow cfg.bpp raw).length = raw.length := by simp [tiffRow]
    have hleft := predLeft_mix cfg st raw prior hb h hi hp
    have hlen : st.prev.length = raw.length := by rw [hp, mixRow_length _ _ _ h (by omega)]
    have hset := mixRow_set raw prior st.row h hi _ (byteAt_get raw st.row hi)
    have hsw : predSwitch cfg st (byteAt raw st.row - leftAt cfg.bpp raw st.row) =
        .ok { st with prev := mixRow raw prior (st.row + 1) } := by
      unfold predSwitch predSub
      rw [if_pos hc, if_pos hbpc, hleft]
      simp only
      rw [if_pos (by omega), u8_sub_add, hp, hset]
    have hdrop : (tiffRow cfg.bpp raw).drop st.row =
        (byteAt raw st.row - leftAt cfg.bpp raw st.row) :: (tiffRow cfg.bpp raw).drop (st.row + 1) := by
      rw [List.drop_eq_getElem_cons (by omega)]
      congr 1
      simp [tiffRow]
    rw [hdrop, List.cons_append]
    have hstep : (predStepper cfg st0).step = predStep cfg := rfl
    by_cases hlast : k = 0
    · subst hlast
      have hmix : mixRow raw prior (st.row + 1) = raw := by
        have : st.row + 1 = raw.length := by omega
        rw [this]
        unfold mixRow
        rw [List.take_length, List.drop_eq_nil_of_le (by omega), List.append_nil]
      refine ⟨{ st with prev := mixRow raw prior (st.row + 1), row := 0, next := false }, rfl, rfl, hc, hmix, ?_⟩
      have hdr : (tiffRow cfg.bpp raw).drop (st.row + 1) = [] :=
        List.drop_eq_nil_of_le (by omega)
      rw [hdr, List.nil_append]
      conv => lhs; unfold Stepper.loop
      rw [hstep]
      unfold predStep
      rw [hnext, hsw]
      simp only [Bool.false_eq_true, if_false]
      rw [if_pos (by omega)]
      simp only [hmix, hc]
      have h10 : decide ((2 : Int) ≥ 10) = false := by decide
      rw [h10]
      cases (predStepper cfg st0).loop _ rest <;> rfl
    · obtain ⟨st', h1, h2, h3, h4, h5⟩ := ih
        { st with prev := mixRow raw prior (st.row + 1), row := st.row + 1 }
        (by show k + (st.row + 1) = _; omega) (by omega) hnext hc rfl
      refine ⟨st', h1, h2, h3, h4, ?_⟩
      conv => lhs; unfold Stepper.loop
      rw [hstep]
      unfold predStep
      rw [hnext, hsw]
      simp only [Bool.false_eq_true, if_false]
      rw [if_neg (by omega)]
      simp only
      simp only at h5
      rw [h5]
      cases (predStepper cfg st0).loop st' rest with
      | error e => rfl
      | ok p => rfl

theorem tiff_image_loop (cfg : PredCfg) (st0 : PredState) (img : List Bytes) :
    ∀ (st : PredState), 1 ≤ cfg.bpp → 1 ≤ cfg.rows → cfg.bpc = 8 → st.row = 0 → st.next = false →
      st.curr = 2 → st.prev.length = cfg.rows → (∀ r ∈ img, r.length = cfg.rows) →
      ∃ s, (predStepper cfg st0).loop st ((img.map (tiffRow cfg.bpp)).flatten) = .ok (s, img) := by
  induction img with
  | nil => intro st _ _ _ _ _ _ _ _; exact ⟨st, rfl⟩
  | cons raw img ih =>
    intro st hb hr hbpc hrow hnext hc hprev hrows
    have hr0 := hrows raw (by simp)
    obtain ⟨st', h1, h2, h3, h4, h5⟩ := tiff_row_loop cfg st0 raw st.prev hb hbpc (by omega) hr0
      ((img.map (tiffRow cfg.bpp)).flatten) raw.length st (by omega) (by omega) hnext hc
      (by rw [hrow]; simp [mixRow])
    obtain ⟨s, hs⟩ := ih st' hb hr hbpc h1 h2 h3 (by rw [h4]; exact hr0)
      (fun r hr => hrows r (by simp [hr]))
    refine ⟨s, ?_⟩
    rw [hrow, List.drop_zero] at h5
    simp only [List.map_cons, List.flatten_cons]
    rw [h5, hs]

/-! ### Memory safety -/

/-- Well-formed decoder state. -/
structure PredInv (cfg : PredCfg) (st : PredState) : Prop where
  row : st.row < cfg.rows
  prev : st.prev.length = cfg.rows
  ul : st.ul.length = cfg.bpp

theorem predSwitch_safe (cfg : PredCfg) (st : PredState) (b : Byte) (hb : 1 ≤ cfg.bpp) (h : PredInv cfg st) :
    predSwitch cfg st b = raise .InvalidPredictor ∨
    ∃ st', predSwitch cfg st b = .ok st' ∧ PredInv cfg st' := by
  have hr := h.row
  have hp := h.prev
  have hu := h.ul
  have hleft : ∃ l, predLeft cfg st = .ok l := by
    unfold predLeft
    split
    · exact ⟨_, rfl⟩
    · rw [List.getElem?_eq_getElem (by omega)]; exact ⟨_, rfl⟩
  obtain ⟨l, hl⟩ := hleft
  have hup : ∃ u, st.prev[st.row]? = some u := ⟨_, List.getElem?_eq_getElem (by omega)⟩
  obtain ⟨u, hup⟩ := hup
  have hmod : st.row % cfg.bpp < st.ul.length := by rw [hu]; exact Nat.mod_lt _ (by omega)
  have hul : ∃ u, st.ul[st.row % cfg.bpp]? = some u := ⟨_, List.getElem?_eq_getElem hmod⟩
  obtain ⟨v, hul⟩ := hul
  have hsub : ∃ st', predSub cfg st b = .ok st' ∧ PredInv cfg st' := by
    unfold predSub
    rw [hl]
    simp only
    rw [if_pos (by omega)]
    exact ⟨_, rfl, hr, by simpa using hp, hu⟩
  unfold predSwitch
  split
  · split
    · exact Or.inr hsub
    · exact Or.inl rfl
  · split
    · rw [if_pos (by omega)]; exact Or.inr ⟨_, rfl, hr, by simpa using hp, hu⟩
    · split
      · exact Or.inr hsub
      · split
        · rw [hup]; exact Or.inr ⟨_, rfl, hr, by simpa using hp, hu⟩
        · split
          · rw [hl, hup]; exact Or.inr ⟨_, rfl, hr, by simpa using hp, hu⟩
          · split
            · rw [hl, hup]
              simp only
              rw [if_neg (by omega), hul]
              exact Or.inr ⟨_, rfl, hr, by simpa using hp, by simpa using hu⟩
            · split
              · exact Or.inl rfl
              · exact Or.inr ⟨_, rfl, hr, hp, hu⟩

theorem predLoop_safe (cfg : PredCfg) (st0 : PredState) (bs : Bytes) (hb : 1 ≤ cfg.bpp) :
    ∀ st, PredInv cfg st →
      (predStepper cfg st0).loop st bs = raise .InvalidPredictor ∨
      ∃ st' o, (predStepper cfg st0).loop st bs = .ok (st', o) ∧ ∀ w ∈ o, w.length = cfg.rows := by
  induction bs with
  | nil => intro st _; exact Or.inr ⟨st, [], rfl, by simp⟩
  | cons b bs ih =>
    intro st h
    have hr := h.row
    have hstep : (predStepper cfg st0).step st b = raise .InvalidPredictor ∨
        ∃ st' o, (predStepper cfg st0).step st b = .ok (st', o) ∧ PredInv cfg st' ∧
          ∀ w ∈ o, w.length = cfg.rows := by
      show predStep cfg st b = _ ∨ ∃ st' o, predStep cfg st b = _ ∧ _
      unfold predStep
      by_cases hn : st.next = true
      · simp only [hn, if_true]
        rw [if_neg (by omega)]
        exact Or.inr ⟨_, _, rfl, ⟨hr, h.prev, h.ul⟩, by simp⟩
      · simp only [hn]
        rcases predSwitch_safe cfg st b hb h with h1 | ⟨st', h1, h2⟩
        · rw [h1]; exact Or.inl rfl
        · rw [h1]
          have := h2.row
          simp only [Bool.false_eq_true, if_false]
          split
          · exact Or.inr ⟨_, _, rfl, ⟨by show 0 < cfg.rows; omega, h2.prev, h2.ul⟩, by simpa using h2.prev⟩
          · next hlt => exact Or.inr ⟨_, _, rfl, ⟨by show st'.row + 1 < cfg.rows; omega, h2.prev, h2.ul⟩, by simp⟩
    unfold Stepper.loop
    rcases hstep with h1 | ⟨st1, o1, h1, h2, h3⟩
    · rw [h1]; exact Or.inl rfl
    · rw [h1]
      simp only
      rcases ih st1 h2 with h4 | ⟨st2, o2, h4, h5⟩
      · rw [h4]; exact Or.inl rfl
      · rw [h4]
        refine Or.inr ⟨_, _, rfl, ?_⟩
        intro w hw
        rcases List.mem_append.mp hw with hw | hw
        · exact h3 w hw
        · exact h5 w hw

end Pdfmm
