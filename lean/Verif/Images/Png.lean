import Verif.Images.ImageObjProps
set_option autoImplicit false
/-!
# Images from PNG files

`LoadFromPngContent`: what becomes of the lines that libpng gives.  The library is not modelled: a picture is what it gives after the transformations that are asked of it.  Property C176.
-/
namespace Pdfmm
open Codec

/-- The colour types of PNG, as `png_get_IHDR` gives them after `png_read_update_info`, `src/pdfmm/base/PdfImage.cpp:1145-1148`. -/
inductive PngType
  | gray | rgb | palette | grayAlpha | rgbAlpha
  deriving DecidableEq

/-- What libpng gives, `src/pdfmm/base/PdfImage.cpp:1145-1168`: the lines one after the other, the palette and the opacities of its entries. -/
structure PngPic where
  width : Nat
  height : Nat
  depth : Nat
  kind : PngType
  rowLen : Nat
  lines : Bytes
  plte : List (Byte × Byte × Byte)
  trns : Option (List Byte)

/-- A loop over `n` steps. -/
def pngSteps {σ : Type} (f : Nat → σ → Res σ) : Nat → σ → Res σ
  | 0, s => .ok s
  | n + 1, s => (pngSteps f n s).bind (f n)

/-- `memmove` of three bytes within a buffer, `src/pdfmm/base/PdfImage.cpp:1217`. -/
def move3 (b : Bytes) (dst src : Nat) : Res Bytes :=
  if dst + 3 ≤ b.length ∧ src + 3 ≤ b.length then .ok (b.take dst ++ (b.drop src).take 3 ++ b.drop (dst + 3)) else .error .ub

/-- A step of the loops of `src/pdfmm/base/PdfImage.cpp:1212-1220`: `k` counts the pixels, line by line; indices are of 32 bits. -/
def rgbaStep (w rowLen k : Nat) (s : Bytes × Bytes) : Res (Bytes × Bytes) :=
  (move3 s.1 (uns (3 * uns k)) (k / w * rowLen + uns (4 * (k % w)))).bind fun b =>
    (strGet b (k / w * rowLen + uns ((k % w) * 4 + 3))).bind fun a => (strSet s.2 (uns k) a).map fun m => (b, m)

/-- A step of the loops of `src/pdfmm/base/PdfImage.cpp:1225-1233`. -/
def greyAStep (w rowLen k : Nat) (s : Bytes × Bytes) : Res (Bytes × Bytes) :=
  (strGet s.1 (k / w * rowLen + uns ((k % w) * 2))).bind fun g => (strSet s.1 (uns k) g).bind fun b =>
    (strGet b (k / w * rowLen + uns ((k % w) * 2 + 1))).bind fun a => (strSet s.2 (uns k) a).map fun m => (b, m)

/-- The entry of the palette for a pixel, `src/pdfmm/base/PdfImage.cpp:1188-1204`. -/
def palColor (b : Bytes) (row depth c : Nat) : Res Nat :=
  if depth = 8 then (strGet b (row + c)).map UInt8.toNat
  else if depth = 4 then (strGet b (row + c / 2)).map fun v => if c % 2 ≠ 0 then v.toNat / 16 else v.toNat % 16
  else if depth = 2 then (strGet b (row + c / 4)).map fun v => v.toNat / 2 ^ (c % 4 * 2) % 4
  else if depth = 1 then (strGet b (row + c / 4)).map fun v => v.toNat / 2 ^ (c % 8) % 2
  else raise .InvalidEnumValue

/-- A step of the loops of `src/pdfmm/base/PdfImage.cpp:1182-1208`. -/
def palStep (b : Bytes) (w rowLen depth : Nat) (trns : List Byte) (k : Nat) (m : Bytes) : Res Bytes :=
  (palColor b (k / w * rowLen) depth (k % w)).bind fun c => strSet m (uns k) (trns.getD c 255)

/-- The buffer and the soft mask, `src/pdfmm/base/PdfImage.cpp:1170-1235`. -/
def PngPic.split (p : PngPic) : Res (Bytes × Option Bytes) :=
  let smask := List.replicate (uns (p.width * p.height)) (0 : Byte)
  match p.kind with
  | .palette =>
    match p.trns with
    | none => .ok (p.lines, none)
    | some t => (pngSteps (palStep p.lines p.width p.rowLen p.depth t) (p.width * p.height) smask).map fun m => (p.lines, some m)
  | .rgbAlpha => (pngSteps (rgbaStep p.width p.rowLen) (p.width * p.height) (p.lines, smask)).map fun s => (s.1, some s.2)
  | .grayAlpha => (pngSteps (greyAStep p.width p.rowLen) (p.width * p.height) (p.lines, smask)).map fun s => (s.1, some s.2)
  | .gray | .rgb => .ok (p.lines, none)

/-- The description of the image, `src/pdfmm/base/PdfImage.cpp:1248-1282`; the palette is the object `pal`. -/
def PngPic.info (p : PngPic) (pal : Ref) : ImInfo :=
  { width := p.width, height := p.height, filters := [], bits := UInt8.ofNat p.depth, decode := [],
    color := match p.kind with
      | .palette => none
      | .gray | .grayAlpha => some .DeviceGray
      | .rgb | .rgbAlpha => some .DeviceRGB,
    colorArr := if p.kind = .palette then [.name (litBytes "DeviceRGB"), .num ((p.plte.length : Int) - 1), .ref pal.num pal.gen] else [] }

/-- The description of the soft mask, `src/pdfmm/base/PdfImage.cpp:1237-1241`. -/
def PngPic.maskInfo (p : PngPic) : ImInfo :=
  { width := p.width, height := p.height, filters := [], bits := UInt8.ofNat p.depth, decode := [], color := some .DeviceGray, colorArr := [] }

/-- `LoadFromPngContent`, `src/pdfmm/base/PdfImage.cpp:1158-1286`: the mask and the palette are new objects `mr` and `pal`.  The image, and the mask. -/
def ImObj.loadPng (flate : Filt) (mr pal : Ref) (p : PngPic) (im : ImObj) : Res Unit × ImObj × Option ImObj :=
  match p.split with
  | .error e => (.error e, im, none)
  | .ok (b, none) =>
    match im.setDataRaw flate b (p.info pal) with
    | (r, im') => (r, im', none)
  | .ok (b, some m) =>
    match ImObj.fresh.setDataRaw flate m p.maskInfo with
    | (.error e, mo) => (.error e, im, some mo)
    | (.ok (), mo) =>
      match (im.setSoftmask mr).setDataRaw flate b (p.info pal) with
      | (r, im') => (r, im', some mo)

/-! ### Loops -/

theorem pngSteps_prefix {σ : Type} {f : Nat → σ → Res σ} {n : Nat} {s t : σ} (h : pngSteps f n s = .ok t) : ∀ k, k < n → ∃ u v, pngSteps f k s = .ok u ∧ f k u = .ok v := by
  induction n generalizing t with
  | zero => intro k hk; omega
  | succ n ih =>
    intro k hk
    simp only [pngSteps] at h
    cases hn : pngSteps f n s with
    | error e => rw [hn] at h; cases h
    | ok u =>
      rw [hn] at h
      rcases Nat.lt_or_eq_of_le (Nat.lt_succ_iff.1 hk) with hlt | rfl
      · exact ih hn k hlt
      · exact ⟨u, t, hn, h⟩

theorem onlyUb_pngSteps {σ : Type} {f : Nat → σ → Res σ} (h : ∀ k s, OnlyUb (f k s)) (n : Nat) (s : σ) : OnlyUb (pngSteps f n s) := by
  induction n with
  | zero => exact onlyUb_ok _
  | succ n ih => exact onlyUb_bind ih (fun a _ => h n a)

theorem pngSteps_inv {σ : Type} {f : Nat → σ → Res σ} {P : Nat → σ → Prop} {s : σ} (h0 : P 0 s) (n : Nat) (hs : ∀ k t, k < n → P k t → ∃ u, f k t = .ok u ∧ P (k + 1) u) :
    ∃ t, pngSteps f n s = .ok t ∧ P n t := by
  induction n with
  | zero => exact ⟨s, rfl, h0⟩
  | succ n ih =>
    obtain ⟨t, h1, h2⟩ := ih fun k t hk => hs k t (by omega)
    obtain ⟨u, h3, h4⟩ := hs n t (by omega) h2
    exact ⟨u, by simp [pngSteps, h1, Except.bind, h3], h4⟩

theorem onlyUb_move3 (b : Bytes) (d s : Nat) : OnlyUb (move3 b d s) := by
  intro e h; unfold move3 at h; split at h <;> cases h; rfl

theorem onlyUb_rgba (w l k : Nat) (s : Bytes × Bytes) : OnlyUb (rgbaStep w l k s) :=
  onlyUb_bind (onlyUb_move3 _ _ _) fun _ _ => onlyUb_bind (onlyUb_strGet _ _) fun _ _ => onlyUb_map (onlyUb_strSet _ _ _)

theorem onlyUb_greyA (w l k : Nat) (s : Bytes × Bytes) : OnlyUb (greyAStep w l k s) :=
  onlyUb_bind (onlyUb_strGet _ _) fun _ _ => onlyUb_bind (onlyUb_strSet _ _ _) fun _ _ => onlyUb_bind (onlyUb_strGet _ _) fun _ _ => onlyUb_map (onlyUb_strSet _ _ _)

theorem strSet_ok {b : Bytes} {i : Nat} {v : Byte} (h : i < b.length) : strSet b i v = .ok (b.set i v) := by
  simp [strSet, h]

theorem strSet_length {b c : Bytes} {i : Nat} {v : Byte} (h : strSet b i v = .ok c) : c.length = b.length ∧ i ≤ b.length := by
  unfold strSet at h
  split at h
  · cases h; simp; omega
  · split at h
    · rename_i h2; cases h; exact ⟨rfl, by omega⟩
    · cases h

theorem pixAt (w k : Nat) (n : Nat) : k / w * (n * w) + n * (k % w) = n * k := by
  have h := Nat.div_add_mod k w
  have e : k / w * (n * w) = n * (w * (k / w)) := by grind
  rw [e, ← Nat.mul_add, h]

/-- The loop over RGBA pixels: the colours come together at the front, the opacities in the mask. -/
theorem rgba_loop {w h : Nat} {lines : Bytes} (hl : lines.length = 4 * (w * h)) (hw : w < 536870912) (hwh : 3 * (w * h) < 4294967296) :
    ∃ b m, pngSteps (rgbaStep w (4 * w)) (w * h) (lines, List.replicate (uns (w * h)) 0) = .ok (b, m) ∧ b.length = 4 * (w * h) ∧ m.length = w * h
      ∧ (∀ j i, j < w * h → i < 3 → b[3 * j + i]? = lines[4 * j + i]?) ∧ (∀ j, j < w * h → m[j]? = lines[4 * j + 3]?) := by
  obtain ⟨⟨b, m⟩, h1, h2, h3, h4, h5, h6⟩ := pngSteps_inv (f := rgbaStep w (4 * w)) (s := (lines, List.replicate (uns (w * h)) 0))
    (P := fun k t => t.1.length = 4 * (w * h) ∧ t.2.length = w * h ∧ (∀ j i, j < k → i < 3 → t.1[3 * j + i]? = lines[4 * j + i]?)
      ∧ (∀ i, 3 * k ≤ i → t.1[i]? = lines[i]?) ∧ (∀ j, j < k → t.2[j]? = lines[4 * j + 3]?))
    ⟨hl, by simp [uns]; omega, by intro j i hj; omega, fun _ _ => rfl, by intro j hj; omega⟩ (w * h) (by
      rintro k ⟨b, m⟩ hk ⟨p1, p2, p3, p4, p5⟩
      simp only at p1 p2 p3 p4 p5
      have hw0 : 0 < w := by rcases Nat.eq_zero_or_pos w with e | e; · rw [e] at hk; omega
                             exact e
      have hm := Nat.mod_lt k hw0
      have e1 : uns (3 * uns k) = 3 * k := by rw [uns_small (n := k) (by omega), uns_small (by omega)]
      have e2 : k / w * (4 * w) + uns (4 * (k % w)) = 4 * k := by rw [uns_small (by omega)]; exact pixAt w k 4
      have e3 : k / w * (4 * w) + uns ((k % w) * 4 + 3) = 4 * k + 3 := by
        rw [uns_small (by omega)]; have := pixAt w k 4; omega
      have e4 : uns k = k := uns_small (by omega)
      let b' := b.take (3 * k) ++ (b.drop (4 * k)).take 3 ++ b.drop (3 * k + 3)
      have l3 : ((b.drop (4 * k)).take 3).length = 3 := by simp; omega
      have hb1 : b'.length = 4 * (w * h) := by simp [b']; omega
      have g1 : ∀ i, i < 3 * k → b'[i]? = b[i]? := by
        intro i hi
        simp only [b']
        rw [List.getElem?_append_left (by simp; omega), List.getElem?_append_left (by simp; omega), List.getElem?_take_of_lt hi]
      have g2 : ∀ i, i < 3 → b'[3 * k + i]? = b[4 * k + i]? := by
        intro i hi
        simp only [b']
        rw [List.getElem?_append_left (by simp; omega), List.getElem?_append_right (by simp; omega)]
        have : 3 * k + i - (b.take (3 * k)).length = i := by simp; omega
        rw [this, List.getElem?_take_of_lt hi, List.getElem?_drop]
      have g3 : ∀ i, 3 * k + 3 ≤ i → b'[i]? = b[i]? := by
        intro i hi
        simp only [b']
        rw [List.getElem?_append_right (by simp; omega)]
        have : i - (b.take (3 * k) ++ (b.drop (4 * k)).take 3).length = i - (3 * k + 3) := by simp; omega
        rw [this, List.getElem?_drop]; congr 1; omega
      have hv : 4 * k + 3 < b'.length := by omega
      refine ⟨(b', m.set k (b'[4 * k + 3]'hv)), ?_, hb1, by simp [p2], ?_, ?_, ?_⟩
      · have hmv : move3 b (3 * k) (4 * k) = .ok b' := by rw [move3, if_pos (by omega)]
        simp only [rgbaStep]
        rw [e1, e2, e3, e4, hmv]
        simp only [Except.bind]
        rw [strGet_some (b := b') (List.getElem?_eq_getElem hv)]
        simp only
        rw [strSet_ok (by omega)]
        rfl
      · intro j i hj hi
        simp only
        rcases Nat.lt_or_eq_of_le (Nat.lt_succ_iff.1 hj) with hlt | rfl
        · rw [g1 _ (by omega)]; exact p3 j i hlt hi
        · rw [g2 i hi]; exact p4 _ (by omega)
      · intro i hi; simp only; rw [g3 i (by omega)]; exact p4 i (by omega)
      · intro j hj
        simp only
        rcases Nat.lt_or_eq_of_le (Nat.lt_succ_iff.1 hj) with hlt | rfl
        · rw [List.getElem?_set_ne (by omega)]; exact p5 j hlt
        · rw [List.getElem?_set_self (by omega), ← List.getElem?_eq_getElem, g3 _ (by omega)]; exact p4 _ (by omega))
  exact ⟨b, m, h1, h2, h3, h4, h6⟩

/-- The loop over grey pixels with opacities. -/
theorem greyA_loop {w h : Nat} {lines : Bytes} (hl : lines.length = 2 * (w * h)) (hw : w < 536870912) (hwh : w * h < 4294967296) :
    ∃ b m, pngSteps (greyAStep w (2 * w)) (w * h) (lines, List.replicate (uns (w * h)) 0) = .ok (b, m) ∧ b.length = 2 * (w * h) ∧ m.length = w * h
      ∧ (∀ j, j < w * h → b[j]? = lines[2 * j]?) ∧ (∀ j, j < w * h → m[j]? = lines[2 * j + 1]?) := by
  obtain ⟨⟨b, m⟩, h1, h2, h3, h4, h5, h6⟩ := pngSteps_inv (f := greyAStep w (2 * w)) (s := (lines, List.replicate (uns (w * h)) 0))
    (P := fun k t => t.1.length = 2 * (w * h) ∧ t.2.length = w * h ∧ (∀ j, j < k → t.1[j]? = lines[2 * j]?)
      ∧ (∀ i, k ≤ i → t.1[i]? = lines[i]?) ∧ (∀ j, j < k → t.2[j]? = lines[2 * j + 1]?))
    ⟨hl, by simp [uns]; omega, by intro j hj; omega, fun _ _ => rfl, by intro j hj; omega⟩ (w * h) (by
      rintro k ⟨b, m⟩ hk ⟨p1, p2, p3, p4, p5⟩
      simp only at p1 p2 p3 p4 p5
      have hw0 : 0 < w := by rcases Nat.eq_zero_or_pos w with e | e; · rw [e] at hk; omega
                             exact e
      have hm := Nat.mod_lt k hw0
      have e2 : k / w * (2 * w) + uns ((k % w) * 2) = 2 * k := by
        rw [uns_small (by omega)]; have := pixAt w k 2; omega
      have e3 : k / w * (2 * w) + uns ((k % w) * 2 + 1) = 2 * k + 1 := by
        rw [uns_small (by omega)]; have := pixAt w k 2; omega
      have e4 : uns k = k := uns_small (by omega)
      have hv0 : 2 * k < b.length := by omega
      have hv : 2 * k + 1 < (b.set k (b[2 * k]'hv0)).length := by simp; omega
      refine ⟨(b.set k (b[2 * k]'hv0), m.set k ((b.set k (b[2 * k]'hv0))[2 * k + 1]'hv)), ?_, by simp [p1], by simp [p2], ?_, ?_, ?_⟩
      · simp only [greyAStep, e2, e3, e4]
        rw [strGet_some (List.getElem?_eq_getElem hv0)]
        simp only [Except.bind]
        rw [strSet_ok (by omega)]
        simp only
        rw [strGet_some (List.getElem?_eq_getElem hv)]
        simp only [Except.map]
        rw [strSet_ok (by omega)]
      · intro j hj
        simp only
        rcases Nat.lt_or_eq_of_le (Nat.lt_succ_iff.1 hj) with hlt | rfl
        · rw [List.getElem?_set_ne (by omega)]; exact p3 j hlt
        · rw [List.getElem?_set_self (by omega), ← List.getElem?_eq_getElem]; exact p4 _ (by omega)
      · intro i hi; simp only; rw [List.getElem?_set_ne (by omega)]; exact p4 i (by omega)
      · intro j hj
        simp only
        rcases Nat.lt_or_eq_of_le (Nat.lt_succ_iff.1 hj) with hlt | rfl
        · rw [List.getElem?_set_ne (by omega)]; exact p5 j hlt
        · rw [List.getElem?_set_self (by omega), ← List.getElem?_eq_getElem, List.getElem?_set_ne (by omega)]; exact p4 _ (by omega))
  exact ⟨b, m, h1, h2, h3, h4, h6⟩

/-! ### Loading -/

theorem fresh_sorted : SMap.Sorted ImObj.fresh.obj.dict := by
  simp [ImObj.fresh, SMap.insert]; decide +kernel

theorem raw_copy {flate : Filt} {im : ImObj} {data : Bytes} (h1 : im.obj.buf = data) (h2 : im.obj.filters = []) : im.obj.copyTo flate = .ok data := by
  simp [StObj.copyTo, h1, h2]

/-- The object of a mask gives its bytes. -/
theorem mask_loaded {flate : Filt} {doc : IDoc} {im mo : ImObj} {mr : Ref} {m : Bytes} {i : ImInfo} {sp : Var} (h1 : SMap.find? kSMask im.obj.dict = some (.ref mr.num mr.gen))
    (h2 : doc mr = some (.stream mo.obj)) (h3 : Spec.RawEntries mo.obj.dict i sp) (h4 : mo.obj.buf = m) (h5 : mo.obj.filters = []) (h6 : mo.obj.locked = false)
    (h7 : ∀ k, k ∉ Spec.pixelEntries → SMap.find? k mo.obj.dict = SMap.find? k ImObj.fresh.obj.dict) : im.mask flate doc = .ok (some m) := by
  have h2' : doc { num := mr.num, gen := mr.gen } = some (.stream mo.obj) := h2
  have t1 : SMap.find? (litBytes "Type") mo.obj.dict = some (.name (litBytes "XObject")) := by
    rw [h7 _ (by decide +kernel)]; rfl
  have t2 : SMap.find? (litBytes "Subtype") mo.obj.dict = some (.name (litBytes "Image")) := by
    rw [h7 _ (by decide +kernel)]; rfl
  have t3 : xobjDict (.dict mo.obj.dict) = some mo.obj.dict := by simp [xobjDict, t1]
  have t4 : doc.xtype mo.obj.dict = .Image := by
    have : litBytes "Image" ≠ litBytes "Form" := by decide +kernel
    simp [IDoc.xtype, IDoc.find, t2, Loaded.var, xtypeOf, this]
  have t5 : doc.dim mo.obj.dict kWidth = .ok ((i.width : Int) % 4294967296).toNat := by simp [IDoc.dim, IDoc.find, h3.1, Loaded.var]
  have t6 : doc.dim mo.obj.dict kHeight = .ok ((i.height : Int) % 4294967296).toNat := by simp [IDoc.dim, IDoc.find, h3.2.1, Loaded.var]
  have t7 : mo.obj.copyTo flate = .ok m := raw_copy h4 h5
  simp [ImObj.mask, IDoc.find, h1, h2', IDoc.tryImage, Loaded.var, t3, t4, t5, t6, t7, h6, Except.bind, Except.map]

/-- A document in which the mask of a loaded picture is the object it was given. -/
def Spec.MaskIn (doc : IDoc) (mr : Ref) (mo : ImObj) : Prop := doc mr = some (.stream mo.obj)

/-- C176: a PNG file with colours and opacities gives an image that shows them, over whatever the image was before. -/
theorem C176_rgba_partial (flate : Filt) (lib : Codecs) (mr pal : Ref) (p : PngPic) (im : ImObj) (px : Nat → Nat → Byte × Byte × Byte) (op : Nat → Nat → Byte)
    (hk : p.kind = .rgbAlpha) (hr : p.rowLen = 4 * p.width) (hl : p.lines.length = p.height * p.rowLen)
    (hb : Spec.Raster p.lines p.width p.height (4 * p.width) 4 fun y x => Spec.pixel .RGBA (px y x) (op y x))
    (hw : p.width < 536870912) (hwh : 3 * p.width * p.height < 4294967296) (hlk : im.obj.locked = false) (hs : SMap.Sorted im.obj.dict) :
    ∃ im' mo, im.loadPng flate mr pal p = (.ok (), im', some mo) ∧ im'.width = p.width ∧ im'.height = p.height
      ∧ ∀ doc, Spec.MaskIn doc mr mo → Spec.ImageShows flate lib doc im' px op := by
  have e0 : 3 * p.width * p.height = 3 * (p.width * p.height) := by grind
  obtain ⟨b, m, g1, g2, g3, g4, g5⟩ := rgba_loop (w := p.width) (h := p.height) (lines := p.lines) (by rw [hl, hr]; grind) hw (by omega)
  have hsp : p.split = .ok (b, some m) := by simp only [PngPic.split, hk, hr, g1, Except.map]
  obtain ⟨mo, m1, m2, m3, m4, m5, m6, m7, m8, m9, m10⟩ := C174_raw_partial flate ImObj.fresh m p.maskInfo .DeviceGray (litBytes "DeviceGray") rfl fresh_sorted rfl rfl (by simp [PngPic.maskInfo])
  obtain ⟨im', i1, i2, i3, i4, i5, i6, i7, i8, i9, i10⟩ := C174_raw_partial flate (im.setSoftmask mr) b (p.info pal) .DeviceRGB (litBytes "DeviceRGB") (by simp [ImObj.setSoftmask, hlk])
    (SMap.sorted_insert _ _ _ hs) (by simp [PngPic.info, hk]) rfl (by simp [PngPic.info])
  refine ⟨im', mo, ?_, i2, i3, ?_⟩
  · simp only [ImObj.loadPng, hsp, m1, i1]
  · intro doc hdoc
    have ew : im'.width = p.width := i2
    have eh : im'.height = p.height := i3
    have hsm : SMap.find? kSMask im'.obj.dict = some (.ref mr.num mr.gen) := by
      rw [i9 _ (by decide +kernel)]; simp [ImObj.setSoftmask, SMap.find_insert_self]
    have hcs : SMap.find? kSpace im'.obj.dict = some (.name (litBytes "DeviceRGB")) := by
      have := i7.2.2.2.1; simpa [spaceEntry, PngPic.info, hk] using this
    have hpos : ∀ y x, y < p.height → x < p.width → y * p.width + x < p.width * p.height := by
      intro y x hy hx
      have h1 : (y + 1) * p.width ≤ p.height * p.width := Nat.mul_le_mul_right _ hy
      have h2 : (y + 1) * p.width = y * p.width + p.width := by grind
      have h3 : p.height * p.width = p.width * p.height := Nat.mul_comm _ _
      omega
    refine shows_plain (m := some m) i4 i5 (raw_copy i6 i10) ((colorSpace_name hcs).trans nameColor_rgb) ?_ (mask_loaded hsm hdoc m7 m6 m10 m5 m9) ?_ (by omega) (by rw [ew, eh]; omega)
    · rw [ew, eh]
      refine ⟨by rw [g2]; grind, ?_⟩
      intro y x k hy hx hk3
      have h1 := g4 (y * p.width + x) k (hpos y x hy hx) hk3
      have h2 := hb.2 y x k hy hx (by omega)
      have e1 : y * (3 * p.width) + x * 3 + k = 3 * (y * p.width + x) + k := by grind
      have e2 : y * (4 * p.width) + x * 4 + k = 4 * (y * p.width + x) + k := by grind
      rw [e1, h1, ← e2, h2]
      rcases k with _ | _ | _ | k <;> simp [Spec.pixel] at hk3 ⊢ <;> omega
    · rw [ew, eh]
      refine ⟨by rw [g3, Nat.mul_comm]; exact Nat.le_refl _, ?_⟩
      intro y x k hy hx hk1
      have hk0 : k = 0 := by omega
      subst hk0
      have h1 := g5 (y * p.width + x) (hpos y x hy hx)
      have h2 := hb.2 y x 3 hy hx (by omega)
      have e2 : y * (4 * p.width) + x * 4 + 3 = 4 * (y * p.width + x) + 3 := by grind
      rw [e2] at h2
      simp only [Nat.mul_one, Nat.add_zero]
      rw [h1, h2]; simp [Spec.pixel]

/-- C176: one without opacities gives an image that shows its colours; the opacities are those of the mask that the image had. -/
theorem C176_rgb_partial (flate : Filt) (lib : Codecs) (doc : IDoc) (mr pal : Ref) (p : PngPic) (im : ImObj) (px : Nat → Nat → Byte × Byte × Byte) (op : Nat → Nat → Byte) (m : Option Bytes)
    (hk : p.kind = .rgb) (hb : Spec.Raster p.lines p.width p.height (3 * p.width) 3 fun y x => Spec.pixel .RGB24 (px y x) 255)
    (hm : im.mask flate doc = .ok m) (ho : Spec.MaskGives p.width p.height m op)
    (hw : p.width < 536870912) (hwh : 3 * p.width * p.height < 4294967296) (hlk : im.obj.locked = false) (hs : SMap.Sorted im.obj.dict) :
    ∃ im', im.loadPng flate mr pal p = (.ok (), im', none) ∧ im'.width = p.width ∧ im'.height = p.height ∧ im'.obj.buf = p.lines ∧ Spec.ImageShows flate lib doc im' px op := by
  have hsp : p.split = .ok (p.lines, none) := by simp only [PngPic.split, hk]
  obtain ⟨im', i1, i2, i3, i4, i5, i6, i7, i8, i9, i10⟩ := C174_raw_partial flate im p.lines (p.info pal) .DeviceRGB (litBytes "DeviceRGB") hlk hs (by simp [PngPic.info, hk]) rfl (by simp [PngPic.info])
  have ew : im'.width = p.width := i2
  have eh : im'.height = p.height := i3
  have hcs : SMap.find? kSpace im'.obj.dict = some (.name (litBytes "DeviceRGB")) := by
    have := i7.2.2.2.1; simpa [spaceEntry, PngPic.info, hk] using this
  refine ⟨im', by simp only [ImObj.loadPng, hsp, i1], ew, eh, i6, ?_⟩
  refine shows_plain (m := m) i4 i5 (raw_copy i6 i10) ((colorSpace_name hcs).trans nameColor_rgb) (by rw [ew, eh]; exact hb) ?_ (by rw [ew, eh]; exact ho) (by omega) (by rw [ew, eh]; exact hwh)
  rw [mask_congr (i9 _ (by decide +kernel))]; exact hm

/-- A picture of 2 by 1 pixels. -/
def exPng : PngPic := ⟨2, 1, 8, .rgbAlpha, 8, [1, 2, 3, 10, 4, 5, 6, 20], [], none⟩

example : exPng.kind = .rgbAlpha ∧ exPng.rowLen = 4 * exPng.width ∧ exPng.lines.length = exPng.height * exPng.rowLen
    ∧ Spec.Raster exPng.lines 2 1 (4 * 2) 4 (fun _ x => Spec.pixel .RGBA (if x = 0 then (1, 2, 3) else (4, 5, 6)) (if x = 0 then 10 else 20)) := by
  refine ⟨rfl, rfl, rfl, by decide, ?_⟩
  intro y x k hy hx hk
  have : y = 0 := by omega
  subst this
  have hx' : x = 0 ∨ x = 1 := by omega
  have hk' : k = 0 ∨ k = 1 ∨ k = 2 ∨ k = 3 := by omega
  rcases hx' with rfl | rfl <;> rcases hk' with rfl | rfl | rfl | rfl <;> rfl

/-- The colours and the opacities of a picture in grey: as many bytes of each as there are pixels, in order. -/
def Spec.GreyPicture (p : PngPic) (px op : Nat → Nat → Byte) : Prop :=
  p.lines.length = p.height * (2 * p.width) ∧ Spec.Raster p.lines p.width p.height (2 * p.width) 2 fun y x => [px y x, op y x]

/-- C176: a PNG file in grey with opacities gives an image whose data begins with the greys, with a mask of the opacities, both described as grey. -/
theorem C176_grey_alpha_partial (flate : Filt) (mr pal : Ref) (p : PngPic) (im : ImObj) (px op : Nat → Nat → Byte)
    (hk : p.kind = .grayAlpha) (hr : p.rowLen = 2 * p.width) (hb : Spec.GreyPicture p px op) (hd : p.depth = 8)
    (hw : p.width < 536870912) (hwh : p.width * p.height < 4294967296) (hlk : im.obj.locked = false) (hs : SMap.Sorted im.obj.dict) :
    ∃ im' mo, im.loadPng flate mr pal p = (.ok (), im', some mo) ∧ Spec.ImageEntries im'.obj.dict p.width p.height "DeviceGray" ∧ Spec.ImageEntries mo.obj.dict p.width p.height "DeviceGray"
      ∧ SMap.find? kSMask im'.obj.dict = some (.ref mr.num mr.gen)
      ∧ Spec.Raster im'.obj.buf p.width p.height p.width 1 (fun y x => [px y x]) ∧ Spec.Raster mo.obj.buf p.width p.height p.width 1 (fun y x => [op y x])
      ∧ mo.obj.buf.length = p.width * p.height ∧ (∀ doc, Spec.MaskIn doc mr mo → im'.mask flate doc = .ok (some mo.obj.buf)) := by
  obtain ⟨hl, hb⟩ := hb
  obtain ⟨b, m, g1, g2, g3, g4, g5⟩ := greyA_loop (w := p.width) (h := p.height) (lines := p.lines) (by rw [hl]; grind) hw hwh
  have hsp : p.split = .ok (b, some m) := by simp only [PngPic.split, hk, hr, g1, Except.map]
  obtain ⟨mo, m1, m2, m3, m4, m5, m6, m7, m8, m9, m10⟩ := C174_raw_partial flate ImObj.fresh m p.maskInfo .DeviceGray (litBytes "DeviceGray") rfl fresh_sorted rfl rfl (by simp [PngPic.maskInfo])
  obtain ⟨im', i1, i2, i3, i4, i5, i6, i7, i8, i9, i10⟩ := C174_raw_partial flate (im.setSoftmask mr) b (p.info pal) .DeviceGray (litBytes "DeviceGray") (by simp [ImObj.setSoftmask, hlk])
    (SMap.sorted_insert _ _ _ hs) (by simp [PngPic.info, hk]) rfl (by simp [PngPic.info])
  have hpos : ∀ y x, y < p.height → x < p.width → y * p.width + x < p.width * p.height := by
    intro y x hy hx
    have h1 : (y + 1) * p.width ≤ p.height * p.width := Nat.mul_le_mul_right _ hy
    have h2 : (y + 1) * p.width = y * p.width + p.width := by grind
    have h3 : p.height * p.width = p.width * p.height := Nat.mul_comm _ _
    omega
  have hsm : SMap.find? kSMask im'.obj.dict = some (.ref mr.num mr.gen) := by
    rw [i9 _ (by decide +kernel)]; simp [ImObj.setSoftmask, SMap.find_insert_self]
  refine ⟨im', mo, by simp only [ImObj.loadPng, hsp, m1, i1], ?_, ?_, hsm, ?_, ?_, by rw [m6, g3], ?_⟩
  · simpa [Spec.RawEntries, Spec.ImageEntries, spaceEntry, PngPic.info, hk, hd] using i7
  · simpa [Spec.RawEntries, Spec.ImageEntries, spaceEntry, PngPic.maskInfo, hd] using m7
  · rw [i6]
    refine ⟨by rw [g2]; have : p.height * p.width = p.width * p.height := Nat.mul_comm _ _
               omega, ?_⟩
    intro y x k hy hx hk1
    have hk0 : k = 0 := by omega
    subst hk0
    have h2 := hb.2 y x 0 hy hx (by omega)
    have e2 : y * (2 * p.width) + x * 2 + 0 = 2 * (y * p.width + x) := by grind
    rw [e2] at h2
    simp only [Nat.mul_one, Nat.add_zero]
    rw [g4 _ (hpos y x hy hx), h2]; rfl
  · rw [m6]
    refine ⟨by rw [g3, Nat.mul_comm]; exact Nat.le_refl _, ?_⟩
    intro y x k hy hx hk1
    have hk0 : k = 0 := by omega
    subst hk0
    have h2 := hb.2 y x 1 hy hx (by omega)
    have e2 : y * (2 * p.width) + x * 2 + 1 = 2 * (y * p.width + x) + 1 := by grind
    rw [e2] at h2
    simp only [Nat.mul_one, Nat.add_zero]
    rw [g5 _ (hpos y x hy hx), h2]; rfl
  · intro doc hdoc
    rw [mask_loaded hsm hdoc m7 rfl m10 m5 m9]

/-- The data of an image with opacities is longer than its pixels: what the colours leave of the lines stays behind them. -/
theorem C176_rest_false (flate : Filt) (mr pal : Ref) (p : PngPic) (im : ImObj) (hk : p.kind = .rgbAlpha) (hr : p.rowLen = 4 * p.width) (hl : p.lines.length = p.height * p.rowLen)
    (hw : p.width < 536870912) (hwh : 3 * p.width * p.height < 4294967296) (hlk : im.obj.locked = false) (hs : SMap.Sorted im.obj.dict) :
    ∃ im' mo, im.loadPng flate mr pal p = (.ok (), im', some mo) ∧ im'.obj.buf.length = 3 * p.width * p.height + p.width * p.height := by
  have e0 : 3 * p.width * p.height = 3 * (p.width * p.height) := by grind
  obtain ⟨b, m, g1, g2, g3, g4, g5⟩ := rgba_loop (w := p.width) (h := p.height) (lines := p.lines) (by rw [hl, hr]; grind) hw (by omega)
  have hsp : p.split = .ok (b, some m) := by simp only [PngPic.split, hk, hr, g1, Except.map]
  obtain ⟨mo, m1, -⟩ := C174_raw_partial flate ImObj.fresh m p.maskInfo .DeviceGray (litBytes "DeviceGray") rfl fresh_sorted rfl rfl (by simp [PngPic.maskInfo])
  obtain ⟨im', i1, i2, i3, i4, i5, i6, -⟩ := C174_raw_partial flate (im.setSoftmask mr) b (p.info pal) .DeviceRGB (litBytes "DeviceRGB") (by simp [ImObj.setSoftmask, hlk])
    (SMap.sorted_insert _ _ _ hs) (by simp [PngPic.info, hk]) rfl (by simp [PngPic.info])
  exact ⟨im', mo, by simp only [ImObj.loadPng, hsp, m1, i1], by rw [i6, g2]; omega⟩

/-! ### Limits -/

/-- With 2³² pixels or more the mask is too short for them: memory outside of it is written. -/
theorem C176_many_pixels_false (flate : Filt) (mr pal : Ref) (p : PngPic) (im : ImObj) (hk : p.kind = .rgbAlpha ∨ p.kind = .grayAlpha) (hn : 4294967296 ≤ p.width * p.height)
    (hm : p.width * p.height % 4294967296 ≠ 4294967295) : (im.loadPng flate mr pal p).1 = .error .ub := by
  have key : ∀ (f : Nat → Bytes × Bytes → Res (Bytes × Bytes)), (∀ k s, OnlyUb (f k s)) → (∀ k s t, f k s = .ok t → ∃ v, strSet s.2 (uns k) v = .ok t.2) →
      pngSteps f (p.width * p.height) (p.lines, List.replicate (uns (p.width * p.height)) 0) = .error .ub := by
    intro f h1 h2
    refine onlyUb_cases (onlyUb_pngSteps h1 _ _) ?_
    intro t ht
    have hlen : ∀ n u, pngSteps f n (p.lines, List.replicate (uns (p.width * p.height)) 0) = .ok u → u.2.length = uns (p.width * p.height) := by
      intro n
      induction n with
      | zero => intro u hu; cases hu; simp
      | succ n ih =>
        intro u hu
        simp only [pngSteps] at hu
        cases hn : pngSteps f n (p.lines, List.replicate (uns (p.width * p.height)) 0) with
        | error e => rw [hn] at hu; cases hu
        | ok v =>
          rw [hn] at hu
          obtain ⟨x, hx⟩ := h2 _ _ _ hu
          rw [(strSet_length hx).1, ih _ hn]
    have hlt : uns (p.width * p.height) + 1 < p.width * p.height := by unfold uns; omega
    obtain ⟨u, v, a1, a2⟩ := pngSteps_prefix ht _ hlt
    obtain ⟨x, hx⟩ := h2 _ _ _ a2
    have := (strSet_length hx).2
    rw [hlen _ _ a1] at this
    have e : uns (uns (p.width * p.height) + 1) = uns (p.width * p.height) + 1 := by apply uns_small; unfold uns; omega
    omega
  have hs : p.split = .error .ub := by
    rcases hk with hk | hk
    · simp only [PngPic.split, hk]
      rw [key _ (onlyUb_rgba _ _) ?_]
      · rfl
      · intro k s t h
        simp only [rgbaStep] at h
        cases h1 : move3 s.1 (uns (3 * uns k)) (k / p.width * p.rowLen + uns (4 * (k % p.width))) with
        | error e => rw [h1] at h; cases h
        | ok b =>
          rw [h1] at h; simp only [Except.bind] at h
          cases h2 : strGet b (k / p.width * p.rowLen + uns (k % p.width * 4 + 3)) with
          | error e => rw [h2] at h; cases h
          | ok a =>
            rw [h2] at h; simp only at h
            cases h3 : strSet s.2 (uns k) a with
            | error e => rw [h3] at h; cases h
            | ok m => rw [h3] at h; cases h; exact ⟨a, h3⟩
    · simp only [PngPic.split, hk]
      rw [key _ (onlyUb_greyA _ _) ?_]
      · rfl
      · intro k s t h
        simp only [greyAStep] at h
        cases h1 : strGet s.1 (k / p.width * p.rowLen + uns (k % p.width * 2)) with
        | error e => rw [h1] at h; cases h
        | ok g =>
          rw [h1] at h; simp only [Except.bind] at h
          cases h1' : strSet s.1 (uns k) g with
          | error e => rw [h1'] at h; cases h
          | ok b =>
            rw [h1'] at h; simp only at h
            cases h2 : strGet b (k / p.width * p.rowLen + uns (k % p.width * 2 + 1)) with
            | error e => rw [h2] at h; cases h
            | ok a =>
              rw [h2] at h; simp only at h
              cases h3 : strSet s.2 (uns k) a with
              | error e => rw [h3] at h; cases h
              | ok m => rw [h3] at h; cases h; exact ⟨a, h3⟩
  simp only [ImObj.loadPng, hs]

/-- No file with a palette can be loaded: the colour space is read without having been set, whatever the palette is. -/
theorem C176_palette_false (flate : Filt) (mr pal : Ref) (p : PngPic) (im : ImObj) (hk : p.kind = .palette) (hd : p.depth = 1 ∨ p.depth = 2 ∨ p.depth = 4 ∨ p.depth = 8) :
    (im.loadPng flate mr pal p).1 = .error .ub := by
  have hub : OnlyUb p.split := by
    simp only [PngPic.split, hk]
    cases p.trns with
    | none => exact onlyUb_ok _
    | some t =>
      refine onlyUb_map (onlyUb_pngSteps (fun k s => onlyUb_bind ?_ fun _ _ => onlyUb_strSet _ _ _) _ _)
      unfold palColor
      rcases hd with hd | hd | hd | hd <;> rw [hd] <;> simp <;> exact onlyUb_map (onlyUb_strGet _ _)
  cases hs : p.split with
  | error e => rw [hub e hs] at hs; simp only [ImObj.loadPng, hs]
  | ok r =>
    obtain ⟨b, m⟩ := r
    have hc : (p.info pal).color = none := by simp [PngPic.info, hk]
    cases m with
    | none =>
      simp only [ImObj.loadPng, hs]
      exact C174_raw_unset_false flate im b (p.info pal) hc
    | some m =>
      obtain ⟨mo, m1, -⟩ := C174_raw_partial flate ImObj.fresh m p.maskInfo .DeviceGray (litBytes "DeviceGray") rfl fresh_sorted rfl rfl (by simp [PngPic.maskInfo])
      simp only [ImObj.loadPng, hs, m1]
      exact C174_raw_unset_false flate (im.setSoftmask mr) b (p.info pal) hc

/-- The entry of the palette for a pixel of a line: pixels are packed from the high bits on (PNG specification, 7.2). -/
def Spec.packed (row : Nat → Byte) (depth c : Nat) : Nat := (row (c * depth / 8)).toNat / 2 ^ (8 - depth - c * depth % 8) % 2 ^ depth

/-- C176: with eight bits for each pixel the entries of the palette are those of the pixels. -/
theorem C176_palette_index_partial (b : Bytes) (row c : Nat) (h : row + c < b.length) : palColor b row 8 c = .ok (Spec.packed (fun i => b.getD (row + i) 0) 8 c) := by
  have : (b.getD (row + c) 0).toNat < 256 := UInt8.toNat_lt _
  have e1 : c * 8 / 8 = c := by omega
  have e2 : 8 - 8 - c * 8 % 8 = 0 := by omega
  simp only [palColor, strGet, Spec.packed, e1, e2]
  rw [if_pos trivial, if_pos h]
  simp only [Except.map, Nat.pow_zero, Nat.div_one]
  rw [Nat.mod_eq_of_lt this]

/-- With four bits neighbours are swapped: a pixel gets the opacity of the one beside it. -/
theorem C176_nibbles_false (b : Bytes) (row c : Nat) (h : row + c < b.length) :
    palColor b row 4 (2 * c) = .ok (Spec.packed (fun i => b.getD (row + i) 0) 4 (2 * c + 1)) ∧ palColor b row 4 (2 * c + 1) = .ok (Spec.packed (fun i => b.getD (row + i) 0) 4 (2 * c)) := by
  have : (b.getD (row + c) 0).toNat < 256 := UInt8.toNat_lt _
  have e1 : (2 * c + 1) * 4 / 8 = c := by omega
  have e2 : 8 - 4 - (2 * c + 1) * 4 % 8 = 0 := by omega
  have e3 : 2 * c * 4 / 8 = c := by omega
  have e4 : 8 - 4 - 2 * c * 4 % 8 = 4 := by omega
  have e5 : 2 * c / 2 = c := by omega
  have e6 : (2 * c + 1) / 2 = c := by omega
  have e7 : 2 * c % 2 = 0 := by omega
  have e8 : (2 * c + 1) % 2 = 1 := by omega
  simp only [palColor, strGet, Spec.packed, e1, e2, e3, e4, e5, e6, e7, e8]
  simp [h, Except.map]
  have : (b[row + c]'h).toNat < 256 := UInt8.toNat_lt _
  omega

/-- With two bits the four pixels of a byte are reversed. -/
theorem C176_pairs_false (b : Bytes) (row c j : Nat) (hj : j < 4) (h : row + c < b.length) :
    palColor b row 2 (4 * c + j) = .ok (Spec.packed (fun i => b.getD (row + i) 0) 2 (4 * c + (3 - j))) := by
  have e1 : (4 * c + j) / 4 = c := by omega
  have e2 : (4 * c + j) % 4 = j := by omega
  have e3 : (4 * c + (3 - j)) * 2 / 8 = c := by omega
  have e4 : 8 - 2 - (4 * c + (3 - j)) * 2 % 8 = j * 2 := by omega
  simp only [palColor, strGet, Spec.packed, e1, e2, e3, e4]
  simp [h, Except.map]

/-- With one bit memory behind the lines is read, from 13 pixels in a line on. -/
theorem C176_bits_false (p : PngPic) (t : List Byte) (hk : p.kind = .palette) (ht : p.trns = some t) (hd : p.depth = 1) (hw : 13 ≤ p.width) (hh : 1 ≤ p.height)
    (hr : p.rowLen = (p.width + 7) / 8) (hl : p.lines.length = p.height * p.rowLen) : p.split = .error .ub := by
  simp only [PngPic.split, hk, ht]
  have : pngSteps (palStep p.lines p.width p.rowLen p.depth t) (p.width * p.height) (List.replicate (uns (p.width * p.height)) 0) = .error .ub := by
    refine onlyUb_cases (onlyUb_pngSteps (fun k s => onlyUb_bind ?_ fun _ _ => onlyUb_strSet _ _ _) _ _) ?_
    · unfold palColor; rw [hd]; simp; exact onlyUb_map (onlyUb_strGet _ _)
    · intro u hu
      have hlast : (p.height - 1) * p.width + (p.width - 1) < p.width * p.height := by
        obtain ⟨n, hn⟩ : ∃ n, p.height = n + 1 := ⟨p.height - 1, by omega⟩
        rw [hn]
        have : p.width * (n + 1) = n * p.width + p.width := by grind
        simp; omega
      obtain ⟨a, v, _, h2⟩ := pngSteps_prefix hu _ hlast
      have e1 : ((p.height - 1) * p.width + (p.width - 1)) / p.width = p.height - 1 := by
        rw [Nat.add_comm, Nat.add_mul_div_right _ _ (by omega), Nat.div_eq_of_lt (by omega)]; omega
      have e2 : ((p.height - 1) * p.width + (p.width - 1)) % p.width = p.width - 1 := by
        rw [Nat.add_comm, Nat.add_mul_mod_self_right, Nat.mod_eq_of_lt (by omega)]
      have e3 : p.height * p.rowLen = (p.height - 1) * p.rowLen + p.rowLen := by
        obtain ⟨n, hn⟩ : ∃ n, p.height = n + 1 := ⟨p.height - 1, by omega⟩
        rw [hn]; simp; grind
      have : palColor p.lines ((p.height - 1) * p.rowLen) 1 (p.width - 1) = .error .ub := by
        simp only [palColor, strGet]
        rw [if_neg (by omega), if_neg (by omega), if_neg (by omega), if_pos trivial, if_neg (by omega), if_neg (by omega)]; rfl
      rw [palStep, e1, e2, hd, this] at h2
      cases h2
  rw [this]; rfl

example : (⟨16, 1, 1, .palette, 2, [0x55, 0xAA], [(0, 0, 0), (255, 255, 255)], some [0]⟩ : PngPic).split = .error .ub := by decide +kernel
example : (exPng.split) = .ok ([1, 2, 3, 4, 5, 6, 6, 20], some [10, 20]) := by decide +kernel

end Pdfmm
