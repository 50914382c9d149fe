import Verif.Base.Basic
import Verif.Filters.PredictorModel
/-
C173: the pixels of images, set and decoded.
-/
set_option autoImplicit false
namespace Pdfmm

/-! ### Memory -/

/-- `unsigned` arithmetic. -/
def uns (n : Nat) : Nat := n % 4294967296

/-- A byte at `data() + i` of a `charbuff`, `src/pdfmm/common/types.h:36`, which is a `std::string`: behind the last byte there is a zero byte. -/
def strGet (b : Bytes) (i : Nat) : Res Byte :=
  if i < b.length then .ok (b.getD i 0) else if i = b.length then .ok 0 else .error .ub

/-- A byte of an array that is not a string. -/
def arrGet (b : Bytes) (i : Nat) : Res Byte := if i < b.length then .ok (b.getD i 0) else .error .ub

/-- A byte stored at `data() + i` of a `charbuff`: behind the last byte only a zero may be stored. -/
def strSet (b : Bytes) (i : Nat) (v : Byte) : Res Bytes :=
  if i < b.length then .ok (b.set i v) else if i = b.length ∧ v = 0 then .ok b else .error .ub

/-- `for (unsigned i = …; …; i++)`, with `n` rounds from `i` on. -/
def rounds {σ : Type} (f : Nat → σ → Res σ) : Nat → Nat → σ → Res σ
  | 0, _, s => .ok s
  | n + 1, i, s => (f i s).bind fun s' => rounds f n (i + 1) s'

/-! ### Scan lines -/

/-- `enum class PdfPixelFormat`, `src/pdfmm/base/PdfDeclarations.h:328-336`. -/
inductive PixFmt
  | Unknown | Grayscale | RGB24 | BGR24 | RGBA | BGRA
  deriving DecidableEq

/-- The assignments for one pixel, for instance `src/pdfmm/private/ImageUtils.cpp:183-186`: each value is read, then stored at `at + k`. -/
def putPixel (pos : Nat) : Nat → List (Res Byte) → Bytes → Res Bytes
  | _, [], d => .ok d
  | k, v :: vs, d => v.bind fun b => (strSet d (uns (pos + k)) b).bind fun d' => putPixel pos (k + 1) vs d'

/-- A loop over the pixels of a line that stores `bpp` bytes for each, for instance `src/pdfmm/private/ImageUtils.cpp:181-187`. -/
def putLine (bpp width : Nat) (px : Nat → List (Res Byte)) (dst : Bytes) : Res Bytes :=
  rounds (fun i d => putPixel (i * bpp) 0 (px i) d) width 0 dst

/-- Both functions `fetchScanLineRGB`, `src/pdfmm/private/ImageUtils.cpp:174-224` and `:226-278`.  `src` and `alpha` are what the pointers point to; without a mask the opacity is 255. -/
def scanRGB (width : Nat) (fmt : PixFmt) (src : Nat → Res Byte) (alpha : Nat → Res Byte) (dst : Bytes) : Res Bytes :=
  let s (i k : Nat) : Res Byte := src (uns (i * 3 + k))
  match fmt with
  | .RGBA => putLine 4 width (fun i => [s i 0, s i 1, s i 2, alpha i]) dst
  | .BGRA => putLine 4 width (fun i => [s i 2, s i 1, s i 0, alpha i]) dst
  | .RGB24 => putLine 3 width (fun i => [s i 0, s i 1, s i 2]) dst
  | .BGR24 => putLine 3 width (fun i => [s i 2, s i 1, s i 0]) dst
  | _ => raise .UnsupportedImageFormat

/-- Both functions `fetchScanLineGrayScale`, `src/pdfmm/private/ImageUtils.cpp:280-319` and `:321-362`. -/
def scanGray (width : Nat) (fmt : PixFmt) (src : Nat → Res Byte) (alpha : Nat → Res Byte) (dst : Bytes) : Res Bytes :=
  match fmt with
  | .RGBA | .BGRA => putLine 4 width (fun i => [src i, src i, src i, alpha i]) dst
  | .RGB24 | .BGR24 => putLine 3 width (fun i => [src i, src i, src i]) dst
  | .Grayscale => putLine 1 width (fun i => [src i]) dst
  | .Unknown => raise .UnsupportedImageFormat

/-- `FETCH_BIT`, `src/pdfmm/private/ImageUtils.cpp:13-14`, times 255, on a little-endian machine. -/
def bitAt (src : Nat → Res Byte) (i : Nat) : Res Byte :=
  (src (i / 8)).map fun b => if (b.toNat / 2 ^ (7 - i % 8)) % 2 = 1 then 255 else 0

/-- Both functions `fetchScanLineBW`, `src/pdfmm/private/ImageUtils.cpp:364-403` and `:405-447`: as for grey values, with the bits. -/
def scanBW (width : Nat) (fmt : PixFmt) (src : Nat → Res Byte) (alpha : Nat → Res Byte) (dst : Bytes) : Res Bytes :=
  scanGray width fmt (bitAt src) alpha dst

/-! ### Decoding -/

/-- Where the lines go, `OutputStream`: a stream that takes everything (`cap = none`) or a span, `SpanStreamDevice::writeBuffer`, `src/pdfmm/base/PdfStreamDevice.cpp:571-578`. -/
def sinkPut (cap : Option Nat) (out line : Bytes) : Res Bytes :=
  match cap with
  | none => .ok (out ++ line)
  | some n => if out.length + line.length > n then raise .ValueOutOfRange else .ok (out ++ line)

/-- The loops of `FetchImageRGB`, `FetchImageGrayScale`, `FetchImageBW` and `FetchImageJPEG`, `src/pdfmm/private/ImageUtils.cpp:35-172`: each line is fetched into the same `scanLine` and written as a whole. -/
def putLines (cap : Option Nat) (height : Nat) (scan : Nat → Bytes → Res Bytes) (line out : Bytes) : Res Bytes :=
  (rounds (fun i (s : Bytes × Bytes) => (scan i s.1).bind fun l => (sinkPut cap s.2 l).map fun o => (l, o)) height 0 (line, out)).map (·.2)

/-- The opacities of line `i`: `smaskData.data() + i * width`, or 255 when there is no mask, `src/pdfmm/private/ImageUtils.cpp:39-57`. -/
def alphaOf (width : Nat) (smask : Bytes) (i : Nat) (j : Nat) : Res Byte :=
  if smask.length = 0 then .ok 255 else strGet smask (uns (i * width) + j)

/-- `FetchImageRGB`, `src/pdfmm/private/ImageUtils.cpp:35-58`. -/
def fetchRGB (cap : Option Nat) (width height : Nat) (fmt : PixFmt) (data smask line : Bytes) : Res Bytes :=
  putLines cap height (fun i => scanRGB width fmt (fun j => strGet data (uns (i * uns (width * 3)) + j)) (alphaOf width smask i)) line []

/-- `FetchImageGrayScale`, `src/pdfmm/private/ImageUtils.cpp:60-83`: the lines of the image are taken to be three bytes per pixel long. -/
def fetchGray (cap : Option Nat) (width height : Nat) (fmt : PixFmt) (data smask line : Bytes) : Res Bytes :=
  putLines cap height (fun i => scanGray width fmt (fun j => strGet data (uns (i * uns (width * 3)) + j)) (alphaOf width smask i)) line []

/-- `FetchImageBW`, `src/pdfmm/private/ImageUtils.cpp:85-109`.  `rows` are the lines that the fax decoder gives. -/
def fetchBW (cap : Option Nat) (width height : Nat) (fmt : PixFmt) (rows : Nat → Bytes) (smask line : Bytes) : Res Bytes :=
  putLines cap height (fun i => scanBW width fmt (fun j => arrGet (rows i) j) (alphaOf width smask i)) line []

/-- What the JPEG library gives: the dimensions of the picture and its lines, in RGB or in grey. -/
structure JpegPic where
  width : Nat
  height : Nat
  rgb : Option Bool
  rows : Nat → Bytes

/-- `FetchImageJPEG`, `src/pdfmm/private/ImageUtils.cpp:112-171`: the dimensions are those of the picture. -/
def fetchJPEG (cap : Option Nat) (fmt : PixFmt) (p : JpegPic) (smask line : Bytes) : Res Bytes :=
  match p.rgb with
  | some true => putLines cap p.height (fun i => scanRGB p.width fmt (fun j => arrGet (p.rows i) j) (alphaOf p.width smask i)) line []
  | some false => putLines cap p.height (fun i => scanGray p.width fmt (fun j => arrGet (p.rows i) j) (alphaOf p.width smask i)) line []
  | none => raise .InternalLogic

/-- `defaultRowSize`, `src/pdfmm/base/PdfImage.cpp:195`, `:201` and `:206`. -/
def defaultRow (width : Nat) : PixFmt → Res Nat
  | .RGBA | .BGRA => .ok (uns (4 * width))
  | .RGB24 | .BGR24 => .ok (uns (4 * (uns (3 * width + 3) / 4)))
  | .Grayscale => .ok (uns (4 * (uns (width + 3) / 4)))
  | .Unknown => raise .InvalidEnumValue

/-- `initScanLine`, `src/pdfmm/base/PdfImage.cpp:179-224`: the line.  There is memory enough for it. -/
def initLine (width : Nat) (fmt : PixFmt) (rowSize : Int) : Res Bytes :=
  (defaultRow width fmt).bind fun d =>
    if rowSize < 0 then .ok (List.replicate d 0)
    else if rowSize < toInt32 d then raise .UnsupportedImageFormat
    else .ok (List.replicate rowSize.toNat 0)

/-- The same: the mask, `src/pdfmm/base/PdfImage.cpp:187-193`.  It is read for formats with opacity only. -/
def maskFor (fmt : PixFmt) (smask : Option Bytes) : Bytes :=
  match fmt with
  | .RGBA | .BGRA => smask.getD []
  | _ => []

/-- `GetColorSpace`, `src/pdfmm/base/PdfImage.cpp:226-241`, as far as it matters to decoding. -/
inductive ImgSpace
  | rgb | gray | other
  deriving DecidableEq

/-- What is left to decode after the filters of the stream, `src/pdfmm/base/PdfImage.cpp:76-162`: bytes, a JPEG picture or a fax.  JPEG 2000 and JBIG2 are `other`. -/
inductive ImgData
  | plain (cs : ImgSpace) (data : Bytes)
  | jpeg (p : JpegPic)
  | fax (rows : Nat → Bytes)
  | other

/-- An image: `m_Width`, `m_Height`, its data and the content of its soft mask.  That streams give back what was put in is the subject of C06 to C13. -/
structure ImgPic where
  width : Nat
  height : Nat
  data : ImgData
  smask : Option Bytes

/-- `PdfImage::DecodeTo`, `src/pdfmm/base/PdfImage.cpp:65-163`: what is written to the stream. -/
def ImgPic.decode (im : ImgPic) (cap : Option Nat) (fmt : PixFmt) (rowSize : Int) : Res Bytes :=
  (initLine im.width fmt rowSize).bind fun line =>
    match im.data with
    | .plain .rgb d => fetchRGB cap im.width im.height fmt d (maskFor fmt im.smask) line
    | .plain .gray d => fetchGray cap im.width im.height fmt d (maskFor fmt im.smask) line
    | .plain .other _ => raise .UnsupportedImageFormat
    | .jpeg p => fetchJPEG cap fmt p (maskFor fmt im.smask) line
    | .fax rows => fetchBW cap im.width im.height fmt rows (maskFor fmt im.smask) line
    | .other => raise .UnsupportedFilter

/-- `getBufferSize`, `src/pdfmm/base/PdfImage.cpp:1332-1347`. -/
def bufferSize (width height : Nat) : PixFmt → Res Nat
  | .RGBA | .BGRA => .ok (uns (uns (4 * width) * height))
  | .RGB24 | .BGR24 => .ok (uns (uns (4 * (uns (3 * width + 3) / 4)) * height))
  | .Grayscale => .ok (uns (uns (4 * (uns (width + 3) / 4)) * height))
  | .Unknown => raise .InvalidEnumValue

/-- `DecodeTo` into a buffer, `src/pdfmm/base/PdfImage.cpp:51-56`: what the buffer holds afterwards. -/
def ImgPic.decodeBuf (im : ImgPic) (old : Bytes) (fmt : PixFmt) (rowSize : Int) : Res Bytes :=
  (bufferSize im.width im.height fmt).bind fun n =>
    (im.decode (some n) fmt rowSize).map fun o => o ++ ((old ++ List.replicate (n - old.length) 0).take n).drop o.length

/-! ### Setting -/

/-- `fetchPDFScanLineRGB`, `src/pdfmm/base/PdfImage.cpp:1349-1367`. -/
def scanPDF (width : Nat) (fmt : PixFmt) (src : Nat → Res Byte) (dst : Bytes) : Res Bytes :=
  match fmt with
  | .BGRA | .BGR24 => putLine 3 width (fun i => [src (uns (i * 3 + 2)), src (uns (i * 3 + 1)), src (uns (i * 3 + 0))]) dst
  | _ => raise .UnsupportedImageFormat

/-- `InputStream::Read` of a whole line from a buffer, `src/pdfmm/base/PdfInputStream.cpp:21-38`: the line and what is left. -/
def readLine (n : Nat) (s : Bytes) : Res (Bytes × Bytes) :=
  if n ≤ s.length then .ok (s.take n, s.drop n) else raise .UnexpectedEOF

/-- `output.Write(line.data(), n)`. -/
def writeFrom (line : Bytes) (n : Nat) (out : Bytes) : Res Bytes :=
  (rounds (fun i (o : Bytes) => (strGet line i).map fun b => o ++ [b]) n 0 out)

/-- `PdfImage::SetData`, `src/pdfmm/base/PdfImage.cpp:271-338`: the data of the stream.  What it does to the dictionary is the subject of C174. -/
def setData (buf : Bytes) (width height : Nat) (fmt : PixFmt) (rowSize : Int) : Res (ImgSpace × Bytes) :=
  match fmt with
  | .RGBA | .BGRA => raise .NotImplemented
  | .Unknown => raise .InvalidEnumValue
  | fmt =>
    (defaultRow width fmt).bind fun d =>
      let n := if rowSize < 0 then d else rowSize.toNat
      let row := if fmt = .Grayscale then width else uns (3 * width)
      let body (_ : Nat) (s : Bytes × Bytes) : Res (Bytes × Bytes) :=
        (readLine n s.1).bind fun lr =>
          if fmt = .BGR24 then (scanPDF width fmt (strGet lr.1) (List.replicate row 0)).map fun l => (lr.2, s.2 ++ l)
          else (writeFrom lr.1 row s.2).map fun o => (lr.2, o)
      (rounds body height 0 (buf, [])).map fun s => (if fmt = .Grayscale then .gray else .rgb, s.2)

/-! ### What the pixels should be -/

/-- Bytes per pixel of a format. -/
def Spec.bytesPer : PixFmt → Nat
  | .RGBA | .BGRA => 4
  | .RGB24 | .BGR24 => 3
  | .Grayscale => 1
  | .Unknown => 0

/-- A pixel in a format: red, green and blue in the order of the name, and the opacity. -/
def Spec.pixel (fmt : PixFmt) (c : Byte × Byte × Byte) (a : Byte) : List Byte :=
  match fmt with
  | .RGBA => [c.1, c.2.1, c.2.2, a]
  | .BGRA => [c.2.2, c.2.1, c.1, a]
  | .RGB24 => [c.1, c.2.1, c.2.2]
  | .BGR24 => [c.2.2, c.2.1, c.1]
  | _ => []

/-- A buffer holds a picture: the pixel of line `y` and column `x` is found at byte `y * stride + x * n`. -/
def Spec.Raster (buf : Bytes) (w h stride n : Nat) (px : Nat → Nat → List Byte) : Prop :=
  h * stride ≤ buf.length ∧ ∀ y x k, y < h → x < w → k < n → buf[y * stride + x * n + k]? = (px y x)[k]?

/-- The bytes between the end of a line and the next one are zero. -/
def Spec.ZeroPadding (buf : Bytes) (h stride used : Nat) : Prop :=
  ∀ y j, y < h → used ≤ j → j < stride → buf[y * stride + j]? = some 0

/-- The length of a line when none is given: the pixels, rounded up to four bytes. -/
def Spec.lineLength (w : Nat) (fmt : PixFmt) : Nat := 4 * ((w * Spec.bytesPer fmt + 3) / 4)

/-- Line lengths that are accepted: the default one or a longer one. -/
def Spec.strideOf (w : Nat) (fmt : PixFmt) (rowSize : Int) : Nat := if rowSize < 0 then Spec.lineLength w fmt else rowSize.toNat

/-! ### Lines -/

theorem strGet_some {b : Bytes} {i : Nat} {v : Byte} (h : b[i]? = some v) : strGet b i = .ok v := by
  have hi : i < b.length := by
    rcases Nat.lt_or_ge i b.length with h' | h'
    · exact h'
    · rw [List.getElem?_eq_none h'] at h; cases h
  rw [strGet, if_pos hi]; simp [List.getD, h]

theorem arrGet_some {b : Bytes} {i : Nat} {v : Byte} (h : b[i]? = some v) : arrGet b i = .ok v := by
  have hi : i < b.length := by
    rcases Nat.lt_or_ge i b.length with h' | h'
    · exact h'
    · rw [List.getElem?_eq_none h'] at h; cases h
  rw [arrGet, if_pos hi]; simp [List.getD, h]

theorem rounds_step {σ : Type} {f : Nat → σ → Res σ} {n i : Nat} {s s' : σ} (h : f i s = .ok s') : rounds f (n + 1) i s = rounds f n (i + 1) s' := by
  simp [rounds, h, Except.bind]

theorem uns_small {n : Nat} (h : n < 4294967296) : uns n = n := Nat.mod_eq_of_lt h

theorem putPixel_ok (pos : Nat) : ∀ (bs : List Byte) (k : Nat) (pre rest : Bytes), pre.length = pos + k → bs.length ≤ rest.length →
    pre.length + rest.length ≤ 4294967296 → putPixel pos k (bs.map .ok) (pre ++ rest) = .ok (pre ++ bs ++ rest.drop bs.length) := by
  intro bs
  induction bs with
  | nil => intro k pre rest _ _ _; simp [putPixel]
  | cons b bs ih =>
    intro k pre rest hp hl hm
    cases rest with
    | nil => simp at hl
    | cons r rest =>
      simp only [List.length_cons] at hl hm
      have hs : strSet (pre ++ r :: rest) (uns (pos + k)) b = .ok (pre ++ [b] ++ rest) := by
        rw [uns_small (by omega), strSet, if_pos (by simp; omega), ← hp]; simp
      simp only [List.map_cons, putPixel, Except.bind, hs]
      rw [ih (k + 1) (pre ++ [b]) rest (by simp; omega) (by omega) (by simp; omega)]
      simp

theorem putLine_ok (bpp : Nat) (px : Nat → List (Res Byte)) (f : Nat → List Byte) : ∀ (n i : Nat) (pre rest : Bytes),
    (∀ j, i ≤ j → j < i + n → px j = (f j).map .ok ∧ (f j).length = bpp) → pre.length = i * bpp → n * bpp ≤ rest.length →
    pre.length + rest.length ≤ 4294967296 →
    rounds (fun i d => putPixel (i * bpp) 0 (px i) d) n i (pre ++ rest) = .ok (pre ++ (List.range' i n).flatMap f ++ rest.drop (n * bpp)) := by
  intro n
  induction n with
  | zero => intro i pre rest _ _ _ _; simp [rounds]
  | succ n ih =>
    intro i pre rest hf hp hl hm
    obtain ⟨h1, h2⟩ := hf i (Nat.le_refl i) (by omega)
    have hl' : bpp + n * bpp ≤ rest.length := by rw [Nat.succ_mul] at hl; omega
    simp only [rounds, h1]
    rw [putPixel_ok (i * bpp) (f i) 0 pre rest (by omega) (by omega) hm]
    simp only [Except.bind]
    rw [ih (i + 1) (pre ++ f i) (rest.drop (f i).length) (fun j a b => hf j (by omega) (by omega))
      (by simp [hp, h2, Nat.succ_mul]) (by simp [h2]; omega) (by simp; omega)]
    simp [List.range'_succ, h2, Nat.succ_mul, Nat.add_comm]

theorem putLine_spec {bpp w : Nat} {px : Nat → List (Res Byte)} {f : Nat → List Byte} {body pad : Bytes}
    (hf : ∀ j, j < w → px j = (f j).map .ok ∧ (f j).length = bpp) (hb : body.length = w * bpp)
    (hm : (body ++ pad).length ≤ 4294967296) :
    putLine bpp w px (body ++ pad) = .ok ((List.range' 0 w).flatMap f ++ pad) := by
  have := putLine_ok bpp px f w 0 [] (body ++ pad) (fun j _ h => hf j (by omega)) (by simp) (by simp [hb]) (by simpa using hm)
  rw [List.nil_append] at this
  rw [putLine, this, List.drop_left' hb]; simp

theorem range_flatMap_length {f : Nat → List Byte} {m : Nat} : ∀ (n i : Nat), (∀ j, i ≤ j → j < i + n → (f j).length = m) →
    ((List.range' i n).flatMap f).length = n * m := by
  intro n
  induction n with
  | zero => intro i _; simp
  | succ n ih =>
    intro i h
    rw [List.range'_succ, List.flatMap_cons, List.length_append, h i (Nat.le_refl i) (by omega), ih (i + 1) (fun j a b => h j (by omega) (by omega)), Nat.succ_mul]
    omega

theorem range_flatMap_get {f : Nat → List Byte} {m : Nat} : ∀ (n i x k : Nat), (∀ j, i ≤ j → j < i + n → (f j).length = m) → x < n → k < m →
    ((List.range' i n).flatMap f)[x * m + k]? = (f (i + x))[k]? := by
  intro n
  induction n with
  | zero => intro i x k _ h; omega
  | succ n ih =>
    intro i x k h hx hk
    have h0 := h i (Nat.le_refl i) (by omega)
    rw [List.range'_succ, List.flatMap_cons]
    cases x with
    | zero => rw [List.getElem?_append_left (by rw [h0]; omega)]; simp
    | succ x =>
      rw [List.getElem?_append_right (by rw [h0, Nat.succ_mul]; omega), h0,
        show (x + 1) * m + k - m = x * m + k from by rw [Nat.succ_mul]; omega,
        ih (i + 1) x k (fun j a b => h j (by omega) (by omega)) (by omega) hk]
      rw [show i + 1 + x = i + (x + 1) from by omega]

/-- Where the loop over the lines ends, when every line is `row y` followed by the same padding. -/
theorem putLines_go {cap : Option Nat} {scan : Nat → Bytes → Res Bytes} {row : Nat → Bytes} {pad : Bytes} {m : Nat} : ∀ (n i : Nat) (body out : Bytes),
    (∀ y b, i ≤ y → y < i + n → b.length = m → scan y (b ++ pad) = .ok (row y ++ pad)) → (∀ y, i ≤ y → y < i + n → (row y).length = m) →
    body.length = m → (∀ c, cap = some c → out.length + n * (m + pad.length) ≤ c) →
    ∃ l, rounds (fun i (s : Bytes × Bytes) => (scan i s.1).bind fun l => (sinkPut cap s.2 l).map fun o => (l, o)) n i (body ++ pad, out)
      = .ok (l, out ++ (List.range' i n).flatMap fun y => row y ++ pad) := by
  intro n
  induction n with
  | zero => intro i body out _ _ _ _; exact ⟨body ++ pad, by simp [rounds]⟩
  | succ n ih =>
    intro i body out hs hr hb hc
    have h0 := hr i (Nat.le_refl i) (by omega)
    have hp : sinkPut cap out (row i ++ pad) = .ok (out ++ (row i ++ pad)) := by
      cases cap with
      | none => rfl
      | some c =>
        have := hc c rfl
        rw [Nat.succ_mul] at this
        rw [sinkPut, if_neg (by simp [h0]; omega)]
    obtain ⟨l, hl⟩ := ih (i + 1) (row i) (out ++ (row i ++ pad)) (fun y b a c d => hs y b (by omega) (by omega) d) (fun y a b => hr y (by omega) (by omega)) h0
      (fun c hcc => by have := hc c hcc; rw [Nat.succ_mul] at this; simp [h0]; omega)
    refine ⟨l, ?_⟩
    rw [rounds_step (s' := (row i ++ pad, out ++ (row i ++ pad))) (by simp [hs i body (Nat.le_refl i) (by omega) hb, Except.bind, hp, Except.map]), hl]
    simp [List.range'_succ]

theorem putLines_spec {cap : Option Nat} {h m : Nat} {scan : Nat → Bytes → Res Bytes} {row : Nat → Bytes} {body pad : Bytes}
    (hs : ∀ y b, y < h → b.length = m → scan y (b ++ pad) = .ok (row y ++ pad)) (hr : ∀ y, y < h → (row y).length = m) (hb : body.length = m)
    (hc : ∀ c, cap = some c → h * (m + pad.length) ≤ c) :
    putLines cap h scan (body ++ pad) [] = .ok ((List.range' 0 h).flatMap fun y => row y ++ pad) := by
  obtain ⟨l, hl⟩ := putLines_go (cap := cap) (scan := scan) (row := row) (pad := pad) (m := m) h 0 body [] (fun y b _ a c => hs y b (by omega) c)
    (fun y _ a => hr y (by omega)) hb (by simpa using hc)
  rw [putLines, hl]; simp [Except.map]

/-- The bytes written hold the picture. -/
theorem raster_of_rows {h w n : Nat} {pad : Bytes} {px : Nat → Nat → List Byte} (hp : ∀ b ∈ pad, b = 0) (hn : ∀ y x, (px y x).length = n) :
    let out := (List.range' 0 h).flatMap fun y => (List.range' 0 w).flatMap (px y) ++ pad
    out.length = h * (w * n + pad.length) ∧ Spec.Raster out w h (w * n + pad.length) n px ∧ Spec.ZeroPadding out h (w * n + pad.length) (w * n) := by
  intro out
  have hrow : ∀ y, ((List.range' 0 w).flatMap (px y)).length = w * n := fun y => range_flatMap_length w 0 (fun j _ _ => hn y j)
  have hl : ∀ y, 0 ≤ y → y < 0 + h → ((List.range' 0 w).flatMap (px y) ++ pad).length = w * n + pad.length := by
    intro y _ _; rw [List.length_append, hrow]
  have hlen : out.length = h * (w * n + pad.length) := range_flatMap_length h 0 hl
  refine ⟨hlen, ⟨by rw [hlen]; exact Nat.le_refl _, ?_⟩, ?_⟩
  · intro y x k hy hx hk
    have hxk : x * n + k < w * n := by
      have := Nat.mul_le_mul_right n (show x + 1 ≤ w from hx); rw [Nat.succ_mul] at this; omega
    rw [Nat.add_assoc, range_flatMap_get h 0 y (x * n + k) hl hy (by omega), List.getElem?_append_left (by rw [hrow]; exact hxk),
      range_flatMap_get w 0 x k (fun j _ _ => hn _ j) hx hk]
    simp
  · intro y j hy hj hjs
    rw [range_flatMap_get h 0 y j hl hy hjs, List.getElem?_append_right (by rw [hrow]; exact hj), hrow]
    have hi : j - w * n < pad.length := by omega
    rw [List.getElem?_eq_getElem hi, hp _ (List.getElem_mem hi)]


theorem scanRGB_spec {w : Nat} {fmt : PixFmt} {src alpha : Nat → Res Byte} {c : Nat → Byte × Byte × Byte} {a : Nat → Byte} {body pad : Bytes}
    (hf : 3 ≤ Spec.bytesPer fmt) (hw : w * 4 < 4294967296)
    (hs : ∀ x k, x < w → k < 3 → ∃ v, (Spec.pixel .RGB24 (c x) 255)[k]? = some v ∧ src (x * 3 + k) = .ok v)
    (ha : Spec.bytesPer fmt = 4 → ∀ x, x < w → alpha x = .ok (a x)) (hb : body.length = w * Spec.bytesPer fmt) (hm : (body ++ pad).length ≤ 4294967296) :
    scanRGB w fmt src alpha (body ++ pad) = .ok ((List.range' 0 w).flatMap (fun x => Spec.pixel fmt (c x) (a x)) ++ pad) := by
  have s0 : ∀ x, x < w → src (uns (x * 3)) = .ok (c x).1 := by
    intro x hx; obtain ⟨v, h1, h2⟩ := hs x 0 hx (by omega); rw [Nat.add_zero] at h2; rw [uns_small (by omega), h2]; simp [Spec.pixel] at h1; rw [h1]
  have s1 : ∀ x, x < w → src (uns (x * 3 + 1)) = .ok (c x).2.1 := by
    intro x hx; obtain ⟨v, h1, h2⟩ := hs x 1 hx (by omega); rw [uns_small (by omega), h2]; simp [Spec.pixel] at h1; rw [h1]
  have s2 : ∀ x, x < w → src (uns (x * 3 + 2)) = .ok (c x).2.2 := by
    intro x hx; obtain ⟨v, h1, h2⟩ := hs x 2 hx (by omega); rw [uns_small (by omega), h2]; simp [Spec.pixel] at h1; rw [h1]
  cases fmt with
  | Unknown => simp [Spec.bytesPer] at hf
  | Grayscale => simp [Spec.bytesPer] at hf
  | RGB24 => exact putLine_spec (fun j hj => ⟨by simp [s0 j hj, s1 j hj, s2 j hj, Spec.pixel], rfl⟩) hb hm
  | BGR24 => exact putLine_spec (fun j hj => ⟨by simp [s0 j hj, s1 j hj, s2 j hj, Spec.pixel], rfl⟩) hb hm
  | RGBA => exact putLine_spec (fun j hj => ⟨by simp [s0 j hj, s1 j hj, s2 j hj, ha rfl j hj, Spec.pixel], rfl⟩) hb hm
  | BGRA => exact putLine_spec (fun j hj => ⟨by simp [s0 j hj, s1 j hj, s2 j hj, ha rfl j hj, Spec.pixel], rfl⟩) hb hm

/-- A grey pixel in a format. -/
def Spec.greyPixel (fmt : PixFmt) (v a : Byte) : List Byte :=
  match fmt with
  | .RGBA | .BGRA => [v, v, v, a]
  | .RGB24 | .BGR24 => [v, v, v]
  | .Grayscale => [v]
  | .Unknown => []

theorem scanGray_spec {w : Nat} {fmt : PixFmt} {src alpha : Nat → Res Byte} {v a : Nat → Byte} {body pad : Bytes}
    (hf : fmt ≠ .Unknown) (hs : ∀ x, x < w → src x = .ok (v x))
    (ha : Spec.bytesPer fmt = 4 → ∀ x, x < w → alpha x = .ok (a x)) (hb : body.length = w * Spec.bytesPer fmt) (hm : (body ++ pad).length ≤ 4294967296) :
    scanGray w fmt src alpha (body ++ pad) = .ok ((List.range' 0 w).flatMap (fun x => Spec.greyPixel fmt (v x) (a x)) ++ pad) := by
  cases fmt with
  | Unknown => exact absurd rfl hf
  | Grayscale => exact putLine_spec (fun j hj => ⟨by simp [hs j hj, Spec.greyPixel], rfl⟩) hb hm
  | RGB24 => exact putLine_spec (fun j hj => ⟨by simp [hs j hj, Spec.greyPixel], rfl⟩) hb hm
  | BGR24 => exact putLine_spec (fun j hj => ⟨by simp [hs j hj, Spec.greyPixel], rfl⟩) hb hm
  | RGBA => exact putLine_spec (fun j hj => ⟨by simp [hs j hj, ha rfl j hj, Spec.greyPixel], rfl⟩) hb hm
  | BGRA => exact putLine_spec (fun j hj => ⟨by simp [hs j hj, ha rfl j hj, Spec.greyPixel], rfl⟩) hb hm

/-! ### Decoding an image -/

/-- The opacities: 255 without a soft mask, else those in the mask, one byte for each pixel. -/
def Spec.Opacity (im : ImgPic) (op : Nat → Nat → Byte) : Prop :=
  match im.smask with
  | none => ∀ y x, op y x = 255
  | some m => Spec.Raster m im.width im.height im.width 1 fun y x => [op y x]

/-- A line length that is accepted. -/
def Spec.GoodStride (w : Nat) (fmt : PixFmt) (rowSize : Int) : Prop :=
  rowSize < 0 ∨ ((Spec.lineLength w fmt : Int) ≤ rowSize ∧ rowSize < 2147483648)

/-- There is room for the lines. -/
def Spec.Room (cap : Option Nat) (n : Nat) : Prop := ∀ c, cap = some c → n ≤ c

theorem stride_ge {w : Nat} {fmt : PixFmt} {rowSize : Int} (h : Spec.GoodStride w fmt rowSize) :
    w * Spec.bytesPer fmt ≤ Spec.strideOf w fmt rowSize := by
  unfold Spec.GoodStride at h; unfold Spec.strideOf Spec.lineLength at *
  split
  · omega
  · rcases h with h | h <;> omega

theorem stride_le {w : Nat} {fmt : PixFmt} {rowSize : Int} (hw : w < 536870912) (h : Spec.GoodStride w fmt rowSize) :
    Spec.strideOf w fmt rowSize ≤ 2147483648 := by
  unfold Spec.GoodStride at h; unfold Spec.strideOf Spec.lineLength at *
  have : Spec.bytesPer fmt ≤ 4 := by cases fmt <;> simp [Spec.bytesPer]
  have := Nat.mul_le_mul_left w this
  split
  · omega
  · rcases h with h | h <;> omega

theorem initLine_ok {w : Nat} {fmt : PixFmt} {rowSize : Int} (hf : fmt ≠ .Unknown) (hw : w < 536870912) (hs : Spec.GoodStride w fmt rowSize) :
    initLine w fmt rowSize = .ok (List.replicate (w * Spec.bytesPer fmt) 0 ++ List.replicate (Spec.strideOf w fmt rowSize - w * Spec.bytesPer fmt) 0) := by
  have hd : defaultRow w fmt = .ok (Spec.lineLength w fmt) := by
    have h3 : uns (3 * w + 3) = 3 * w + 3 := uns_small (by omega)
    have h1 : uns (w + 3) = w + 3 := uns_small (by omega)
    cases fmt <;> simp only [defaultRow, Spec.lineLength, Spec.bytesPer, h3, h1] <;> first | exact absurd rfl hf | (rw [uns_small (by omega)]; congr 1; omega)
  have hge := stride_ge hs
  have hl : Spec.lineLength w fmt ≤ 2147483647 := by
    unfold Spec.lineLength
    cases fmt <;> simp only [Spec.bytesPer] <;> omega
  rw [List.replicate_append_replicate, show w * Spec.bytesPer fmt + (Spec.strideOf w fmt rowSize - w * Spec.bytesPer fmt) = Spec.strideOf w fmt rowSize from by omega,
    initLine, hd]
  simp only [Except.bind, Spec.strideOf]
  by_cases hn : rowSize < 0
  · rw [if_pos hn, if_pos hn]
  · rw [if_neg hn, if_neg hn]
    have ht : toInt32 (Spec.lineLength w fmt : Int) = (Spec.lineLength w fmt : Int) := by
      simp only [toInt32]; split <;> omega
    rcases hs with hs | hs
    · exact absurd hs hn
    · rw [if_neg (by rw [ht]; omega)]

theorem alpha_ok {im : ImgPic} {fmt : PixFmt} {op : Nat → Nat → Byte} {y x : Nat} (ho : Spec.Opacity im op) (hb : Spec.bytesPer fmt = 4)
    (hy : y < im.height) (hx : x < im.width) (hwh : im.width * im.height < 4294967296) : alphaOf im.width (maskFor fmt im.smask) y x = .ok (op y x) := by
  have hm : maskFor fmt im.smask = im.smask.getD [] := by cases fmt <;> simp [Spec.bytesPer] at hb <;> rfl
  have hyw : y * im.width + im.width ≤ im.width * im.height := by
    have := Nat.mul_le_mul_right im.width (show y + 1 ≤ im.height from hy)
    rw [Nat.succ_mul] at this; rw [Nat.mul_comm im.width im.height]; omega
  rw [hm]
  unfold Spec.Opacity at ho
  cases hsm : im.smask with
  | none => rw [hsm] at ho; simp [alphaOf, ho y x]
  | some m =>
    rw [hsm] at ho
    obtain ⟨h1, h2⟩ := ho
    have := h2 y x 0 hy hx (by omega)
    simp only [Nat.mul_one, Nat.add_zero, List.getElem?_cons_zero] at this
    have hpos : 0 < im.height * im.width := Nat.mul_pos (by omega) (by omega)
    rw [alphaOf, Option.getD, if_neg (by omega), uns_small (by omega), strGet_some this]

/-- C173: every pixel of an RGB image is written at its place, in the order of the format asked for, with its opacity, and the rest of each line is zero. -/
theorem C173_decode_partial (im : ImgPic) (cap : Option Nat) (fmt : PixFmt) (rowSize : Int) (data : Bytes)
    (px : Nat → Nat → Byte × Byte × Byte) (op : Nat → Nat → Byte) (hf : 3 ≤ Spec.bytesPer fmt) (hd : im.data = .plain .rgb data)
    (hp : Spec.Raster data im.width im.height (3 * im.width) 3 fun y x => Spec.pixel .RGB24 (px y x) 255) (ho : Spec.Opacity im op)
    (hw : im.width < 536870912) (hwh : 3 * im.width * im.height < 4294967296) (hs : Spec.GoodStride im.width fmt rowSize)
    (hc : Spec.Room cap (im.height * Spec.strideOf im.width fmt rowSize)) :
    ∃ out, im.decode cap fmt rowSize = .ok out ∧ out.length = im.height * Spec.strideOf im.width fmt rowSize
      ∧ Spec.Raster out im.width im.height (Spec.strideOf im.width fmt rowSize) (Spec.bytesPer fmt) (fun y x => Spec.pixel fmt (px y x) (op y x))
      ∧ Spec.ZeroPadding out im.height (Spec.strideOf im.width fmt rowSize) (im.width * Spec.bytesPer fmt) := by
  have hge := stride_ge hs
  have hle := stride_le hw hs
  have hlen : ∀ y x, (Spec.pixel fmt (px y x) (op y x)).length = Spec.bytesPer fmt := by
    intro y x; cases fmt <;> simp [Spec.bytesPer] at hf <;> rfl
  have hr := raster_of_rows (h := im.height) (w := im.width) (n := Spec.bytesPer fmt) (pad := List.replicate (Spec.strideOf im.width fmt rowSize - im.width * Spec.bytesPer fmt) 0)
    (px := fun y x => Spec.pixel fmt (px y x) (op y x)) (fun b hb => (List.mem_replicate.1 hb).2) hlen
  simp only [List.length_replicate] at hr
  rw [show im.width * Spec.bytesPer fmt + (Spec.strideOf im.width fmt rowSize - im.width * Spec.bytesPer fmt) = Spec.strideOf im.width fmt rowSize from by omega] at hr
  refine ⟨_, ?_, hr⟩
  rw [ImgPic.decode, initLine_ok (by intro e; rw [e] at hf; simp [Spec.bytesPer] at hf) hw hs]
  simp only [Except.bind, hd]
  refine putLines_spec ?_ (fun y _ => range_flatMap_length _ 0 fun j _ _ => hlen y j) (List.length_replicate ..) ?_
  · intro y b hy hb
    refine scanRGB_spec hf (by omega) ?_ ?_ hb (by simp [hb]; omega)
    · intro x k hx hk
      have hyw : y * (3 * im.width) + 3 * im.width ≤ 3 * im.width * im.height := by
        have := Nat.mul_le_mul_right (3 * im.width) (show y + 1 ≤ im.height from hy)
        rw [Nat.succ_mul] at this; rw [Nat.mul_comm (3 * im.width) im.height]; omega
      have := hp.2 y x k hy hx hk
      obtain ⟨v, hv⟩ : ∃ v, (Spec.pixel .RGB24 (px y x) 255)[k]? = some v := by
        refine ⟨(Spec.pixel .RGB24 (px y x) 255)[k]'(by simpa [Spec.pixel] using hk), List.getElem?_eq_getElem _⟩
      refine ⟨v, hv, strGet_some ?_⟩
      rw [← hv, ← this, Nat.mul_comm im.width 3, uns_small (n := 3 * im.width) (by omega), uns_small (by omega)]
      congr 1; omega
    · intro h4 x hx
      have hww : im.width * im.height ≤ 3 * im.width * im.height := Nat.mul_le_mul_right _ (by omega)
      exact alpha_ok ho h4 hy hx (by omega)
  · intro c hcc
    rw [List.length_replicate, show im.width * Spec.bytesPer fmt + (Spec.strideOf im.width fmt rowSize - im.width * Spec.bytesPer fmt) = Spec.strideOf im.width fmt rowSize from by omega]
    exact hc c hcc

/-- An image with one RGB picture of two by two pixels and a soft mask. -/
def exImg : ImgPic := ⟨2, 2, .plain .rgb [1, 2, 3, 4, 5, 6, 7, 8, 9, 10, 11, 12], some [20, 21, 22, 23]⟩

example : exImg.decode none .BGRA (-1) = .ok [3, 2, 1, 20, 6, 5, 4, 21, 9, 8, 7, 22, 12, 11, 10, 23] := by decide +kernel
example : exImg.decode none .RGB24 (-1) = .ok [1, 2, 3, 4, 5, 6, 0, 0, 7, 8, 9, 10, 11, 12, 0, 0] := by decide +kernel
example : exImg.decode (some 17) .RGB24 (-1) = .ok [1, 2, 3, 4, 5, 6, 0, 0, 7, 8, 9, 10, 11, 12, 0, 0] := by decide +kernel

/-! ### Setting the data -/

theorem writeFrom_go (line : Bytes) : ∀ (n i : Nat) (out : Bytes), i + n ≤ line.length →
    rounds (fun i (o : Bytes) => (strGet line i).map fun b => o ++ [b]) n i out = .ok (out ++ (line.drop i).take n) := by
  intro n
  induction n with
  | zero => intro i out _; simp [rounds]
  | succ n ih =>
    intro i out h
    have hi : i < line.length := by omega
    rw [rounds_step (s' := out ++ [line[i]]) (by rw [strGet_some (List.getElem?_eq_getElem hi)]; rfl), ih (i + 1) _ (by omega)]
    rw [List.drop_eq_getElem_cons hi, List.take_succ_cons, List.append_assoc]; rfl

theorem writeFrom_ok {line out : Bytes} {n : Nat} (h : n ≤ line.length) : writeFrom line n out = .ok (out ++ line.take n) := by
  rw [writeFrom, writeFrom_go line n 0 out (by omega)]; simp

/-- The line of length `n` that begins at line `y`. -/
def lineAt (buf : Bytes) (n y : Nat) : Bytes := (buf.drop (y * n)).take n

theorem readLine_at {buf : Bytes} {n y h : Nat} (hl : h * n ≤ buf.length) (hy : y < h) :
    readLine n (buf.drop (y * n)) = .ok (lineAt buf n y, buf.drop ((y + 1) * n)) := by
  have := Nat.mul_le_mul_right n (show y + 1 ≤ h from hy)
  rw [Nat.succ_mul] at this
  rw [readLine, if_pos (by rw [List.length_drop]; omega), List.drop_drop, lineAt, Nat.succ_mul]

theorem setLoop {body : Nat → Bytes × Bytes → Res (Bytes × Bytes)} {buf : Bytes} {n : Nat} {row : Nat → Bytes} : ∀ (h y : Nat) (out : Bytes),
    (∀ z o, y ≤ z → z < y + h → body z (buf.drop (z * n), o) = .ok (buf.drop ((z + 1) * n), o ++ row z)) →
    rounds body h y (buf.drop (y * n), out) = .ok (buf.drop ((y + h) * n), out ++ (List.range' y h).flatMap row) := by
  intro h
  induction h with
  | zero => intro y out _; simp [rounds]
  | succ h ih =>
    intro y out hb
    rw [rounds_step (hb y out (Nat.le_refl y) (by omega)), ih (y + 1) _ (fun z o a b => hb z o (by omega) (by omega))]
    simp [List.range'_succ, show y + 1 + h = y + (h + 1) from by omega]

theorem line_get {buf : Bytes} {n y j : Nat} (hj : j < n) : (lineAt buf n y)[j]? = buf[y * n + j]? := by
  rw [lineAt, List.getElem?_take_of_lt hj, List.getElem?_drop]

theorem raster_rows {buf : Bytes} {w h n stride : Nat} {px : Nat → Nat → List Byte} {row : Nat → Bytes} (hb : buf = (List.range' 0 h).flatMap row) (hr : ∀ y, y < h → (row y).length = stride)
    (hg : ∀ y x k, y < h → x < w → k < n → (row y)[x * n + k]? = (px y x)[k]?) (hs : w * n ≤ stride) : buf.length = h * stride ∧ Spec.Raster buf w h stride n px := by
  have hl : ((List.range' 0 h).flatMap row).length = h * stride := range_flatMap_length h 0 (fun j _ a => hr j (by omega))
  rw [hb]
  refine ⟨hl, Nat.le_of_eq hl.symm, ?_⟩
  intro y x k hy hx hk
  have hxk : x * n + k < w * n := by
    have := Nat.mul_le_mul_right n (show x + 1 ≤ w from hx); rw [Nat.succ_mul] at this; omega
  rw [Nat.add_assoc, range_flatMap_get h 0 y (x * n + k) (fun j _ a => hr j (by omega)) hy (by omega), Nat.zero_add]
  exact hg y x k hy hx hk

/-- Line lengths that `SetData` can work with: the default one, or one that is long enough for the pixels. -/
def Spec.WideEnough (w : Nat) (fmt : PixFmt) (rowSize : Int) : Prop := rowSize < 0 ∨ (w * Spec.bytesPer fmt : Int) ≤ rowSize

/-- C173: data given line by line is kept as RGB, without the rest of the lines. -/
theorem C173_set_partial (buf : Bytes) (w h : Nat) (fmt : PixFmt) (rowSize : Int) (px : Nat → Nat → Byte × Byte × Byte)
    (hf : Spec.bytesPer fmt = 3) (hw : w < 536870912) (hs : Spec.WideEnough w fmt rowSize)
    (hb : Spec.Raster buf w h (Spec.strideOf w fmt rowSize) 3 fun y x => Spec.pixel fmt (px y x) 255) :
    ∃ data, setData buf w h fmt rowSize = .ok (.rgb, data) ∧ data.length = h * (3 * w)
      ∧ Spec.Raster data w h (3 * w) 3 fun y x => Spec.pixel .RGB24 (px y x) 255 := by
  have hfc : fmt = .RGB24 ∨ fmt = .BGR24 := by cases fmt <;> simp [Spec.bytesPer] at hf <;> simp
  have hd : defaultRow w fmt = .ok (Spec.lineLength w fmt) := by
    have h3 : uns (3 * w + 3) = 3 * w + 3 := uns_small (by omega)
    rcases hfc with e | e <;> rw [e] <;> simp only [defaultRow, Spec.lineLength, Spec.bytesPer, h3] <;> rw [uns_small (by omega)] <;> congr 1 <;> omega
  have hst : (if rowSize < 0 then Spec.lineLength w fmt else rowSize.toNat) = Spec.strideOf w fmt rowSize := rfl
  have hge : 3 * w ≤ Spec.strideOf w fmt rowSize := by
    unfold Spec.WideEnough at hs; unfold Spec.strideOf Spec.lineLength; rw [hf] at hs ⊢
    split
    · omega
    · rcases hs with hs | hs <;> omega
  have h3w : uns (3 * w) = 3 * w := uns_small (by omega)
  have hline : ∀ y x k, y < h → x < w → k < 3 → (lineAt buf (Spec.strideOf w fmt rowSize) y)[x * 3 + k]? = (Spec.pixel fmt (px y x) 255)[k]? := by
    intro y x k hy hx hk
    rw [line_get (by omega), ← Nat.add_assoc]
    exact hb.2 y x k hy hx hk
  have hlen : ∀ y, y < h → (lineAt buf (Spec.strideOf w fmt rowSize) y).length = Spec.strideOf w fmt rowSize := by
    intro y hy
    have := Nat.mul_le_mul_right (Spec.strideOf w fmt rowSize) (show y + 1 ≤ h from hy)
    rw [Nat.succ_mul] at this
    have := hb.1
    rw [lineAt, List.length_take, List.length_drop]; omega
  rcases hfc with e | e
  · subst e
    have key := setLoop (buf := buf) (n := Spec.strideOf w .RGB24 rowSize) (row := fun y => (lineAt buf (Spec.strideOf w .RGB24 rowSize) y).take (3 * w))
      (body := fun _ s => (readLine (Spec.strideOf w .RGB24 rowSize) s.1).bind fun lr => (writeFrom lr.1 (3 * w) s.2).map fun o => (lr.2, o)) h 0 [] (by
        intro z o _ hz
        simp only [readLine_at hb.1 (show z < h by omega), Except.bind, writeFrom_ok (show 3 * w ≤ (lineAt buf (Spec.strideOf w .RGB24 rowSize) z).length by rw [hlen z (by omega)]; exact hge), Except.map])
    rw [Nat.zero_mul, List.drop_zero] at key
    obtain ⟨h1, h2⟩ := raster_rows (buf := (List.range' 0 h).flatMap fun y => (lineAt buf (Spec.strideOf w .RGB24 rowSize) y).take (3 * w)) (w := w) (h := h) (n := 3) (stride := 3 * w)
      (px := fun y x => Spec.pixel .RGB24 (px y x) 255) rfl (fun y hy => by rw [List.length_take, hlen y hy]; omega)
      (fun y x k hy hx hk => by rw [List.getElem?_take_of_lt (by omega)]; exact hline y x k hy hx hk) (by omega)
    refine ⟨_, ?_, h1, h2⟩
    simp only [setData, hd, Except.bind, hst, h3w, reduceCtorEq, if_false]
    simp only [Except.bind] at key
    rw [key]; simp [Except.map]
  · subst e
    have hsc : ∀ y, y < h → scanPDF w .BGR24 (strGet (lineAt buf (Spec.strideOf w .BGR24 rowSize) y)) (List.replicate (3 * w) 0)
        = .ok ((List.range' 0 w).flatMap fun x => Spec.pixel .RGB24 (px y x) 255) := by
      intro y hy
      have g : ∀ x k v, x < w → k < 3 → (Spec.pixel .BGR24 (px y x) 255)[k]? = some v → strGet (lineAt buf (Spec.strideOf w .BGR24 rowSize) y) (uns (x * 3 + k)) = .ok v := by
        intro x k v hx hk hv
        rw [uns_small (by omega)]; exact strGet_some (by rw [hline y x k hy hx hk, hv])
      have := putLine_spec (bpp := 3) (w := w) (body := List.replicate (3 * w) 0) (pad := []) (f := fun x => Spec.pixel .RGB24 (px y x) 255)
        (px := fun i => [strGet (lineAt buf (Spec.strideOf w .BGR24 rowSize) y) (uns (i * 3 + 2)), strGet (lineAt buf (Spec.strideOf w .BGR24 rowSize) y) (uns (i * 3 + 1)), strGet (lineAt buf (Spec.strideOf w .BGR24 rowSize) y) (uns (i * 3 + 0))])
        (fun j hj => ⟨by rw [g j 2 _ hj (by omega) rfl, g j 1 _ hj (by omega) rfl, g j 0 _ hj (by omega) rfl]; rfl, rfl⟩) (by simp; omega) (by simp; omega)
      rw [List.append_nil, List.append_nil] at this
      exact this
    have key := setLoop (buf := buf) (n := Spec.strideOf w .BGR24 rowSize) (row := fun y => (List.range' 0 w).flatMap fun x => Spec.pixel .RGB24 (px y x) 255)
      (body := fun _ s => (readLine (Spec.strideOf w .BGR24 rowSize) s.1).bind fun lr => (scanPDF w .BGR24 (strGet lr.1) (List.replicate (3 * w) 0)).map fun l => (lr.2, s.2 ++ l)) h 0 [] (by
        intro z o _ hz
        simp only [readLine_at hb.1 (show z < h by omega), Except.bind, hsc z (by omega), Except.map])
    rw [Nat.zero_mul, List.drop_zero] at key
    have hrl : ∀ y, ((List.range' 0 w).flatMap fun x => Spec.pixel .RGB24 (px y x) 255).length = w * 3 := fun y => range_flatMap_length w 0 (fun j _ _ => rfl)
    obtain ⟨h1, h2⟩ := raster_rows (buf := (List.range' 0 h).flatMap fun y => (List.range' 0 w).flatMap fun x => Spec.pixel .RGB24 (px y x) 255) (w := w) (h := h) (n := 3) (stride := 3 * w)
      (px := fun y x => Spec.pixel .RGB24 (px y x) 255) rfl (fun y _ => by rw [hrl]; omega)
      (fun y x k hy hx hk => by rw [range_flatMap_get (m := 3) w 0 x k (fun j _ _ => rfl) hx hk, Nat.zero_add]) (by omega)
    refine ⟨_, ?_, h1, h2⟩
    simp only [setData, hd, Except.bind, hst, h3w, reduceCtorEq, if_false, if_true]
    simp only [Except.bind] at key
    rw [key]; simp [Except.map]

/-- C173: what is set in one format and read in another is the same picture, without a soft mask. -/
theorem C173_round_trip_partial (buf : Bytes) (w h : Nat) (fmt fmt' : PixFmt) (rowSize rowSize' : Int) (px : Nat → Nat → Byte × Byte × Byte)
    (hf : Spec.bytesPer fmt = 3) (hf' : 3 ≤ Spec.bytesPer fmt') (hw : w < 536870912) (hwh : 3 * w * h < 4294967296) (hs : Spec.WideEnough w fmt rowSize)
    (hs' : Spec.GoodStride w fmt' rowSize')
    (hb : Spec.Raster buf w h (Spec.strideOf w fmt rowSize) 3 fun y x => Spec.pixel fmt (px y x) 255) :
    ∃ data out, setData buf w h fmt rowSize = .ok (.rgb, data)
      ∧ (ImgPic.mk w h (.plain .rgb data) none).decode none fmt' rowSize' = .ok out
      ∧ out.length = h * Spec.strideOf w fmt' rowSize'
      ∧ Spec.Raster out w h (Spec.strideOf w fmt' rowSize') (Spec.bytesPer fmt') (fun y x => Spec.pixel fmt' (px y x) 255) := by
  obtain ⟨data, h1, _, h2⟩ := C173_set_partial buf w h fmt rowSize px hf hw hs hb
  obtain ⟨out, h3, h4, h5, _⟩ := C173_decode_partial (ImgPic.mk w h (.plain .rgb data) none) none fmt' rowSize' data px (fun _ _ => 255) hf' rfl h2
    (fun _ _ => rfl) hw hwh hs' (by intro c hc; cases hc)
  exact ⟨data, out, h1, h3, h4, h5⟩

example : setData [3, 2, 1, 6, 5, 4, 9, 9, 9, 8, 7, 12, 11, 10, 9, 9] 2 2 .BGR24 (-1) = .ok (.rgb, [1, 2, 3, 4, 5, 6, 7, 8, 9, 10, 11, 12]) := by decide +kernel

/-- The grey values of an image that are set are kept. -/
theorem C173_set_grey_partial (buf : Bytes) (w h : Nat) (rowSize : Int) (px : Nat → Nat → Byte) (hw : w < 536870912) (hs : Spec.WideEnough w .Grayscale rowSize)
    (hb : Spec.Raster buf w h (Spec.strideOf w .Grayscale rowSize) 1 fun y x => [px y x]) :
    ∃ data, setData buf w h .Grayscale rowSize = .ok (.gray, data) ∧ data.length = h * w ∧ Spec.Raster data w h w 1 fun y x => [px y x] := by
  have hd : defaultRow w .Grayscale = .ok (Spec.lineLength w .Grayscale) := by
    have h3 : uns (w + 3) = w + 3 := uns_small (by omega)
    simp only [defaultRow, Spec.lineLength, Spec.bytesPer, h3]; rw [uns_small (by omega)]; congr 1; omega
  have hst : (if rowSize < 0 then Spec.lineLength w .Grayscale else rowSize.toNat) = Spec.strideOf w .Grayscale rowSize := rfl
  have hge : w ≤ Spec.strideOf w .Grayscale rowSize := by
    unfold Spec.WideEnough at hs; unfold Spec.strideOf Spec.lineLength; simp only [Spec.bytesPer] at hs ⊢
    split
    · omega
    · rcases hs with hs | hs <;> omega
  have hlen : ∀ y, y < h → (lineAt buf (Spec.strideOf w .Grayscale rowSize) y).length = Spec.strideOf w .Grayscale rowSize := by
    intro y hy
    have := Nat.mul_le_mul_right (Spec.strideOf w .Grayscale rowSize) (show y + 1 ≤ h from hy)
    rw [Nat.succ_mul] at this
    have := hb.1
    rw [lineAt, List.length_take, List.length_drop]; omega
  have key := setLoop (buf := buf) (n := Spec.strideOf w .Grayscale rowSize) (row := fun y => (lineAt buf (Spec.strideOf w .Grayscale rowSize) y).take w)
    (body := fun _ s => (readLine (Spec.strideOf w .Grayscale rowSize) s.1).bind fun lr => (writeFrom lr.1 w s.2).map fun o => (lr.2, o)) h 0 [] (by
      intro z o _ hz
      simp only [readLine_at hb.1 (show z < h by omega), Except.bind, writeFrom_ok (show w ≤ (lineAt buf (Spec.strideOf w .Grayscale rowSize) z).length by rw [hlen z (by omega)]; exact hge), Except.map])
  rw [Nat.zero_mul, List.drop_zero] at key
  obtain ⟨h1, h2⟩ := raster_rows (buf := (List.range' 0 h).flatMap fun y => (lineAt buf (Spec.strideOf w .Grayscale rowSize) y).take w) (w := w) (h := h) (n := 1) (stride := w)
    (px := fun y x => [px y x]) rfl (fun y hy => by rw [List.length_take, hlen y hy]; omega)
    (fun y x k hy hx hk => by rw [List.getElem?_take_of_lt (by omega), line_get (by omega), ← Nat.add_assoc]; exact hb.2 y x k hy hx hk) (by omega)
  refine ⟨_, ?_, h1, h2⟩
  simp only [setData, hd, Except.bind, hst, reduceCtorEq, if_false, if_true]
  simp only [Except.bind] at key
  rw [key]; simp [Except.map]

/-! ### Into a buffer -/

/-- C173: a buffer that is filled with lines of the default length holds exactly the picture, whatever was in it before. -/
theorem C173_buffer_partial (im : ImgPic) (old : Bytes) (fmt : PixFmt) (rowSize : Int) (data : Bytes)
    (px : Nat → Nat → Byte × Byte × Byte) (op : Nat → Nat → Byte) (hf : 3 ≤ Spec.bytesPer fmt) (hd : im.data = .plain .rgb data)
    (hp : Spec.Raster data im.width im.height (3 * im.width) 3 fun y x => Spec.pixel .RGB24 (px y x) 255) (ho : Spec.Opacity im op)
    (hw : im.width < 536870912) (hwh : im.height * Spec.lineLength im.width fmt < 4294967296) (hs : rowSize < 0) :
    ∃ out, im.decodeBuf old fmt rowSize = .ok out ∧ out.length = im.height * Spec.lineLength im.width fmt
      ∧ Spec.Raster out im.width im.height (Spec.lineLength im.width fmt) (Spec.bytesPer fmt) (fun y x => Spec.pixel fmt (px y x) (op y x)) := by
  have hst : Spec.strideOf im.width fmt rowSize = Spec.lineLength im.width fmt := by rw [Spec.strideOf, if_pos hs]
  have hll : 3 * im.width ≤ Spec.lineLength im.width fmt := by
    unfold Spec.lineLength; cases fmt <;> simp only [Spec.bytesPer] at hf ⊢ <;> omega
  have hsm : 3 * im.width * im.height < 4294967296 := by
    have := Nat.mul_le_mul_left im.height hll; rw [Nat.mul_comm]; omega
  obtain ⟨out, h1, h2, h3, _⟩ := C173_decode_partial im (some (im.height * Spec.lineLength im.width fmt)) fmt rowSize data px op hf hd hp ho hw hsm (Or.inl hs)
    (by intro c hc; rw [hst]; simp only [Option.some.injEq] at hc; omega)
  rw [hst] at h2 h3
  have hb : bufferSize im.width im.height fmt = .ok (im.height * Spec.lineLength im.width fmt) := by
    have e3 : uns (3 * im.width + 3) = 3 * im.width + 3 := uns_small (by omega)
    rw [Nat.mul_comm] at hwh
    cases fmt <;> simp only [Spec.bytesPer] at hf <;> first | omega | skip
    all_goals
      simp only [bufferSize, Spec.lineLength, Spec.bytesPer, e3] at hwh ⊢
      rw [uns_small (n := 4 * _) (by omega)]
      first
      | (rw [show 4 * ((3 * im.width + 3) / 4) = 4 * ((im.width * 3 + 3) / 4) from by omega, uns_small hwh, Nat.mul_comm])
      | (rw [show 4 * im.width = 4 * ((im.width * 4 + 3) / 4) from by omega, uns_small hwh, Nat.mul_comm])
  refine ⟨out, ?_, h2, h3⟩
  rw [ImgPic.decodeBuf, hb]
  simp only [Except.bind, h1, Except.map]
  rw [List.drop_eq_nil_of_le (by rw [List.length_take, h2]; omega), List.append_nil]

example : exImg.decodeBuf [9, 9] .BGR24 (-1) = .ok [3, 2, 1, 6, 5, 4, 0, 0, 9, 8, 7, 12, 11, 10, 0, 0] := by decide +kernel

theorem putLines_full {c : Nat} {scan : Nat → Bytes → Res Bytes} {row : Nat → Bytes} {pad : Bytes} {m : Nat} : ∀ (n i : Nat) (body out : Bytes),
    (∀ y b, i ≤ y → y < i + n → b.length = m → scan y (b ++ pad) = .ok (row y ++ pad)) → (∀ y, i ≤ y → y < i + n → (row y).length = m) →
    body.length = m → out.length ≤ c → c < out.length + n * (m + pad.length) →
    rounds (fun i (s : Bytes × Bytes) => (scan i s.1).bind fun l => (sinkPut (some c) s.2 l).map fun o => (l, o)) n i (body ++ pad, out) = raise .ValueOutOfRange := by
  intro n
  induction n with
  | zero => intro i body out _ _ _ h1 h2; omega
  | succ n ih =>
    intro i body out hs hr hb h1 h2
    have h0 := hr i (Nat.le_refl i) (by omega)
    rw [Nat.succ_mul] at h2
    by_cases hc : out.length + (m + pad.length) > c
    · simp only [rounds, hs i body (Nat.le_refl i) (by omega) hb, Except.bind, sinkPut]
      rw [if_pos (by simp [h0]; omega)]; rfl
    · rw [rounds_step (s' := (row i ++ pad, out ++ (row i ++ pad))) (by
        simp only [hs i body (Nat.le_refl i) (by omega) hb, Except.bind, sinkPut]
        rw [if_neg (by simp [h0]; omega)]; rfl)]
      exact ih (i + 1) (row i) _ (fun y b a e d => hs y b (by omega) (by omega) d) (fun y a b => hr y (by omega) (by omega)) h0 (by simp [h0]; omega) (by simp [h0]; omega)

/-- Lines longer than the default are refused when a buffer is to be filled: the buffer is made too small for them. -/
theorem C173_stride_false (im : ImgPic) (old : Bytes) (fmt : PixFmt) (rowSize : Int) (data : Bytes)
    (px : Nat → Nat → Byte × Byte × Byte) (op : Nat → Nat → Byte) (hf : 3 ≤ Spec.bytesPer fmt) (hd : im.data = .plain .rgb data)
    (hp : Spec.Raster data im.width im.height (3 * im.width) 3 fun y x => Spec.pixel .RGB24 (px y x) 255) (ho : Spec.Opacity im op)
    (hw : im.width < 536870912) (hwh : im.height * Spec.lineLength im.width fmt < 4294967296) (hs : (Spec.lineLength im.width fmt : Int) < rowSize) (hs2 : rowSize < 2147483648)
    (hh : 0 < im.height) : im.decodeBuf old fmt rowSize = raise .ValueOutOfRange := by
  have hst : Spec.strideOf im.width fmt rowSize = rowSize.toNat := by rw [Spec.strideOf, if_neg (by omega)]
  have hll : 3 * im.width ≤ Spec.lineLength im.width fmt := by
    unfold Spec.lineLength; cases fmt <;> simp only [Spec.bytesPer] at hf ⊢ <;> omega
  have hsm : 3 * im.width * im.height < 4294967296 := by
    have := Nat.mul_le_mul_left im.height hll; rw [Nat.mul_comm]; omega
  have hg : Spec.GoodStride im.width fmt rowSize := Or.inr ⟨by omega, hs2⟩
  have hge := stride_ge hg
  have hle := stride_le hw hg
  have hlen : ∀ y x, (Spec.pixel fmt (px y x) (op y x)).length = Spec.bytesPer fmt := by
    intro y x; cases fmt <;> simp [Spec.bytesPer] at hf <;> rfl
  have hb : bufferSize im.width im.height fmt = .ok (im.height * Spec.lineLength im.width fmt) := by
    have e3 : uns (3 * im.width + 3) = 3 * im.width + 3 := uns_small (by omega)
    rw [Nat.mul_comm] at hwh
    cases fmt <;> simp only [Spec.bytesPer] at hf <;> first | omega | skip
    all_goals
      simp only [bufferSize, Spec.lineLength, Spec.bytesPer, e3] at hwh ⊢
      rw [uns_small (n := 4 * _) (by omega)]
      first
      | (rw [show 4 * ((3 * im.width + 3) / 4) = 4 * ((im.width * 3 + 3) / 4) from by omega, uns_small hwh, Nat.mul_comm])
      | (rw [show 4 * im.width = 4 * ((im.width * 4 + 3) / 4) from by omega, uns_small hwh, Nat.mul_comm])
  rw [ImgPic.decodeBuf, hb]
  simp only [Except.bind]
  have key : im.decode (some (im.height * Spec.lineLength im.width fmt)) fmt rowSize = raise .ValueOutOfRange := by
    rw [ImgPic.decode, initLine_ok (by intro e; rw [e] at hf; simp [Spec.bytesPer] at hf) hw hg]
    simp only [Except.bind, hd]
    rw [fetchRGB, putLines, putLines_full (m := im.width * Spec.bytesPer fmt) (row := fun y => (List.range' 0 im.width).flatMap fun x => Spec.pixel fmt (px y x) (op y x))
      im.height 0 (List.replicate (im.width * Spec.bytesPer fmt) 0) []]
    · rfl
    · intro y b _ hy hb
      refine scanRGB_spec hf (by omega) ?_ ?_ hb (by simp [hb]; omega)
      · intro x k hx hk
        have hyw : y * (3 * im.width) + 3 * im.width ≤ 3 * im.width * im.height := by
          have := Nat.mul_le_mul_right (3 * im.width) (show y + 1 ≤ im.height by omega)
          rw [Nat.succ_mul] at this; rw [Nat.mul_comm (3 * im.width) im.height]; omega
        have := hp.2 y x k (by omega) hx hk
        obtain ⟨v, hv⟩ : ∃ v, (Spec.pixel .RGB24 (px y x) 255)[k]? = some v := by
          refine ⟨(Spec.pixel .RGB24 (px y x) 255)[k]'(by simpa [Spec.pixel] using hk), List.getElem?_eq_getElem _⟩
        refine ⟨v, hv, strGet_some ?_⟩
        rw [← hv, ← this, Nat.mul_comm im.width 3, uns_small (n := 3 * im.width) (by omega), uns_small (by omega)]
        congr 1; omega
      · intro h4 x hx
        have hww : im.width * im.height ≤ 3 * im.width * im.height := Nat.mul_le_mul_right _ (by omega)
        exact alpha_ok ho h4 (by omega) hx (by omega)
    · intro y _ _; exact range_flatMap_length _ 0 fun j _ _ => hlen y j
    · exact List.length_replicate ..
    · simp
    · have : im.height * Spec.lineLength im.width fmt < im.height * Spec.strideOf im.width fmt rowSize := Nat.mul_lt_mul_of_pos_left (by omega) hh
      rw [List.length_replicate, show im.width * Spec.bytesPer fmt + (Spec.strideOf im.width fmt rowSize - im.width * Spec.bytesPer fmt) = Spec.strideOf im.width fmt rowSize from by omega]
      simpa using this
  rw [key]; rfl

example : exImg.decodeBuf [] .RGB24 12 = raise .ValueOutOfRange := by decide +kernel

/-! ### What is read outside the data -/

/-- The only way to fail is undefined behaviour. -/
def OnlyUb {α : Type} (r : Res α) : Prop := ∀ e, r = .error e → e = .ub

theorem onlyUb_cases {α : Type} {r : Res α} (h : OnlyUb r) (hn : ∀ a, r ≠ .ok a) : r = .error .ub := by
  cases r with
  | ok a => exact absurd rfl (hn a)
  | error e => rw [h e rfl]

theorem onlyUb_strGet (b : Bytes) (i : Nat) : OnlyUb (strGet b i) := by
  intro e h; rw [strGet] at h; split at h
  · cases h
  · split at h <;> cases h; rfl

theorem onlyUb_arrGet (b : Bytes) (i : Nat) : OnlyUb (arrGet b i) := by
  intro e h; rw [arrGet] at h; split at h <;> cases h; rfl

theorem onlyUb_strSet (b : Bytes) (i : Nat) (v : Byte) : OnlyUb (strSet b i v) := by
  intro e h; rw [strSet] at h; split at h
  · cases h
  · split at h <;> cases h; rfl

theorem onlyUb_bind {α β : Type} {r : Res α} {f : α → Res β} (h : OnlyUb r) (hf : ∀ a, r = .ok a → OnlyUb (f a)) : OnlyUb (r.bind f) := by
  intro e he
  cases r with
  | error e' => simp only [Except.bind] at he; rw [← h e' rfl]; cases he; rfl
  | ok a => exact hf a rfl e he

theorem onlyUb_ok {α : Type} (a : α) : OnlyUb (Except.ok a : Res α) := by intro e h; cases h

theorem onlyUb_map {α β : Type} {r : Res α} {f : α → β} (h : OnlyUb r) : OnlyUb (r.map f) := by
  intro e he
  cases r with
  | error e' => simp only [Except.map] at he; rw [← h e' rfl]; cases he; rfl
  | ok a => cases he

theorem onlyUb_rounds {σ : Type} {f : Nat → σ → Res σ} (h : ∀ i s, OnlyUb (f i s)) : ∀ n i s, OnlyUb (rounds f n i s) := by
  intro n
  induction n with
  | zero => intro i s; exact onlyUb_ok s
  | succ n ih => intro i s; exact onlyUb_bind (h i s) (fun a _ => ih (i + 1) a)

theorem onlyUb_putPixel (pos : Nat) : ∀ (vs : List (Res Byte)) (k : Nat) (d : Bytes), (∀ v ∈ vs, OnlyUb v) → OnlyUb (putPixel pos k vs d) := by
  intro vs
  induction vs with
  | nil => intro k d _; exact onlyUb_ok d
  | cons v vs ih =>
    intro k d h
    exact onlyUb_bind (h v (by simp)) (fun b _ => onlyUb_bind (onlyUb_strSet _ _ _) (fun d' _ => ih (k + 1) d' (fun v hv => h v (by simp [hv]))))

theorem onlyUb_alpha (w : Nat) (m : Bytes) (i j : Nat) : OnlyUb (alphaOf w m i j) := by
  rw [alphaOf]; split
  · exact onlyUb_ok _
  · exact onlyUb_strGet _ _

theorem onlyUb_putLine {bpp w : Nat} {px : Nat → List (Res Byte)} {d : Bytes} (h : ∀ i, ∀ v ∈ px i, OnlyUb v) : OnlyUb (putLine bpp w px d) :=
  onlyUb_rounds (fun i _ => onlyUb_putPixel _ _ _ _ (h i)) _ _ _

theorem onlyUb_scanRGB {w : Nat} {fmt : PixFmt} {src alpha : Nat → Res Byte} {d : Bytes} (hf : 3 ≤ Spec.bytesPer fmt) (hs : ∀ i, OnlyUb (src i)) (ha : ∀ i, OnlyUb (alpha i)) :
    OnlyUb (scanRGB w fmt src alpha d) := by
  cases fmt <;> simp only [Spec.bytesPer] at hf <;> first | omega | skip
  all_goals
    refine onlyUb_putLine fun i v hv => ?_
    simp only [List.mem_cons, List.not_mem_nil, or_false] at hv
    first
    | (rcases hv with e | e | e | e <;> rw [e] <;> first | exact hs _ | exact ha _)
    | (rcases hv with e | e | e <;> rw [e] <;> exact hs _)

theorem onlyUb_scanGray {w : Nat} {fmt : PixFmt} {src alpha : Nat → Res Byte} {d : Bytes} (hf : fmt ≠ .Unknown) (hs : ∀ i, OnlyUb (src i)) (ha : ∀ i, OnlyUb (alpha i)) :
    OnlyUb (scanGray w fmt src alpha d) := by
  cases fmt
  case Unknown => exact absurd rfl hf
  all_goals
    refine onlyUb_putLine fun i v hv => ?_
    simp only [List.mem_cons, List.not_mem_nil, or_false] at hv
    first
    | (rcases hv with e | e | e | e <;> rw [e] <;> first | exact hs _ | exact ha _)
    | (rcases hv with e | e | e <;> rw [e] <;> exact hs _)
    | (rw [hv]; exact hs _)

theorem onlyUb_putLines {h : Nat} {scan : Nat → Bytes → Res Bytes} {line out : Bytes} (hs : ∀ i l, OnlyUb (scan i l)) : OnlyUb (putLines none h scan line out) :=
  onlyUb_map (onlyUb_rounds (fun i (s : Bytes × Bytes) => onlyUb_bind (hs i s.1) (fun _ _ => onlyUb_ok _)) _ _ _)

theorem rounds_each {σ : Type} {f : Nat → σ → Res σ} : ∀ (n i : Nat) (s t : σ), rounds f n i s = .ok t → ∀ j, i ≤ j → j < i + n → ∃ a b, f j a = .ok b := by
  intro n
  induction n with
  | zero => intro i s t _ j h1 h2; omega
  | succ n ih =>
    intro i s t h j h1 h2
    simp only [rounds] at h
    cases hf : f i s with
    | error e => rw [hf] at h; cases h
    | ok s' =>
      rw [hf] at h
      rcases Nat.lt_or_ge i j with h3 | h3
      · exact ih (i + 1) s' t h j (by omega) (by omega)
      · exact ⟨s, s', by rw [show j = i by omega]; exact hf⟩

theorem putPixel_each (pos : Nat) : ∀ (vs : List (Res Byte)) (k : Nat) (d d' : Bytes), putPixel pos k vs d = .ok d' → ∀ v ∈ vs, ∃ b, v = .ok b := by
  intro vs
  induction vs with
  | nil => intro k d d' _ v hv; cases hv
  | cons w vs ih =>
    intro k d d' h v hv
    simp only [putPixel] at h
    cases hw : w with
    | error e => rw [hw] at h; cases h
    | ok b =>
      rw [hw] at h; simp only [Except.bind] at h
      cases hs : strSet d (uns (pos + k)) b with
      | error e => rw [hs] at h; cases h
      | ok d2 =>
        rw [hs] at h
        rcases List.mem_cons.1 hv with e | e
        · exact ⟨b, by rw [e, hw]⟩
        · exact ih (k + 1) d2 d' h v e

theorem putLine_each {bpp w : Nat} {px : Nat → List (Res Byte)} {d d' : Bytes} (h : putLine bpp w px d = .ok d') : ∀ i, i < w → ∀ v ∈ px i, ∃ b, v = .ok b := by
  intro i hi v hv
  obtain ⟨a, b, hab⟩ := rounds_each w 0 d d' h i (by omega) (by omega)
  exact putPixel_each _ _ _ _ _ hab v hv

theorem putLines_each {cap : Option Nat} {h : Nat} {scan : Nat → Bytes → Res Bytes} {line out t : Bytes} (hk : putLines cap h scan line out = .ok t) :
    ∀ y, y < h → ∃ a b, scan y a = .ok b := by
  intro y hy
  rw [putLines] at hk
  cases hr : rounds (fun i (s : Bytes × Bytes) => (scan i s.1).bind fun l => (sinkPut cap s.2 l).map fun o => (l, o)) h 0 (line, out) with
  | error e => rw [hr] at hk; cases hk
  | ok s =>
    obtain ⟨a, b, hab⟩ := rounds_each h 0 _ s hr y (by omega) (by omega)
    cases hs : scan y a.1 with
    | error e => simp only [hs, Except.bind] at hab; cases hab
    | ok l => exact ⟨a.1, l, hs⟩

theorem scanRGB_each {w : Nat} {fmt : PixFmt} {src alpha : Nat → Res Byte} {d d' : Bytes} (hf : 3 ≤ Spec.bytesPer fmt) (h : scanRGB w fmt src alpha d = .ok d') :
    ∀ x, x < w → (∀ k, k < 3 → ∃ b, src (uns (x * 3 + k)) = .ok b) ∧ (Spec.bytesPer fmt = 4 → ∃ b, alpha x = .ok b) := by
  intro x hx
  have e3 : ∀ k, k < 3 → k = 0 ∨ k = 1 ∨ k = 2 := by omega
  cases fmt <;> simp only [Spec.bytesPer] at hf <;> first | omega | skip
  all_goals
    have := putLine_each h x hx
    refine ⟨fun k hk => ?_, fun h4 => ?_⟩
    · rcases e3 k hk with e | e | e <;> rw [e] <;> exact this _ (by simp)
    · first
      | (simp [Spec.bytesPer] at h4; done)
      | exact this _ (by simp)

theorem scanGray_each {w : Nat} {fmt : PixFmt} {src alpha : Nat → Res Byte} {d d' : Bytes} (h : scanGray w fmt src alpha d = .ok d') :
    ∀ x, x < w → ∃ b, src x = .ok b := by
  intro x hx
  cases fmt
  case Unknown => cases h
  all_goals exact putLine_each h x hx _ (by simp)

theorem strGet_ok_le {b : Bytes} {i : Nat} {v : Byte} (h : strGet b i = .ok v) : i ≤ b.length := by
  rw [strGet] at h; split at h
  · omega
  · split at h
    · omega
    · cases h

/-- Grey images of two lines or more cannot be decoded: the lines are looked for where those of an RGB image would be, outside the data. -/
theorem C173_grey_false (im : ImgPic) (fmt : PixFmt) (rowSize : Int) (data : Bytes) (hf : fmt ≠ .Unknown) (hd : im.data = .plain .gray data)
    (hl : data.length = im.width * im.height) (hw1 : 1 ≤ im.width) (hh : 2 ≤ im.height) (hw : im.width < 536870912) (hwh : 3 * im.width * im.height < 4294967296)
    (hs : Spec.GoodStride im.width fmt rowSize) : im.decode none fmt rowSize = .error .ub := by
  rw [ImgPic.decode, initLine_ok hf hw hs]
  simp only [Except.bind, hd]
  refine onlyUb_cases (onlyUb_putLines fun i l => onlyUb_scanGray hf (fun _ => onlyUb_strGet _ _) fun _ => onlyUb_alpha _ _ _ _) ?_
  intro t ht
  obtain ⟨a, b, hab⟩ := putLines_each ht (im.height - 1) (by omega)
  obtain ⟨v, hv⟩ := scanGray_each hab 0 hw1
  have := strGet_ok_le hv
  obtain ⟨g, hg⟩ : ∃ g, im.height = g + 2 := ⟨im.height - 2, by omega⟩
  rw [hg] at hwh hl this
  have e1 : 3 * im.width * (g + 2) = 3 * (im.width * g) + 6 * im.width := by grind
  have e2 : im.width * (g + 2) = im.width * g + 2 * im.width := by grind
  have e3 : (g + 2 - 1) * (im.width * 3) = 3 * (im.width * g) + 3 * im.width := by
    rw [show g + 2 - 1 = g + 1 from rfl]; grind
  rw [e1] at hwh
  rw [e2] at hl
  generalize im.width * g = z at *
  rw [uns_small (n := im.width * 3) (by omega), e3, uns_small (by omega)] at this
  omega

/-- C173: a grey image of one line is decoded. -/
theorem C173_grey_line_partial (im : ImgPic) (cap : Option Nat) (fmt : PixFmt) (rowSize : Int) (data : Bytes) (v : Nat → Byte) (op : Nat → Nat → Byte)
    (hf : fmt ≠ .Unknown) (hd : im.data = .plain .gray data) (hh : im.height = 1) (hp : Spec.Raster data im.width 1 im.width 1 fun _ x => [v x])
    (ho : Spec.Opacity im op) (hw : im.width < 536870912) (hs : Spec.GoodStride im.width fmt rowSize)
    (hc : Spec.Room cap (Spec.strideOf im.width fmt rowSize)) :
    ∃ out, im.decode cap fmt rowSize = .ok out ∧ out.length = Spec.strideOf im.width fmt rowSize
      ∧ Spec.Raster out im.width 1 (Spec.strideOf im.width fmt rowSize) (Spec.bytesPer fmt) (fun y x => Spec.greyPixel fmt (v x) (op y x)) := by
  have hge := stride_ge hs
  have hle := stride_le hw hs
  have hlen : ∀ y x, (Spec.greyPixel fmt (v x) (op y x)).length = Spec.bytesPer fmt := by
    intro y x; cases fmt <;> rfl
  have hr := raster_of_rows (h := 1) (w := im.width) (n := Spec.bytesPer fmt) (pad := List.replicate (Spec.strideOf im.width fmt rowSize - im.width * Spec.bytesPer fmt) 0)
    (px := fun y x => Spec.greyPixel fmt (v x) (op y x)) (fun b hb => (List.mem_replicate.1 hb).2) hlen
  simp only [List.length_replicate] at hr
  rw [show im.width * Spec.bytesPer fmt + (Spec.strideOf im.width fmt rowSize - im.width * Spec.bytesPer fmt) = Spec.strideOf im.width fmt rowSize from by omega] at hr
  refine ⟨_, ?_, by rw [hr.1]; omega, hr.2.1⟩
  rw [ImgPic.decode, initLine_ok hf hw hs]
  simp only [Except.bind, hd, hh]
  refine putLines_spec ?_ (fun y _ => range_flatMap_length _ 0 fun j _ _ => hlen y j) (List.length_replicate ..) ?_
  · intro y b hy hb
    have hy0 : y = 0 := by omega
    subst hy0
    refine scanGray_spec hf ?_ ?_ hb (by simp [hb]; omega)
    · intro x hx
      have := hp.2 0 x 0 (by omega) hx (by omega)
      simp only [Nat.zero_mul, Nat.zero_add, Nat.mul_one, Nat.add_zero, List.getElem?_cons_zero] at this
      rw [Nat.zero_mul, uns_small (by omega), Nat.zero_add]
      exact strGet_some this
    · intro h4 x hx
      exact alpha_ok ho h4 (by omega) hx (by rw [hh]; omega)
  · intro c hcc
    rw [List.length_replicate, show im.width * Spec.bytesPer fmt + (Spec.strideOf im.width fmt rowSize - im.width * Spec.bytesPer fmt) = Spec.strideOf im.width fmt rowSize from by omega, Nat.one_mul]
    exact hc c hcc

example : (ImgPic.mk 3 1 (.plain .gray [7, 8, 9]) none).decode none .RGBA (-1) = .ok [7, 7, 7, 255, 8, 8, 8, 255, 9, 9, 9, 255] := by decide +kernel
example : (ImgPic.mk 3 2 (.plain .gray [7, 8, 9, 4, 5, 6]) none).decode none .RGBA (-1) = .error .ub := by decide +kernel

/-- The data is not checked to be as long as the dimensions say: with less, memory behind it is read. -/
theorem C173_short_false (im : ImgPic) (fmt : PixFmt) (rowSize : Int) (data : Bytes) (hf : 3 ≤ Spec.bytesPer fmt) (hd : im.data = .plain .rgb data)
    (hl : data.length + 1 < 3 * im.width * im.height) (hw : im.width < 536870912) (hwh : 3 * im.width * im.height < 4294967296)
    (hs : Spec.GoodStride im.width fmt rowSize) : im.decode none fmt rowSize = .error .ub := by
  rw [ImgPic.decode, initLine_ok (by intro e; rw [e] at hf; simp [Spec.bytesPer] at hf) hw hs]
  simp only [Except.bind, hd]
  refine onlyUb_cases (onlyUb_putLines fun i l => onlyUb_scanRGB hf (fun _ => onlyUb_strGet _ _) fun _ => onlyUb_alpha _ _ _ _) ?_
  intro t ht
  have hw0 : 0 < im.width := by rcases Nat.eq_zero_or_pos im.width with e | e; · rw [e] at hl; simp at hl
                                exact e
  have hh0 : 0 < im.height := by rcases Nat.eq_zero_or_pos im.height with e | e; · rw [e] at hl; simp at hl
                                 exact e
  obtain ⟨a, b, hab⟩ := putLines_each ht (im.height - 1) (by omega)
  obtain ⟨v, hv⟩ := (scanRGB_each hf hab (im.width - 1) (by omega)).1 2 (by omega)
  have := strGet_ok_le hv
  obtain ⟨g, hg⟩ : ∃ g, im.height = g + 1 := ⟨im.height - 1, by omega⟩
  rw [hg] at hwh hl this
  have e1 : 3 * im.width * (g + 1) = 3 * (im.width * g) + 3 * im.width := by grind
  have e3 : (g + 1 - 1) * (im.width * 3) = 3 * (im.width * g) := by rw [show g + 1 - 1 = g from rfl]; grind
  rw [e1] at hwh hl
  generalize im.width * g = z at *
  rw [uns_small (n := im.width * 3) (by omega), e3, uns_small (by omega), uns_small (by omega)] at this
  omega

example : (ImgPic.mk 2 2 (.plain .rgb [1, 2, 3]) none).decode none .RGB24 (-1) = .error .ub := by decide +kernel

/-- Nor is the soft mask: one that is smaller than the image makes memory behind it be read. -/
theorem C173_mask_false (im : ImgPic) (fmt : PixFmt) (rowSize : Int) (data m : Bytes) (hf : Spec.bytesPer fmt = 4) (hd : im.data = .plain .rgb data) (hm : im.smask = some m)
    (h0 : m ≠ []) (hl : m.length + 1 < im.width * im.height) (hw : im.width < 536870912) (hwh : im.width * im.height < 4294967296)
    (hs : Spec.GoodStride im.width fmt rowSize) : im.decode none fmt rowSize = .error .ub := by
  have hmf : maskFor fmt im.smask = m := by rw [hm]; cases fmt <;> simp [Spec.bytesPer] at hf <;> rfl
  rw [ImgPic.decode, initLine_ok (by intro e; rw [e] at hf; simp [Spec.bytesPer] at hf) hw hs]
  simp only [Except.bind, hd, hmf]
  refine onlyUb_cases (onlyUb_putLines fun i l => onlyUb_scanRGB (by omega) (fun _ => onlyUb_strGet _ _) fun _ => onlyUb_alpha _ _ _ _) ?_
  intro t ht
  have hw0 : 0 < im.width := by rcases Nat.eq_zero_or_pos im.width with e | e; · rw [e] at hl; simp at hl
                                exact e
  have hh0 : 0 < im.height := by rcases Nat.eq_zero_or_pos im.height with e | e; · rw [e] at hl; simp at hl
                                 exact e
  obtain ⟨a, b, hab⟩ := putLines_each ht (im.height - 1) (by omega)
  obtain ⟨v, hv⟩ := (scanRGB_each (by omega) hab (im.width - 1) (by omega)).2 hf
  have hpos : 0 < m.length := List.length_pos_iff.2 h0
  rw [alphaOf, if_neg (by omega)] at hv
  have := strGet_ok_le hv
  obtain ⟨g, hg⟩ : ∃ g, im.height = g + 1 := ⟨im.height - 1, by omega⟩
  rw [hg] at hwh hl this
  have e1 : im.width * (g + 1) = im.width * g + im.width := by grind
  have e3 : (g + 1 - 1) * im.width = im.width * g := by rw [show g + 1 - 1 = g from rfl]; grind
  rw [e1] at hwh hl
  rw [e3] at this
  generalize im.width * g = z at *
  rw [uns_small (by omega)] at this
  omega

example : (ImgPic.mk 2 2 (.plain .rgb [1, 2, 3, 4, 5, 6, 7, 8, 9, 10, 11, 12]) (some [1])).decode none .RGBA (-1) = .error .ub := by decide +kernel

/-- A width of 2³⁰ makes the length of a line wrap to zero, and the first pixel is stored outside it. -/
theorem C173_width_false (im : ImgPic) (fmt : PixFmt) (rowSize : Int) (data : Bytes) (hf : Spec.bytesPer fmt = 4) (hd : im.data = .plain .rgb data)
    (hw : im.width = 1073741824) (hh : 1 ≤ im.height) (hs : rowSize < 0) : im.decode none fmt rowSize = .error .ub := by
  have hi : initLine im.width fmt rowSize = .ok [] := by
    rw [initLine, hw]
    cases fmt <;> simp [Spec.bytesPer] at hf <;> simp [defaultRow, uns, Except.bind, hs]
  rw [ImgPic.decode, hi]
  simp only [Except.bind, hd]
  refine onlyUb_cases (onlyUb_putLines fun i l => onlyUb_scanRGB (by omega) (fun _ => onlyUb_strGet _ _) fun _ => onlyUb_alpha _ _ _ _) ?_
  intro t ht
  have e2 : ∀ (v w : Res Byte) (vs : List (Res Byte)) (r : Bytes), putPixel (0 * 4) 0 (v :: w :: vs) [] ≠ .ok r := by
    intro v w vs r h
    simp only [putPixel] at h
    cases v with
    | error e => cases h
    | ok b =>
      simp only [Except.bind] at h
      have hx : ∀ c : Byte, strSet [] (uns (0 * 4 + (0 + 1))) c = .error .ub := by
        intro c; rw [strSet, if_neg (by simp), if_neg (by simp [uns])]
      cases hq : strSet [] (uns (0 * 4 + 0)) b with
      | error e => rw [hq] at h; cases h
      | ok d =>
        have hd0 : d = [] := by
          rw [strSet, if_neg (by simp)] at hq; split at hq <;> cases hq; rfl
        rw [hq, hd0] at h
        cases w with
        | error e => cases h
        | ok c => simp only [hx c] at h; cases h
  rw [fetchRGB, putLines] at ht
  obtain ⟨n, hn⟩ : ∃ n, im.height = n + 1 := ⟨im.height - 1, by omega⟩
  rw [hn] at ht
  simp only [rounds] at ht
  have hsc : ∀ r, scanRGB im.width fmt (fun j => strGet data (uns (0 * uns (im.width * 3)) + j)) (alphaOf im.width (maskFor fmt im.smask) 0) [] ≠ .ok r := by
    intro r h
    obtain ⟨n, hn⟩ : ∃ n, im.width = n + 1 := ⟨im.width - 1, by omega⟩
    generalize im.width = wd at *
    subst hn
    cases fmt <;> simp only [Spec.bytesPer] at hf <;> first | omega | skip
    all_goals
      simp only [scanRGB, putLine, rounds] at h
      generalize hq : putPixel (0 * 4) 0 _ [] = q at h
      cases q with
      | error e => cases h
      | ok d => exact e2 _ _ _ _ hq
  generalize hq : scanRGB im.width fmt (fun j => strGet data (uns (0 * uns (im.width * 3)) + j)) (alphaOf im.width (maskFor fmt im.smask) 0) [] = q at ht hsc
  cases q with
  | ok d => exact hsc d rfl
  | error e => cases ht

/-- Lines that are too short are not refused by `SetData`: memory behind the line is read. -/
theorem C173_set_stride_false (buf : Bytes) (w h : Nat) (fmt : PixFmt) (rowSize : Int) (hf : fmt = .RGB24 ∨ fmt = .Grayscale) (hw : w < 536870912)
    (h0 : 0 ≤ rowSize) (hs : rowSize + 1 < (w * Spec.bytesPer fmt : Int)) (hh : 1 ≤ h) (hb : rowSize ≤ buf.length) : setData buf w h fmt rowSize = .error .ub := by
  have hgo : ∀ (n i : Nat) (o line : Bytes), line.length + 1 < i + n → i ≤ line.length + 1 → rounds (fun i (o : Bytes) => (strGet line i).map fun b => o ++ [b]) n i o = .error .ub := by
    intro n
    induction n with
    | zero => intro i o line h1 h2; omega
    | succ n ih =>
      intro i o line h1 h2
      simp only [rounds]
      rcases Nat.lt_or_ge line.length i with hi | hi
      · rw [strGet, if_neg (by omega), if_neg (by omega)]; rfl
      · obtain ⟨v, hv⟩ : ∃ v, strGet line i = .ok v := by
          rw [strGet]; split
          · exact ⟨_, rfl⟩
          · rw [if_pos (by omega)]; exact ⟨0, rfl⟩
        rw [hv]; exact ih (i + 1) _ line (by omega) (by omega)
  obtain ⟨g, hg⟩ : ∃ g, h = g + 1 := ⟨h - 1, by omega⟩
  have hrd : readLine rowSize.toNat buf = .ok (buf.take rowSize.toNat, buf.drop rowSize.toNat) := by rw [readLine, if_pos (by omega)]
  have hll : (buf.take rowSize.toNat).length = rowSize.toNat := by rw [List.length_take]; omega
  subst hg
  rcases hf with e | e <;> subst e
  · have h3 : uns (3 * w) = 3 * w := uns_small (by omega)
    simp only [Spec.bytesPer] at hs
    have hwf : writeFrom (buf.take rowSize.toNat) (3 * w) [] = .error .ub := hgo _ 0 _ _ (by omega) (by omega)
    simp only [setData, defaultRow, Except.bind, if_neg (show ¬ rowSize < 0 by omega), h3, reduceCtorEq, if_false, rounds, hrd, hwf]
    rfl
  · simp only [Spec.bytesPer] at hs
    have hwf : writeFrom (buf.take rowSize.toNat) w [] = .error .ub := hgo _ 0 _ _ (by omega) (by omega)
    simp only [setData, defaultRow, Except.bind, if_neg (show ¬ rowSize < 0 by omega), reduceCtorEq, if_false, if_true, rounds, hrd, hwf]
    rfl

example : setData [1, 2, 3, 4, 5, 6] 3 1 .RGB24 4 = .error .ub := by decide +kernel

/-! ### JPEG pictures and faxes -/

/-- C173: a JPEG picture in RGB whose dimensions are those of the image is decoded. -/
theorem C173_jpeg_partial (im : ImgPic) (cap : Option Nat) (fmt : PixFmt) (rowSize : Int) (p : JpegPic)
    (px : Nat → Nat → Byte × Byte × Byte) (op : Nat → Nat → Byte) (hf : 3 ≤ Spec.bytesPer fmt) (hd : im.data = .jpeg p) (hc : p.rgb = some true)
    (hpw : p.width = im.width) (hph : p.height = im.height)
    (hp : ∀ y x k, y < im.height → x < im.width → k < 3 → (p.rows y)[x * 3 + k]? = (Spec.pixel .RGB24 (px y x) 255)[k]?) (ho : Spec.Opacity im op)
    (hw : im.width < 536870912) (hwh : im.width * im.height < 4294967296) (hs : Spec.GoodStride im.width fmt rowSize)
    (hr : Spec.Room cap (im.height * Spec.strideOf im.width fmt rowSize)) :
    ∃ out, im.decode cap fmt rowSize = .ok out ∧ out.length = im.height * Spec.strideOf im.width fmt rowSize
      ∧ Spec.Raster out im.width im.height (Spec.strideOf im.width fmt rowSize) (Spec.bytesPer fmt) (fun y x => Spec.pixel fmt (px y x) (op y x)) := by
  have hge := stride_ge hs
  have hle := stride_le hw hs
  have hlen : ∀ y x, (Spec.pixel fmt (px y x) (op y x)).length = Spec.bytesPer fmt := by
    intro y x; cases fmt <;> simp [Spec.bytesPer] at hf <;> rfl
  have hra := raster_of_rows (h := im.height) (w := im.width) (n := Spec.bytesPer fmt) (pad := List.replicate (Spec.strideOf im.width fmt rowSize - im.width * Spec.bytesPer fmt) 0)
    (px := fun y x => Spec.pixel fmt (px y x) (op y x)) (fun b hb => (List.mem_replicate.1 hb).2) hlen
  simp only [List.length_replicate] at hra
  rw [show im.width * Spec.bytesPer fmt + (Spec.strideOf im.width fmt rowSize - im.width * Spec.bytesPer fmt) = Spec.strideOf im.width fmt rowSize from by omega] at hra
  refine ⟨_, ?_, hra.1, hra.2.1⟩
  rw [ImgPic.decode, initLine_ok (by intro e; rw [e] at hf; simp [Spec.bytesPer] at hf) hw hs]
  simp only [Except.bind, hd, fetchJPEG, hc, hpw, hph]
  refine putLines_spec ?_ (fun y _ => range_flatMap_length _ 0 fun j _ _ => hlen y j) (List.length_replicate ..) ?_
  · intro y b hy hb
    refine scanRGB_spec hf (by omega) ?_ ?_ hb (by simp [hb]; omega)
    · intro x k hx hk
      obtain ⟨v, hv⟩ : ∃ v, (Spec.pixel .RGB24 (px y x) 255)[k]? = some v := by
        refine ⟨(Spec.pixel .RGB24 (px y x) 255)[k]'(by simpa [Spec.pixel] using hk), List.getElem?_eq_getElem _⟩
      exact ⟨v, hv, arrGet_some (by rw [hp y x k hy hx hk, hv])⟩
    · intro h4 x hx
      exact alpha_ok ho h4 hy hx hwh
  · intro c hcc
    rw [List.length_replicate, show im.width * Spec.bytesPer fmt + (Spec.strideOf im.width fmt rowSize - im.width * Spec.bytesPer fmt) = Spec.strideOf im.width fmt rowSize from by omega]
    exact hr c hcc

theorem putPixel_bound (pos : Nat) : ∀ (vs : List (Res Byte)) (k : Nat) (d d' : Bytes), putPixel pos k vs d = .ok d' →
    d'.length = d.length ∧ ∀ j, j < vs.length → uns (pos + k + j) ≤ d.length := by
  intro vs
  induction vs with
  | nil => intro k d d' h; simp only [putPixel] at h; cases h; exact ⟨rfl, fun j hj => by simp at hj⟩
  | cons v vs ih =>
    intro k d d' h
    simp only [putPixel] at h
    cases v with
    | error e => cases h
    | ok b =>
      simp only [Except.bind] at h
      cases hs : strSet d (uns (pos + k)) b with
      | error e => rw [hs] at h; cases h
      | ok d2 =>
        rw [hs] at h
        have h2 : d2.length = d.length ∧ uns (pos + k) ≤ d.length := by
          rw [strSet] at hs
          split at hs
          · cases hs; rename_i hlt; exact ⟨by simp, by omega⟩
          · split at hs
            · rename_i hlt heq; cases hs; exact ⟨rfl, by omega⟩
            · cases hs
        obtain ⟨h3, h4⟩ := ih (k + 1) d2 d' h
        refine ⟨by omega, ?_⟩
        intro j hj
        cases j with
        | zero => exact h2.2
        | succ j =>
          have := h4 j (by simpa using hj)
          rw [show pos + k + (j + 1) = pos + (k + 1) + j from by omega]; omega

theorem putLine_bound {bpp : Nat} {px : Nat → List (Res Byte)} : ∀ (n i : Nat) (d d' : Bytes), rounds (fun i d => putPixel (i * bpp) 0 (px i) d) n i d = .ok d' →
    d'.length = d.length ∧ ∀ x, i ≤ x → x < i + n → ∀ j, j < (px x).length → uns (x * bpp + j) ≤ d.length := by
  intro n
  induction n with
  | zero => intro i d d' h; simp only [rounds] at h; cases h; exact ⟨rfl, fun x a b => by omega⟩
  | succ n ih =>
    intro i d d' h
    simp only [rounds] at h
    cases hp : putPixel (i * bpp) 0 (px i) d with
    | error e => rw [hp] at h; cases h
    | ok d2 =>
      rw [hp] at h
      obtain ⟨h1, h2⟩ := putPixel_bound _ _ _ _ _ hp
      obtain ⟨h3, h4⟩ := ih (i + 1) d2 d' h
      refine ⟨by omega, fun x a b j hj => ?_⟩
      rcases Nat.lt_or_ge i x with hx | hx
      · have := h4 x (by omega) (by omega) j hj; omega
      · have hxi : x = i := by omega
        subst hxi
        exact h2 j hj

theorem scanRGB_bound {w : Nat} {fmt : PixFmt} {src alpha : Nat → Res Byte} {d d' : Bytes} (hf : 3 ≤ Spec.bytesPer fmt) (h : scanRGB w fmt src alpha d = .ok d') :
    d'.length = d.length ∧ ∀ x, x < w → uns (x * Spec.bytesPer fmt + 2) ≤ d.length := by
  cases fmt <;> simp only [Spec.bytesPer] at hf <;> first | omega | skip
  all_goals
    obtain ⟨h1, h2⟩ := putLine_bound _ _ _ _ h
    exact ⟨h1, fun x hx => h2 x (by omega) (by omega) 2 (by simp)⟩

/-- The first line is fetched into the line that was made. -/
theorem putLines_first {cap : Option Nat} {h : Nat} {scan : Nat → Bytes → Res Bytes} {line out t : Bytes} (hk : putLines cap h scan line out = .ok t) (hh : 0 < h) :
    ∃ b, scan 0 line = .ok b := by
  obtain ⟨n, hn⟩ : ∃ n, h = n + 1 := ⟨h - 1, by omega⟩
  subst hn
  rw [putLines] at hk
  simp only [rounds] at hk
  cases hs : scan 0 line with
  | ok b => exact ⟨b, rfl⟩
  | error e => rw [hs] at hk; cases hk

/-- A JPEG picture that is wider than the dictionary says is written outside the line that was made for it. -/
theorem C173_jpeg_false (im : ImgPic) (fmt : PixFmt) (rowSize : Int) (p : JpegPic) (hf : 3 ≤ Spec.bytesPer fmt) (hd : im.data = .jpeg p) (hc : p.rgb = some true)
    (hpw : im.width + 2 ≤ p.width) (hph : 1 ≤ p.height) (hw : im.width < 536870912) (hs : rowSize < 0) : im.decode none fmt rowSize = .error .ub := by
  have hg : Spec.GoodStride im.width fmt rowSize := Or.inl hs
  have hst : Spec.strideOf im.width fmt rowSize = Spec.lineLength im.width fmt := by rw [Spec.strideOf, if_pos hs]
  have hge := stride_ge hg
  rw [ImgPic.decode, initLine_ok (by intro e; rw [e] at hf; simp [Spec.bytesPer] at hf) hw hg]
  simp only [Except.bind, hd, fetchJPEG, hc]
  refine onlyUb_cases (onlyUb_putLines fun i l => onlyUb_scanRGB hf (fun _ => onlyUb_arrGet _ _) fun _ => onlyUb_alpha _ _ _ _) ?_
  intro t ht
  obtain ⟨b, hb⟩ := putLines_first ht hph
  have := (scanRGB_bound hf hb).2 (im.width + 1) (by omega)
  rw [List.length_append, List.length_replicate, List.length_replicate, hst] at this
  rw [hst] at hge
  unfold Spec.lineLength at this hge
  cases fmt <;> simp only [Spec.bytesPer] at hf this hge <;> first | omega | skip
  all_goals
    rw [uns_small (by omega)] at this
    omega

example : (ImgPic.mk 1 1 (.jpeg ⟨3, 1, some true, fun _ => [1, 2, 3, 4, 5, 6, 7, 8, 9]⟩) none).decode none .RGB24 (-1) = .error .ub := by decide +kernel

/-- The value of a bit of a fax: the first pixel is the highest bit of the first byte. -/
def Spec.faxPixel (row : Bytes) (x : Nat) : Byte := if (row.getD (x / 8) 0).toNat.testBit (7 - x % 8) then 255 else 0

/-- C173: a fax is decoded, a set bit being white. -/
theorem C173_fax_partial (im : ImgPic) (cap : Option Nat) (fmt : PixFmt) (rowSize : Int) (rows : Nat → Bytes) (op : Nat → Nat → Byte)
    (hf : fmt ≠ .Unknown) (hd : im.data = .fax rows) (hp : ∀ y, y < im.height → im.width ≤ 8 * (rows y).length) (ho : Spec.Opacity im op)
    (hw : im.width < 536870912) (hwh : im.width * im.height < 4294967296) (hs : Spec.GoodStride im.width fmt rowSize)
    (hr : Spec.Room cap (im.height * Spec.strideOf im.width fmt rowSize)) :
    ∃ out, im.decode cap fmt rowSize = .ok out ∧ out.length = im.height * Spec.strideOf im.width fmt rowSize
      ∧ Spec.Raster out im.width im.height (Spec.strideOf im.width fmt rowSize) (Spec.bytesPer fmt) (fun y x => Spec.greyPixel fmt (Spec.faxPixel (rows y) x) (op y x)) := by
  have hge := stride_ge hs
  have hle := stride_le hw hs
  have hlen : ∀ y x, (Spec.greyPixel fmt (Spec.faxPixel (rows y) x) (op y x)).length = Spec.bytesPer fmt := by
    intro y x; cases fmt <;> rfl
  have hra := raster_of_rows (h := im.height) (w := im.width) (n := Spec.bytesPer fmt) (pad := List.replicate (Spec.strideOf im.width fmt rowSize - im.width * Spec.bytesPer fmt) 0)
    (px := fun y x => Spec.greyPixel fmt (Spec.faxPixel (rows y) x) (op y x)) (fun b hb => (List.mem_replicate.1 hb).2) hlen
  simp only [List.length_replicate] at hra
  rw [show im.width * Spec.bytesPer fmt + (Spec.strideOf im.width fmt rowSize - im.width * Spec.bytesPer fmt) = Spec.strideOf im.width fmt rowSize from by omega] at hra
  refine ⟨_, ?_, hra.1, hra.2.1⟩
  rw [ImgPic.decode, initLine_ok hf hw hs]
  simp only [Except.bind, hd]
  refine putLines_spec ?_ (fun y _ => range_flatMap_length _ 0 fun j _ _ => hlen y j) (List.length_replicate ..) ?_
  · intro y b hy hb
    refine scanGray_spec hf ?_ ?_ hb (by simp [hb]; omega)
    · intro x hx
      have hlt : x / 8 < (rows y).length := by have := hp y hy; omega
      rw [bitAt, arrGet, if_pos hlt]
      simp only [Except.map, Spec.faxPixel, Nat.testBit_eq_decide_div_mod_eq, decide_eq_true_eq]
    · intro h4 x hx
      exact alpha_ok ho h4 hy hx hwh
  · intro c hcc
    rw [List.length_replicate, show im.width * Spec.bytesPer fmt + (Spec.strideOf im.width fmt rowSize - im.width * Spec.bytesPer fmt) = Spec.strideOf im.width fmt rowSize from by omega]
    exact hr c hcc

example : (ImgPic.mk 3 1 (.fax fun _ => [0xA0]) none).decode none .Grayscale (-1) = .ok [255, 0, 255, 0] := by decide +kernel

end Pdfmm
