import Verif.Images.Pixels
import Verif.Streams.ObjStreamData
import Verif.Forms.Inherit
set_option autoImplicit false
/-!
# Images as objects: their dictionary and their stream

`PdfImage` over `PdfObjectStream`: setting pixels and raw data, colour spaces, masks, and decoding what the document holds.  Property C174.
-/
namespace Pdfmm

/-- `enum class PdfColorSpace`, `src/pdfmm/base/PdfDeclarations.h:312-326`. -/
inductive ImgColor
  | Unknown | DeviceGray | DeviceRGB | DeviceCMYK | CalGray | CalRGB | Lab | ICCBased | Indexed | Pattern | Separation | DeviceN
  deriving DecidableEq

/-- `ColorSpaceToNameRaw`, `src/pdfmm/private/PdfDeclarationsPrivate.cpp:323-351`. -/
def colorName : ImgColor → Res Bytes
  | .DeviceGray => .ok (litBytes "DeviceGray")
  | .DeviceRGB => .ok (litBytes "DeviceRGB")
  | .DeviceCMYK => .ok (litBytes "DeviceCMYK")
  | .CalGray => .ok (litBytes "CalGray")
  | .Lab => .ok (litBytes "Lab")
  | .ICCBased => .ok (litBytes "ICCBased")
  | .Indexed => .ok (litBytes "Indexed")
  | .Pattern => .ok (litBytes "Pattern")
  | .Separation => .ok (litBytes "Separation")
  | .DeviceN => .ok (litBytes "DeviceN")
  | .Unknown | .CalRGB => raise .InvalidEnumValue

/-- `NameToColorSpaceRaw`, `src/pdfmm/private/PdfDeclarationsPrivate.cpp:297-321`. -/
def nameColor (n : Bytes) : Res ImgColor :=
  if n = litBytes "DeviceGray" then .ok .DeviceGray
  else if n = litBytes "DeviceRGB" then .ok .DeviceRGB
  else if n = litBytes "DeviceCMYK" then .ok .DeviceCMYK
  else if n = litBytes "CalGray" then .ok .CalGray
  else if n = litBytes "Lab" then .ok .Lab
  else if n = litBytes "ICCBased" then .ok .ICCBased
  else if n = litBytes "Indexed" then .ok .Indexed
  else if n = litBytes "Pattern" then .ok .Pattern
  else if n = litBytes "Separation" then .ok .Separation
  else if n = litBytes "DeviceN" then .ok .DeviceN
  else raise .CannotConvertColor

/-- The key /Width, `src/pdfmm/base/PdfImage.cpp:332`. -/
def kWidth : Bytes := litBytes "Width"
/-- The key /Height, `src/pdfmm/base/PdfImage.cpp:333`. -/
def kHeight : Bytes := litBytes "Height"
/-- The key /BitsPerComponent, `src/pdfmm/base/PdfImage.cpp:334`. -/
def kBits : Bytes := litBytes "BitsPerComponent"
/-- The key /ColorSpace, `src/pdfmm/base/PdfImage.cpp:335`. -/
def kSpace : Bytes := litBytes "ColorSpace"
/-- The key /Decode, `src/pdfmm/base/PdfImage.cpp:337`. -/
def kDecode : Bytes := litBytes "Decode"
/-- The key /SMask, `src/pdfmm/base/PdfImage.cpp:268`. -/
def kSMask : Bytes := litBytes "SMask"
/-- The key /Mask, `src/pdfmm/base/PdfImage.cpp:1309`. -/
def kMask : Bytes := litBytes "Mask"

/-! ### The document -/

/-- The objects of a document, by reference: with or without a stream. -/
abbrev IDoc := Ref → Option Loaded

/-- The variant of an object, `PdfObject::m_Variant`. -/
def Loaded.var : Loaded → Var
  | .plain v => v
  | .stream o => .dict o.dict

/-- `FindKey`, `src/pdfmm/base/PdfDictionary.cpp:133-146`, giving the object. -/
def IDoc.find (doc : IDoc) (d : FDict) (k : Bytes) : Option Loaded :=
  match SMap.find? k d with
  | none => none
  | some (.ref n g) => doc ⟨n, g⟩
  | some v => some (.plain v)

/-- `static_cast<unsigned>(MustFindKey(k).GetNumber())`, `src/pdfmm/base/PdfImage.cpp:175-176`. -/
def IDoc.dim (doc : IDoc) (d : FDict) (k : Bytes) : Res Nat :=
  match (doc.find d k).map Loaded.var with
  | none => raise .NoObject
  | some (.num n) => .ok (n % 4294967296).toNat
  | some _ => raise .InvalidDataType

/-- `enum class PdfXObjectType`, `src/pdfmm/base/PdfDeclarations.h:168-174`. -/
inductive XObjKind
  | Unknown | Form | Image | PostScript
  deriving DecidableEq

/-- `fromString`, `src/pdfmm/base/PdfXObject.cpp:189-199`. -/
def xtypeOf (n : Bytes) : XObjKind :=
  if n = litBytes "Form" then .Form
  else if n = litBytes "Image" then .Image
  else if n = litBytes "PS" then .PostScript
  else .Unknown

/-- `getPdfXObjectType`, `src/pdfmm/base/PdfXObject.cpp:111-120`. -/
def IDoc.xtype (doc : IDoc) (d : FDict) : XObjKind :=
  match (doc.find d (litBytes "Subtype")).map Loaded.var with
  | some (.name n) => xtypeOf n
  | _ => .Unknown

/-- The test for an XObject, `src/pdfmm/base/PdfXObject.cpp:70-77`: the dictionary, when its entry /Type is the direct name `XObject`. -/
def xobjDict (v : Var) : Option FDict :=
  match v with
  | .dict d =>
    match SMap.find? (litBytes "Type") d with
    | some (.name n) => if n = litBytes "XObject" then some d else none
    | _ => none
  | _ => none

/-- `TryCreateFromObject` for images, `src/pdfmm/base/PdfXObject.cpp:65-109` with `src/pdfmm/base/PdfImage.cpp:172-177`: the dimensions of the image. -/
def IDoc.tryImage (doc : IDoc) (v : Var) : Res (Option (Nat × Nat)) :=
  match xobjDict v with
  | none => .ok none
  | some d =>
    if doc.xtype d = .Image then
      (doc.dim d kWidth).bind fun w => (doc.dim d kHeight).map fun h => some (w, h)
    else .ok none

/-! ### Images -/

/-- A `PdfImage`: `m_Width`, `m_Height`, its object, and whether that has a stream. -/
structure ImObj where
  width : Nat
  height : Nat
  obj : StObj
  has : Bool

/-- A new image, `src/pdfmm/base/PdfImage.cpp:46-49` and `src/pdfmm/base/PdfXObject.cpp:26-31`. -/
def ImObj.fresh : ImObj :=
  ⟨0, 0, ⟨SMap.insert (litBytes "Subtype") (.name (litBytes "Image")) [(litBytes "Type", .name (litBytes "XObject"))], [], [], false⟩, false⟩

/-- An image of a document, `src/pdfmm/base/PdfImage.cpp:172-177`. -/
def ImObj.ofLoaded (doc : IDoc) (l : Loaded) : Res ImObj :=
  match l with
  | .plain (.dict d) => (doc.dim d kWidth).bind fun w => (doc.dim d kHeight).map fun h => ⟨w, h, ⟨d, [], [], false⟩, false⟩
  | .plain _ => raise .InvalidDataType
  | .stream o => (doc.dim o.dict kWidth).bind fun w => (doc.dim o.dict kHeight).map fun h => ⟨w, h, o, true⟩

/-- `GetColorSpace`, `src/pdfmm/base/PdfImage.cpp:226-241`. -/
def ImObj.colorSpace (doc : IDoc) (im : ImObj) : Res ImgColor :=
  match (doc.find im.obj.dict kSpace).map Loaded.var with
  | none => .ok .Unknown
  | some (.arr _) => .ok .Indexed
  | some (.name n) => nameColor n
  | some _ => .ok .Unknown

/-- The input stream of a stream object, copied: `src/pdfmm/base/PdfObjectStream.cpp:52-56` and `:299-351`.  What the filters that are not for media leave, the media filters, and their parameters. -/
def StObj.unmedia (flate : Filt) (o : StObj) : Res (Bytes × List FilterName × List (Option FDict)) :=
  if o.filters = [] then .ok (o.buf, [], [])
  else
    match decodeParms o with
    | .error e => .error e
    | .ok ps =>
      match stripMedia o.filters [] [] with
      | .error e => .error e
      | .ok (reg, media) =>
        let mp := if media = [] then [] else ps.drop reg.length
        if reg = [] then .ok (o.buf, media, mp)
        else
          match filtsDec flate (reg.zip ps) with
          | .error e => .error e
          | .ok fs =>
            match createDecodeStream fs with
            | .error e => .error e
            | .ok d => (d.codec.run [o.buf]).map fun b => (b, media, mp)

/-- The soft mask, `src/pdfmm/base/PdfImage.cpp:187-193`. -/
def ImObj.mask (flate : Filt) (doc : IDoc) (im : ImObj) : Res (Option Bytes) :=
  match doc.find im.obj.dict kSMask with
  | none => .ok none
  | some l =>
    (doc.tryImage l.var).bind fun r =>
      match r, l with
      | none, _ => .ok none
      | some _, .plain _ => raise .InvalidHandle
      | some _, .stream o => if o.locked then raise .InternalLogic else (o.copyTo flate).map some

/-- The colour spaces that are decoded, `src/pdfmm/base/PdfImage.cpp:78-88`. -/
def spaceOf : ImgColor → ImgSpace
  | .DeviceRGB => .rgb
  | .DeviceGray => .gray
  | _ => .other

/-- The libraries that decode JPEG and fax data, given the format wanted, or the dimensions and the parameters: they are not modelled. -/
structure Codecs where
  jpeg : PixFmt → Bytes → JpegPic
  fax : Bytes → Nat → Nat → Option FDict → Nat → Bytes

/-- `PdfImage::DecodeTo`, `src/pdfmm/base/PdfImage.cpp:65-163`. -/
def ImObj.decodeTo (flate : Filt) (lib : Codecs) (doc : IDoc) (im : ImObj) (cap : Option Nat) (fmt : PixFmt) (rowSize : Int) : Res Bytes :=
  if im.has = false then raise .InvalidHandle
  else if im.obj.locked then raise .InternalLogic
  else
    (im.obj.unmedia flate).bind fun (data, media, parms) =>
      (if Spec.bytesPer fmt = 4 then im.mask flate doc else .ok none).bind fun m =>
        (initLine im.width fmt rowSize).bind fun _ =>
          let kind : Res ImgData :=
            match media with
            | [] => (im.colorSpace doc).map fun c => .plain (spaceOf c) data
            | .DCTDecode :: _ => .ok (.jpeg (lib.jpeg fmt data))
            | .CCITTFaxDecode :: _ => .ok (.fax (lib.fax data im.width im.height (parms.headD none)))
            | _ => .ok .other
          kind.bind fun k => (ImgPic.mk im.width im.height k m).decode cap fmt rowSize

/-! ### Setting -/

/-- The last success of `f n`, `f (n - 1)`, …, `f 0`. -/
def lastOk {α : Type} (f : Nat → Res α) : Nat → Option α
  | 0 => (f 0).toOption
  | n + 1 => match f (n + 1) with
    | .ok a => some a
    | .error _ => lastOk f n

/-- The entries that `SetData` makes, `src/pdfmm/base/PdfImage.cpp:331-337`. -/
def pixelKeys (w h : Nat) (space : Bytes) (d : FDict) : FDict :=
  SMap.erase kDecode (SMap.insert kSpace (.name space) (SMap.insert kBits (.num 8) (SMap.insert kHeight (.num h) (SMap.insert kWidth (.num w) d))))

/-- `PdfImage::SetData`, `src/pdfmm/base/PdfImage.cpp:271-338`: the lines are those of `setData` (C173); when it fails on the way the lines before were written, and the stream is closed with them by the destructor of `output`.  Between calls the stream of an image is not being written elsewhere unless `locked` says so. -/
def ImObj.setData (flate : Filt) (buf : Bytes) (w h : Nat) (fmt : PixFmt) (rowSize : Int) (im : ImObj) : Res Unit × ImObj :=
  match lastOk (fun n => Pdfmm.setData buf w n fmt rowSize) h with
  | none => ((Pdfmm.setData buf w h fmt rowSize).map fun _ => (), { im with width := w, height := h })
  | some (cs, done) =>
    match im.obj.output flate [.FlateDecode] false [done] with
    | (.error e, o) => (.error e, ⟨w, h, o, true⟩)
    | (.ok (), o) =>
      match Pdfmm.setData buf w h fmt rowSize with
      | .error e => (.error e, ⟨w, h, o, true⟩)
      | .ok _ =>
        (.ok (), ⟨w, h, { o with dict := pixelKeys w h (if cs = .gray then litBytes "DeviceGray" else litBytes "DeviceRGB") o.dict }, true⟩)

/-- `struct PdfImageInfo`, `src/pdfmm/base/PdfImage.h:22-31`: there are no initialisers, `none` is a colour space that was not assigned. -/
structure ImInfo where
  width : Nat
  height : Nat
  filters : List FilterName
  color : Option ImgColor
  colorArr : List Var
  bits : Byte
  decode : List Var

/-- The entries before the colour space, `src/pdfmm/base/PdfImage.cpp:351-358`. -/
def rawKeys (i : ImInfo) (d : FDict) : FDict :=
  let d1 := SMap.insert kBits (.num i.bits.toNat) (SMap.insert kHeight (.num i.height) (SMap.insert kWidth (.num i.width) d))
  if i.decode = [] then SMap.erase kDecode d1 else SMap.insert kDecode (.arr i.decode) d1

/-- The name of the colour space, `src/pdfmm/base/PdfImage.cpp:362` and `:367`: it is needed in both cases. -/
def ImInfo.name (i : ImInfo) : Res Bytes :=
  match i.color with
  | none => .error .ub
  | some c => colorName c

/-- The entry, `src/pdfmm/base/PdfImage.cpp:360-370`: the array that is built is not used. -/
def spaceEntry (i : ImInfo) (n : Bytes) : Var := if i.colorArr = [] then .name n else .arr i.colorArr

/-- The entry /Filter, `src/pdfmm/base/PdfImage.cpp:375-387`. -/
def rawFilter (fs : List FilterName) (d : FDict) : Res FDict :=
  match filterNames fs with
  | .error e => .error e
  | .ok [] => .ok d
  | .ok [v] => .ok (SMap.insert kFilter v d)
  | .ok l => .ok (SMap.insert kFilter (.arr l) d)

/-- `PdfImage::SetDataRaw`, `src/pdfmm/base/PdfImage.cpp:340-388`. -/
def ImObj.setDataRaw (flate : Filt) (data : Bytes) (i : ImInfo) (im : ImObj) : Res Unit × ImObj :=
  let d := rawKeys i im.obj.dict
  match i.name with
  | .error e => (.error e, ⟨i.width, i.height, { im.obj with dict := d }, im.has⟩)
  | .ok n =>
    match StObj.output flate { im.obj with dict := SMap.insert kSpace (spaceEntry i n) d } [] false [data] with
    | (.error e, o) => (.error e, ⟨i.width, i.height, o, true⟩)
    | (.ok (), o) =>
      match rawFilter i.filters o.dict with
      | .error e => (.error e, ⟨i.width, i.height, o, true⟩)
      | .ok d' => (.ok (), ⟨i.width, i.height, { o with dict := d' }, true⟩)

/-- `SetICCProfile`, `src/pdfmm/base/PdfImage.cpp:243-264`: the profile is a new object `r`; the image and the profile. -/
def ImObj.setICC (flate : Filt) (r : Ref) (profile : Bytes) (n : Nat) (alt : ImgColor) (im : ImObj) : Res (ImObj × StObj) :=
  if n ≠ 1 ∧ n ≠ 3 ∧ n ≠ 4 then raise .ValueOutOfRange
  else
    (colorName alt).bind fun a =>
      match StObj.output flate ⟨SMap.insert (litBytes "N") (.num n) [(litBytes "Alternate", .name a)], [], [], false⟩ [.FlateDecode] false [profile] with
      | (.error e, _) => .error e
      | (.ok (), o) =>
        .ok ({ im with obj := { im.obj with dict := SMap.insert kSpace (.arr [.name (litBytes "ICCBased"), .ref r.num r.gen]) im.obj.dict } }, o)

/-- A sum of two `int64_t`. -/
def add64 (a b : Int) : Res Int := if -9223372036854775808 ≤ a + b ∧ a + b < 9223372036854775808 then .ok (a + b) else .error .ub

/-- `SetChromaKeyMask`, `src/pdfmm/base/PdfImage.cpp:1299-1310`. -/
def ImObj.setKey (r g b t : Int) (im : ImObj) : Res ImObj :=
  (add64 r (-t)).bind fun r1 => (add64 r t).bind fun r2 => (add64 g (-t)).bind fun g1 => (add64 g t).bind fun g2 =>
    (add64 b (-t)).bind fun b1 => (add64 b t).map fun b2 =>
      { im with obj := { im.obj with dict := SMap.insert kMask (.arr [.num r1, .num r2, .num g1, .num g2, .num b1, .num b2]) im.obj.dict } }

/-- `SetSoftmask`, `src/pdfmm/base/PdfImage.cpp:266-269`, of an object with reference `r` of the same document. -/
def ImObj.setSoftmask (r : Ref) (im : ImObj) : ImObj :=
  { im with obj := { im.obj with dict := SMap.insert kSMask (.ref r.num r.gen) im.obj.dict } }

end Pdfmm
