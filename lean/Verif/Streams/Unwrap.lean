import Verif.Images.ImageObj
import Verif.Streams.ObjStreamData
/-
C178: unwrapping streams, and the input streams that read them.
-/
set_option autoImplicit false
namespace Pdfmm
open Codec

/-! ## Opening a stream for reading -/

/-- What the constructor of an input stream does before anything is read, `src/pdfmm/base/PdfObjectStream.cpp:299-351`: the parameters are collected, media filters are split off and the decoders are created. -/
def StObj.opens (flate : Filt) (o : StObj) : Res Unit :=
  if o.filters = [] then .ok ()
  else
    match decodeParms o with
    | .error e => .error e
    | .ok ps =>
      match stripMedia o.filters [] [] with
      | .error e => .error e
      | .ok (reg, _) =>
        if reg = [] then .ok ()
        else
          match filtsDec flate (reg.zip ps) with
          | .error e => .error e
          | .ok fs => (createDecodeStream fs).map fun _ => ()

/-- `GetInputStream(raw)`, `src/pdfmm/base/PdfObjectStream.cpp:52-56` and the constructor, `:396-401`: the lock is taken first, and the destructor that would release it (`:384-388`) does not run for an object whose constructor failed. -/
def StObj.openInput (flate : Filt) (raw : Bool) (o : StObj) : Res Unit × StObj :=
  if o.locked then (raise .InternalLogic, o)
  else if raw then (.ok (), { o with locked := true })
  else (o.opens flate, { o with locked := true })

/-- The destructor of the input stream, `src/pdfmm/base/PdfObjectStream.cpp:384-388`. -/
def StObj.closeInput (o : StObj) : StObj := { o with locked := false }

/-! ## `Unwrap` -/

/-- The name of a filter as an entry, `FilterToName`; only filters for media are given. -/
def mediaName (f : FilterName) : Var :=
  match filterToName f with
  | .ok s => .name (litBytes s)
  | .error _ => .null

/-- The entries for the filters left over, `src/pdfmm/base/PdfObjectStream.cpp:130-173`.  Simplified: parameters that are indirect objects are not distinguished. -/
def mediaEntries (media : List FilterName) (parms : List (Option FDict)) : FDict :=
  match media with
  | [] => []
  | [f] =>
    match parms.headD none with
    | none => SMap.insert kFilter (mediaName f) []
    | some d => SMap.insert kDecodeParms (.dict d) (SMap.insert kFilter (mediaName f) [])
  | l =>
    let d := SMap.insert kFilter (.arr (l.map mediaName)) []
    if parms = [] then d
    else SMap.insert kDecodeParms (.arr (parms.map fun p => match p with | none => .null | some e => .dict e)) d

/-- `Unwrap`, `src/pdfmm/base/PdfObjectStream.cpp:109-177`.  The output stream of line 126 is closed at the end of its block, line 174, after the entries were added: closing it removes `/Filter`
(`:422-451`).  Then the data moves over, `:201-238`. -/
def StObj.unwrap (flate : Filt) (o : StObj) : Res Unit × StObj :=
  if o.filters = [] then (.ok (), o)
  else
    match o.openInput flate false with
    | (.error e, o1) => (.error e, o1)
    | (.ok _, o1) =>
      match o1.unmedia flate with
      | .error e => (.error e, o1.closeInput)
      | .ok (data, media, parms) =>
        if o1.filters.length = 1 ∧ media.length = 1 then (.ok (), o1.closeInput)
        else
          let tmp : StObj := ⟨SMap.erase kFilter (mediaEntries media parms), data, [], false⟩
          let r := o1.closeInput.moveFrom tmp
          (r.1, r.2.1)

/-- What unwrapping a stream means ("Unpack non media filters", `src/pdfmm/base/PdfObjectStream.h:172`): the data is stored as the filters that are not for media leave it, the entry `/Filter`
names the media filters that are left, and no other entry changes. -/
structure Spec.Unwraps (data : Bytes) (media : List FilterName) (o o' : StObj) : Prop where
  data : o'.buf = data
  left : o'.filters = media
  entry : Spec.FilterEntry o'.dict media
  other : ∀ k, k ≠ kFilter → k ≠ kDecodeParms → SMap.find? k o'.dict = SMap.find? k o.dict
  free : o'.locked = false

theorem opens_of_unmedia (flate : Filt) (o : StObj) (r : Bytes × List FilterName × List (Option FDict)) (h : o.unmedia flate = .ok r) :
    o.opens flate = .ok () := by
  unfold StObj.unmedia at h
  unfold StObj.opens
  split at h
  · rename_i hf; rw [if_pos hf]
  · rename_i hf; rw [if_neg hf]
    split at h
    · cases h
    · split at h
      · cases h
      · rename_i h1 _ _ _ h2
        simp only [h1, h2]
        dsimp only at h
        split at h
        · rename_i hr; rw [if_pos hr]
        · rename_i hr; rw [if_neg hr]
          split at h
          · cases h
          · rename_i h3
            simp only [h3]
            split at h
            · cases h
            · rename_i h4
              rw [h4]; rfl

theorem unmedia_lock (flate : Filt) (o : StObj) (b : Bool) : ({ o with locked := b } : StObj).unmedia flate = o.unmedia flate := rfl

theorem opens_lock (flate : Filt) (o : StObj) (b : Bool) : ({ o with locked := b } : StObj).opens flate = o.opens flate := rfl

/-- What unwrapping leaves, for every stream whose data can be decoded and whose filters are not a single media filter. -/
theorem unwrap_eq (flate : Filt) (o : StObj) (hlk : o.locked = false) (hs : SMap.Sorted o.dict) (hf : o.filters ≠ [])
    (data : Bytes) (media : List FilterName) (parms : List (Option FDict)) (hu : o.unmedia flate = .ok (data, media, parms))
    (hn : ¬ (o.filters.length = 1 ∧ media.length = 1)) :
    ∃ o', o.unwrap flate = (.ok (), o') ∧ o'.buf = data ∧ o'.filters = [] ∧ SMap.find? kFilter o'.dict = none ∧ o'.locked = false ∧
      SMap.find? kDecodeParms o'.dict = SMap.find? kDecodeParms (mediaEntries media parms) ∧
      (∀ k, k ≠ kFilter → k ≠ kDecodeParms → SMap.find? k o'.dict = SMap.find? k o.dict) := by
  have ho := opens_of_unmedia flate o _ hu
  have h0 : SMap.Sorted ([] : FDict) := by simp [SMap.Sorted]
  have hsm : SMap.Sorted (mediaEntries media parms) := by
    unfold mediaEntries
    split
    · exact h0
    · split
      · exact SMap.sorted_insert _ _ _ h0
      · exact SMap.sorted_insert _ _ _ (SMap.sorted_insert _ _ _ h0)
    · dsimp only
      split
      · exact SMap.sorted_insert _ _ _ h0
      · exact SMap.sorted_insert _ _ _ (SMap.sorted_insert _ _ _ h0)
  have hkey : kDecodeParms ≠ kFilter := by decide
  unfold StObj.unwrap
  rw [if_neg hf]
  have e1 : o.openInput flate false = (.ok (), { o with locked := true }) := by
    simp [StObj.openInput, hlk, ho]
  rw [e1]
  simp only [unmedia_lock, hu]
  rw [if_neg hn]
  refine ⟨_, rfl, ?_⟩
  simp only [StObj.closeInput, StObj.moveFrom]
  refine ⟨rfl, rfl, ?_, rfl, ?_, ?_⟩
  · simp only [Bool.false_eq_true, if_false]
    rw [find_copyEntry _ _ _ _ (sorted_copyEntry _ _ _ hs), if_neg (Ne.symm hkey), find_copyEntry _ _ _ _ hs, if_pos rfl, SMap.find_erase _ _ hsm, if_pos rfl]
  · simp only [Bool.false_eq_true, if_false]
    rw [find_copyEntry _ _ _ _ (sorted_copyEntry _ _ _ hs), if_pos rfl, SMap.find_erase _ _ hsm, if_neg hkey]
  · intro k h1 h2
    simp only [Bool.false_eq_true, if_false]
    rw [find_copyEntry _ _ _ _ (sorted_copyEntry _ _ _ hs), if_neg h2, find_copyEntry _ _ _ _ hs, if_neg h1]

/-- **C178** (proved part). Unwrapping a stream without media filters stores its decoded data: reading it gives what it gave before, there is no filter and no parameter left, and no other entry
changes.  A stream without filters, or with a single filter that is for media, is left alone.  Missing: `C178_media_lost_false`. -/
theorem C178_unwrap_partial (flate : Filt) (o : StObj) (hlk : o.locked = false) (hs : SMap.Sorted o.dict) :
    (∀ data : Bytes, o.filters ≠ [] → o.copyTo flate = .ok data →
      ∃ o', o.unwrap flate = (.ok (), o') ∧ Spec.Unwraps data [] o o' ∧ o'.copyTo flate = .ok data ∧ SMap.find? kDecodeParms o'.dict = none) ∧
    (o.filters = [] → o.unwrap flate = (.ok (), o)) ∧
    (∀ (f : FilterName) (data : Bytes) (parms : List (Option FDict)), o.filters = [f] → o.unmedia flate = .ok (data, [f], parms) → o.unwrap flate = (.ok (), o)) := by
  refine ⟨?_, ?_, ?_⟩
  · intro data hf hc
    have hu : o.unmedia flate = .ok (data, [], []) := by
      unfold StObj.copyTo at hc
      unfold StObj.unmedia
      rw [if_neg hf] at hc ⊢
      cases h1 : decodeParms o with
      | error e => rw [h1] at hc; cases hc
      | ok ps =>
        cases h2 : stripMedia o.filters [] [] with
        | error e => rw [h1, h2] at hc; cases hc
        | ok p =>
          obtain ⟨reg, media⟩ := p
          rw [h1, h2] at hc
          dsimp only at hc ⊢
          by_cases hm : media = []
          · subst hm
            rw [if_neg (by simp)] at hc
            cases h3 : filtsDec flate (reg.zip ps) with
            | error e => rw [h3] at hc; cases hc
            | ok fs =>
              rw [h3] at hc
              dsimp only at hc
              cases h4 : createDecodeStream fs with
              | error e => rw [h4] at hc; cases hc
              | ok d =>
                rw [h4] at hc
                dsimp only at hc
                have hr : reg ≠ [] := by
                  rintro rfl
                  simp only [List.zip_nil_left, filtsDec] at h3
                  cases h3
                  simp [createDecodeStream, raise] at h4
                rw [if_neg hr]
                dsimp only
                rw [h4]
                dsimp only
                rw [hc, if_pos rfl]; rfl
          · rw [if_pos hm] at hc; cases hc
    obtain ⟨o', e1, e2, e3, e4, e5, e6, e7⟩ := unwrap_eq flate o hlk hs hf data [] [] hu (by simp)
    refine ⟨o', e1, ⟨e2, e3, ?_, e7, e5⟩, ?_, ?_⟩
    · exact ⟨[], rfl, e4⟩
    · simp [StObj.copyTo, e3, e2]
    · rw [e6]; rfl
  · intro hf; simp [StObj.unwrap, hf]
  · intro f data parms hf hu
    have ho := opens_of_unmedia flate o _ hu
    have hne : o.filters ≠ [] := by rw [hf]; simp
    have e1 : o.openInput flate false = (.ok (), { o with locked := true }) := by simp [StObj.openInput, hlk, ho]
    unfold StObj.unwrap
    rw [if_neg hne, e1]
    simp only [unmedia_lock, hu]
    rw [if_pos ⟨by rw [hf]; rfl, rfl⟩]
    simp only [StObj.closeInput]
    rw [← hlk]

/-- **C178** fails for every stream that has media filters besides others: the data is unpacked, but the entry `/Filter` that should name the media filters is removed when the temporary stream is
closed, and the list of filters is empty.  A JPEG image that was also compressed is then unfiltered data for every reader. -/
theorem C178_media_lost_false (flate : Filt) (o : StObj) (hlk : o.locked = false) (hs : SMap.Sorted o.dict) (data : Bytes) (media : List FilterName)
    (parms : List (Option FDict)) (hu : o.unmedia flate = .ok (data, media, parms)) (hm : media ≠ []) (hn : 2 ≤ o.filters.length) :
    ∃ o', o.unwrap flate = (.ok (), o') ∧ ¬ Spec.Unwraps data media o o' ∧ o'.buf = data ∧ o'.filters = [] ∧ SMap.find? kFilter o'.dict = none ∧
      o'.copyTo flate = .ok data ∧ o.copyTo flate = raise .UnsupportedFilter := by
  have hf : o.filters ≠ [] := by intro h; rw [h] at hn; simp at hn
  obtain ⟨o', e1, e2, e3, e4, e5, e6, e7⟩ := unwrap_eq flate o hlk hs hf data media parms hu (by omega)
  refine ⟨o', e1, ?_, e2, e3, e4, ?_, ?_⟩
  · intro h; exact hm (h.left.symm.trans e3)
  · simp [StObj.copyTo, e3, e2]
  · unfold StObj.unmedia at hu
    unfold StObj.copyTo
    rw [if_neg hf] at hu ⊢
    cases h1 : decodeParms o with
    | error e => rw [h1] at hu; cases hu
    | ok ps =>
      cases h2 : stripMedia o.filters [] [] with
      | error e => rw [h1, h2] at hu; cases hu
      | ok p =>
        obtain ⟨reg, md⟩ := p
        rw [h1, h2] at hu
        dsimp only at hu ⊢
        have : md = media := by
          split at hu
          · cases hu; rfl
          · split at hu
            · cases hu
            · split at hu
              · cases hu
              · rename_i d _
                cases hr : d.codec.run [o.buf] with
                | error e => rw [hr] at hu; cases hu
                | ok b => rw [hr] at hu; cases hu; rfl
        rw [this, if_pos hm]

/-- **C178** (proved part). When the data cannot be decoded the stream stays as it was and can be used again; a stream in use is refused and left alone. -/
theorem C178_unwrap_failed_partial (flate : Filt) (o : StObj) :
    (∀ e, o.locked = false → o.opens flate = .ok () → o.unmedia flate = .error e → o.unwrap flate = (.error e, o)) ∧
    (o.locked = true → o.filters ≠ [] → o.unwrap flate = (raise .InternalLogic, o)) := by
  constructor
  · intro e hlk ho hu
    have hf : o.filters ≠ [] := by intro h; simp [StObj.unmedia, h] at hu
    have e1 : o.openInput flate false = (.ok (), { o with locked := true }) := by simp [StObj.openInput, hlk, ho]
    unfold StObj.unwrap
    rw [if_neg hf, e1]
    simp only [unmedia_lock, hu, StObj.closeInput]
    rw [← hlk]
  · intro hlk hf
    unfold StObj.unwrap
    rw [if_neg hf]
    simp [StObj.openInput, hlk, raise]

/-- **C178** fails: when the decoders of a stream cannot be created (an unknown or unsupported filter, bad parameters), asking for an input stream or unwrapping raises the error and leaves the stream
locked for good: every later attempt to open it or to give it new data is refused, although new data could have been set before. -/
theorem C178_failed_open_false (flate : Filt) (hfl : RoundTrips flate.enc flate.dec) (o : StObj) (hlk : o.locked = false) (hs : SMap.Sorted o.dict) (e : Fault)
    (ho : o.opens flate = .error e) :
    ∃ o1, o.openInput flate false = (.error e, o1) ∧ o.unwrap flate = (.error e, o1) ∧
      (∀ raw, o1.openInput flate raw = (raise .InternalLogic, o1)) ∧
      (∀ (fs : List FilterName) (ap : Bool) (ps : List Bytes), o1.output flate fs ap ps = (raise .InternalLogic, o1)) ∧
      (∀ b : Bytes, ∃ o2, o.output flate [.FlateDecode] false [b] = (.ok (), o2)) := by
  have hf : o.filters ≠ [] := by intro h; simp [StObj.opens, h] at ho
  have e1 : o.openInput flate false = (.error e, { o with locked := true }) := by simp [StObj.openInput, hlk, ho]
  refine ⟨{ o with locked := true }, e1, ?_, ?_, ?_, ?_⟩
  · unfold StObj.unwrap
    rw [if_neg hf, e1]
  · intro raw; simp [StObj.openInput]
  · intro fs ap ps; simp [StObj.output]
  · intro b
    obtain ⟨d', d1, -⟩ := setFilterKey_ok o.dict hs [.FlateDecode] (fun f hf => by rw [List.mem_singleton.mp hf]; exact ⟨_, rfl⟩)
    obtain ⟨tx, t1, -⟩ := hfl [b]
    have he : encodePieces flate [.FlateDecode] [b] = .ok tx := by
      simp only [encodePieces, filtsEnc, filtEnc, createEncodeStream, encodeLoop]
      exact t1
    exact ⟨⟨d', tx, [.FlateDecode], false⟩, by simp [StObj.output, hlk, he, d1]⟩

/-- Non-vacuity: a stream with a predictor no decoder has and one with an unsupported filter cannot be opened; a JPEG image in hexadecimal can. -/
example (flate : Filt) :
    (⟨[], [49], [.Crypt], false⟩ : StObj).opens flate = raise .UnsupportedFilter ∧
    ∃ b, (⟨[], [52, 49], [.ASCIIHexDecode, .DCTDecode], false⟩ : StObj).unmedia flate = .ok (b, [.DCTDecode], [none]) := by
  have hrun : hexFilt.dec.run [[52, 49]] = .ok [65] := by decide +kernel
  refine ⟨by rfl, [65], ?_⟩
  have hm : stripMedia [.ASCIIHexDecode, .DCTDecode] [] [] = .ok ([.ASCIIHexDecode], [.DCTDecode]) := rfl
  have hp : decodeParms (⟨[], [52, 49], [.ASCIIHexDecode, .DCTDecode], false⟩ : StObj) = .ok [none, none] := rfl
  simp only [StObj.unmedia, hm, hp]
  simp only [List.zip_cons_cons, List.zip_nil_left, List.zip_nil_right, filtsDec, filtDec, createDecodeStream, List.reverse_cons, List.reverse_nil, List.nil_append, decodeLoop]
  rw [if_neg (by simp), if_neg (by simp), hrun]; rfl

end Pdfmm
