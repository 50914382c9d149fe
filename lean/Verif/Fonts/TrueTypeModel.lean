import Verif.Base.Basic
import Verif.Base.SMap
set_option autoImplicit false
/-
Subsetting of TrueType fonts: `src/pdfmm/base/PdfFontTrueTypeSubset.cpp`.  Properties C134 to C137.
-/
namespace Pdfmm

/-! ### Reading the font file -/

/-- `Seek(off)` and `Read(buffer, n)` on a `SpanStreamDevice`, `src/pdfmm/base/PdfStreamDevice.cpp:92-103`, `580-587` and
`src/pdfmm/base/PdfInputStream.cpp:21-38`. -/
def ttRead (file : Bytes) (off n : Nat) : Res Bytes :=
  if off > file.length then raise .ValueOutOfRange
  else if off + n > file.length then raise .UnexpectedEOF
  else .ok ((file.drop off).take n)

/-- The big endian number in a list of bytes, `ReadUInt16BE` and `ReadUInt32BE`, `src/pdfmm/private/PdfDeclarationsPrivate.cpp:1134-1200`. -/
def ttNat (l : Bytes) : Nat := l.foldl (fun a b => 256 * a + b.toNat) 0

/-- `ReadUInt16BE` at an offset. -/
def ttU16 (file : Bytes) (off : Nat) : Res Nat :=
  match ttRead file off 2 with
  | .error e => .error e
  | .ok l => .ok (ttNat l)

/-- `ReadUInt32BE` at an offset. -/
def ttU32 (file : Bytes) (off : Nat) : Res Nat :=
  match ttRead file off 4 with
  | .error e => .error e
  | .ok l => .ok (ttNat l)

/-! ### The table directory -/

/-- `TrueTypeTable`, `src/pdfmm/base/PdfFontTrueTypeSubset.h:71-77`, without the checksum, which is not used. -/
structure TtTable where
  tag : Nat
  len : Nat
  off : Nat
  deriving DecidableEq, Repr

/-- The tags, as `FT_MAKE_TAG` makes them. -/
def tagGlyf : Nat := 0x676c7966
def tagLoca : Nat := 0x6c6f6361
def tagHead : Nat := 0x68656164
def tagHhea : Nat := 0x68686561
def tagMaxp : Nat := 0x6d617870
def tagHmtx : Nat := 0x686d7478
def tagCvt : Nat := 0x63767420
def tagFpgm : Nat := 0x6670676d
def tagPrep : Nat := 0x70726570
def tagPost : Nat := 0x706f7374

/-- The tables that are looked for, `src/pdfmm/base/PdfFontTrueTypeSubset.cpp:24-35`. -/
def ttRequired : List Nat := [tagHead, tagHhea, tagLoca, tagMaxp, tagGlyf, tagHmtx]

/-- What `InitTables` keeps of an entry, `src/pdfmm/base/PdfFontTrueTypeSubset.cpp:146-190`. -/
def ttKeep (t : TtTable) : Option TtTable :=
  if t.tag ∈ ttRequired ∨ t.tag = tagCvt ∨ t.tag = tagFpgm ∨ t.tag = tagPrep then some t
  else if t.tag = tagPost then if t.len < 32 then none else some { t with len := 32 }
  else none

/-- One entry of the directory, `src/pdfmm/base/PdfFontTrueTypeSubset.cpp:125-139`. -/
def ttEntry (file : Bytes) (i : Nat) : Res TtTable :=
  match ttU32 file (12 + 16 * i) with
  | .error e => .error e
  | .ok tag =>
    match ttU32 file (12 + 16 * i + 4) with
    | .error e => .error e
    | .ok _ =>
      match ttU32 file (12 + 16 * i + 8) with
      | .error e => .error e
      | .ok off =>
        match ttU32 file (12 + 16 * i + 12) with
        | .error e => .error e
        | .ok len => .ok ⟨tag, len, off⟩

/-- The loop over the directory, `src/pdfmm/base/PdfFontTrueTypeSubset.cpp:123-191`: `n` entries from the entry `i` on, all of them. -/
def ttEntries (file : Bytes) : Nat → Nat → Res (List TtTable)
  | 0, _ => .ok []
  | n + 1, i =>
    match ttEntry file i with
    | .error e => .error e
    | .ok t =>
      match ttEntries file n (i + 1) with
      | .error e => .error e
      | .ok r => .ok (t :: r)

/-- `InitTables`, `src/pdfmm/base/PdfFontTrueTypeSubset.cpp:114-195`: the tables that are kept.  The test at the end asks whether the file has none
of the required tables. -/
def ttTables (file : Bytes) : Res (List TtTable) :=
  match ttU16 file 4 with
  | .error e => .error e
  | .ok n =>
    match ttEntries file n 0 with
    | .error e => .error e
    | .ok all => if all.all (fun t => !(ttRequired.contains t.tag)) then raise .UnsupportedFontFormat else .ok (all.filterMap ttKeep)

/-- `GetTableOffset`, `src/pdfmm/base/PdfFontTrueTypeSubset.cpp:91-99`. -/
def ttOffset (ts : List TtTable) (tag : Nat) : Res Nat :=
  match ts.find? (fun t => t.tag == tag) with
  | some t => .ok t.off
  | none => raise .InternalLogic

/-- The font after `Init` and the first lines of `BuildFont`, `src/pdfmm/base/PdfFontTrueTypeSubset.cpp:73-112` and `197-204`: the file, the tables,
the offsets of `glyf` and `loca`, the format of `loca`, the number of glyphs of `maxp` and the number of full horizontal metrics of
`hhea`. -/
structure TtFont where
  file : Bytes
  tables : List TtTable
  glyf : Nat
  loca : Nat
  long : Bool
  count : Nat
  hmCount : Nat

/-- `Init` and the first lines of `BuildFont`. -/
def ttInit (file : Bytes) : Res TtFont :=
  match ttTables file with
  | .error e => .error e
  | .ok ts =>
    match ttOffset ts tagMaxp with
    | .error e => .error e
    | .ok maxp =>
      match ttU16 file (maxp + 4) with
      | .error e => .error e
      | .ok count =>
        match ttOffset ts tagHhea with
        | .error e => .error e
        | .ok hhea =>
          match ttU16 file (hhea + 34) with
          | .error e => .error e
          | .ok hm =>
            match ttOffset ts tagHead with
            | .error e => .error e
            | .ok head =>
              match ttU16 file (head + 50) with
              | .error e => .error e
              | .ok long =>
                match ttOffset ts tagGlyf with
                | .error e => .error e
                | .ok glyf =>
                  match ttOffset ts tagLoca with
                  | .error e => .error e
                  | .ok loca => .ok ⟨file, ts, glyf, loca, decide (long ≠ 0), count, hm⟩

/-! ### Reading a glyph -/

/-- The entry of a glyph in `loca`, `src/pdfmm/base/PdfFontTrueTypeSubset.cpp:266-294`. -/
def TtFont.locaAt (f : TtFont) (gid : Nat) : Res Nat :=
  if f.long then ttU32 f.file (f.loca + 4 * gid)
  else
    match ttU16 f.file (f.loca + 2 * gid) with
    | .error e => .error e
    | .ok n => .ok (2 * n)

/-- `GlyphData`, `src/pdfmm/base/PdfFontTrueTypeSubset.h:88-95`, without the components, which are filled in later. -/
structure TtGlyph where
  compound : Bool
  off : Nat
  len : Nat
  adv : Nat
  deriving DecidableEq, Repr

/-- The part of `LoadGID` that reads a glyph, `src/pdfmm/base/PdfFontTrueTypeSubset.cpp:264-305`: the number of contours is negative for a compound
glyph. -/
def TtFont.readGlyph (f : TtFont) (gid : Nat) : Res TtGlyph :=
  match f.locaAt gid with
  | .error e => .error e
  | .ok o1 =>
    match f.locaAt (gid + 1) with
    | .error e => .error e
    | .ok o2 =>
      let off := (f.glyf + o1) % 4294967296
      match ttU16 f.file off with
      | .error e => .error e
      | .ok contours => .ok ⟨decide (32768 ≤ contours), off, (o2 + 4294967296 - o1) % 4294967296, (off + 10) % 4294967296⟩

/-- How far `TryAdvanceCompoundOffset` goes, `src/pdfmm/base/PdfFontTrueTypeSubset.cpp:536-556`. -/
def ttStep (flags : Nat) : Nat :=
  (if flags.testBit 0 then 8 else 6) + (if flags.testBit 3 then 2 else if flags.testBit 6 then 4 else if flags.testBit 7 then 8 else 0)

/-- The loop over the components of a compound glyph, `src/pdfmm/base/PdfFontTrueTypeSubset.cpp:307-318`, `231-248` and `524-556`: the positions of the glyph
indices in the file and the indices.  The sums of offsets are not reduced to 32 bits: fonts of 4 GB are not modelled.  The fuel is never used
up (`ttParts_nodiverge`). -/
def ttParts (file : Bytes) : Nat → Nat → Res (List (Nat × Nat))
  | 0, _ => .error .diverge
  | k + 1, pos =>
    match ttU16 file pos with
    | .error e => .error e
    | .ok flags =>
      match ttU16 file (pos + 2) with
      | .error e => .error e
      | .ok gid =>
        if flags.testBit 5 then
          match ttParts file k (pos + ttStep flags) with
          | .error e => .error e
          | .ok r => .ok ((pos + 2, gid) :: r)
        else .ok [(pos + 2, gid)]

/-- All components of a glyph. -/
def TtFont.parts (f : TtFont) (adv : Nat) : Res (List (Nat × Nat)) := ttParts f.file (f.file.length + 1) adv

/-! ### Loading the glyphs -/

/-- `LoadCompound` calls `LoadGID` for each component in turn. -/
def ttLoadAll (load : List (Nat × TtGlyph) → Nat → Res (List (Nat × TtGlyph))) : List Nat → List (Nat × TtGlyph) → Res (List (Nat × TtGlyph))
  | [], m => .ok m
  | g :: l, m =>
    match load m g with
    | .error e => .error e
    | .ok m => ttLoadAll load l m

/-- `LoadGID`, `src/pdfmm/base/PdfFontTrueTypeSubset.cpp:252-305`, with the recursion through `LoadCompound` (`307-318`); the map is
`m_glyphDatas`.  All components are read before the first of them is loaded; this changes only which error is raised.  The fuel bounds
the depth of the recursion; it is never used up (`C135_ends`). -/
def TtFont.loadGid (f : TtFont) : Nat → List (Nat × TtGlyph) → Nat → Res (List (Nat × TtGlyph))
  | 0, _, _ => .error .diverge
  | k + 1, m, gid =>
    if gid ≥ f.count then raise .InternalLogic
    else if (SMap.find? gid m).isSome then .ok m
    else
      match f.readGlyph gid with
      | .error e => .error e
      | .ok d =>
        if d.compound then
          match f.parts d.adv with
          | .error e => .error e
          | .ok ps => ttLoadAll (f.loadGid k) (ps.map (·.2)) (SMap.insert gid d m)
        else .ok (SMap.insert gid d m)

/-- The loading part of `LoadGlyphs`, `src/pdfmm/base/PdfFontTrueTypeSubset.cpp:208-211`. -/
def TtFont.loadGlyphs (f : TtFont) (gids : List Nat) : Res (List (Nat × TtGlyph)) := ttLoadAll (f.loadGid (f.count + 1)) (0 :: gids) []

/-! ### Numbering the glyphs -/

/-- The map from old to new indices and `m_orderedGIDs`.  The map is kept in the order of insertion; only lookups and the size matter. -/
structure TtOrder where
  idx : List (Nat × Nat)
  ord : List Nat

/-- `glyphIndexMap.insert({ gid, size })`: nothing happens when the glyph has an index. -/
def TtOrder.insert (o : TtOrder) (gid : Nat) : List (Nat × Nat) :=
  if (o.idx.lookup gid).isSome then o.idx else o.idx ++ [(gid, o.idx.length)]

/-- A glyph of the list, `src/pdfmm/base/PdfFontTrueTypeSubset.cpp:217-221`: it is put into the ordered list in any case. -/
def TtOrder.addListed (o : TtOrder) (gid : Nat) : TtOrder := ⟨o.insert gid, o.ord ++ [gid]⟩

/-- A component, `src/pdfmm/base/PdfFontTrueTypeSubset.cpp:235-241`: it is put into the ordered list when it had no index. -/
def TtOrder.addPart (o : TtOrder) (gid : Nat) : TtOrder :=
  ⟨o.insert gid, if (o.idx.lookup gid).isSome then o.ord else o.ord ++ [gid]⟩

/-- The order after the glyphs of the list, `src/pdfmm/base/PdfFontTrueTypeSubset.cpp:213-221`. -/
def ttListed (gids : List Nat) : TtOrder := gids.foldl TtOrder.addListed ⟨[(0, 0)], [0]⟩

/-- The loop over the components of one glyph, `src/pdfmm/base/PdfFontTrueTypeSubset.cpp:229-248`: the places of the indices relative to the
glyph and the new indices. -/
def ttRemap (off : Nat) : List (Nat × Nat) → TtOrder → TtOrder × List (Nat × Nat)
  | [], o => (o, [])
  | (pos, gid) :: r, o =>
    let o1 := o.addPart gid
    let rest := ttRemap off r o1
    (rest.1, (pos - off, (o1.idx.lookup gid).getD 0) :: rest.2)

/-- The loop over `m_glyphDatas`, `src/pdfmm/base/PdfFontTrueTypeSubset.cpp:223-249`: the order and the new components of each glyph. -/
def TtFont.remapAll (f : TtFont) : List (Nat × TtGlyph) → TtOrder → Res (TtOrder × List (Nat × List (Nat × Nat)))
  | [], o => .ok (o, [])
  | (gid, d) :: r, o =>
    if d.compound then
      match f.parts d.adv with
      | .error e => .error e
      | .ok ps =>
        match f.remapAll r (ttRemap d.off ps o).1 with
        | .error e => .error e
        | .ok (o', cs) => .ok (o', (gid, (ttRemap d.off ps o).2) :: cs)
    else f.remapAll r o

/-! ### Writing the tables -/

/-- `WriteUInt16BE(buffer + off, value)`: outside of the buffer it is undefined. -/
def ttPatch (buf : Bytes) (p : Nat × Nat) : Res Bytes :=
  if p.1 + 2 > buf.length then .error .ub
  else .ok (buf.take p.1 ++ [UInt8.ofNat (p.2 / 256 % 256), UInt8.ofNat (p.2 % 256)] ++ buf.drop (p.1 + 2))

/-- All components of a glyph. -/
def ttPatchAll : List (Nat × Nat) → Bytes → Res Bytes
  | [], buf => .ok buf
  | p :: r, buf =>
    match ttPatch buf p with
    | .error e => .error e
    | .ok buf => ttPatchAll r buf

/-- One glyph of `WriteGlyphTable`, `src/pdfmm/base/PdfFontTrueTypeSubset.cpp:321-347`; `m_glyphDatas[gid]` of an unknown glyph is an empty one. -/
def TtFont.glyphOut (f : TtFont) (m : List (Nat × TtGlyph)) (cs : List (Nat × List (Nat × Nat))) (gid : Nat) : Res Bytes :=
  match SMap.find? gid m with
  | none => .ok []
  | some d =>
    if d.len = 0 then .ok []
    else
      match ttRead f.file d.off d.len with
      | .error e => .error e
      | .ok buf => if d.compound then ttPatchAll ((cs.lookup gid).getD []) buf else .ok buf

/-- The glyphs one after the other. -/
def ttConcat (g : Nat → Res Bytes) : List Nat → Res Bytes
  | [] => .ok []
  | gid :: r =>
    match g gid with
    | .error e => .error e
    | .ok b =>
      match ttConcat g r with
      | .error e => .error e
      | .ok rest => .ok (b ++ rest)

/-- The addresses that `WriteLocaTable` writes, `src/pdfmm/base/PdfFontTrueTypeSubset.cpp:391-418`: one for each glyph and the end. -/
def ttAddresses (m : List (Nat × TtGlyph)) : List Nat → Nat → List Nat
  | [], a => [a]
  | gid :: r, a => a :: ttAddresses m r ((a + ((SMap.find? gid m).map (·.len)).getD 0) % 4294967296)

/-- `WriteUInt16BE` and `WriteUInt32BE`. -/
def ttW16 (n : Nat) : Bytes := [UInt8.ofNat (n / 256 % 256), UInt8.ofNat (n % 256)]
def ttW32 (n : Nat) : Bytes := ttW16 (n / 65536 % 65536) ++ ttW16 (n % 65536)

/-- `WriteLocaTable`, `src/pdfmm/base/PdfFontTrueTypeSubset.cpp:391-418`. -/
def ttLoca (long : Bool) (as : List Nat) : Bytes := if long then as.flatMap ttW32 else as.flatMap (fun a => ttW16 (a / 2))

/-- The first loop of `WriteHmtxTable`, `src/pdfmm/base/PdfFontTrueTypeSubset.cpp:362-377`: the full metrics that are written and the bearings
that are kept for later. -/
def TtFont.hmtxLoop (f : TtFont) (hmtx : Nat) : List Nat → Res (Bytes × Bytes)
  | [] => .ok ([], [])
  | gid :: r =>
    match (if gid < f.hmCount then ttRead f.file (hmtx + 4 * gid) 4 else ttRead f.file (hmtx + 4 * f.hmCount + 2 * (gid - f.hmCount)) 2) with
    | .error e => .error e
    | .ok b =>
      match f.hmtxLoop hmtx r with
      | .error e => .error e
      | .ok (full, lsb) => if gid < f.hmCount then .ok (b ++ full, lsb) else .ok (full, b ++ lsb)

/-- The glyphs after `LoadGlyphs`: the data, the order and the new components. -/
structure TtPlan where
  glyphs : List (Nat × TtGlyph)
  order : List Nat
  comps : List (Nat × List (Nat × Nat))

/-- `LoadGlyphs`, `src/pdfmm/base/PdfFontTrueTypeSubset.cpp:206-250`. -/
def TtFont.plan (f : TtFont) (gids : List Nat) : Res TtPlan :=
  match f.loadGlyphs gids with
  | .error e => .error e
  | .ok m =>
    match f.remapAll m (ttListed gids) with
    | .error e => .error e
    | .ok (o, cs) => .ok ⟨m, o.ord, cs⟩

/-- `WriteGlyphTable`, `src/pdfmm/base/PdfFontTrueTypeSubset.cpp:321-347`. -/
def TtFont.glyfOut (f : TtFont) (p : TtPlan) : Res Bytes := ttConcat (f.glyphOut p.glyphs p.comps) p.order

/-- `WriteLocaTable`, `src/pdfmm/base/PdfFontTrueTypeSubset.cpp:391-418`. -/
def TtFont.locaOut (f : TtFont) (p : TtPlan) : Bytes := ttLoca f.long (ttAddresses p.glyphs p.order 0)

/-- `WriteHmtxTable`, `src/pdfmm/base/PdfFontTrueTypeSubset.cpp:351-382`. -/
def TtFont.hmtxOut (f : TtFont) (p : TtPlan) : Res Bytes :=
  match ttOffset f.tables tagHmtx with
  | .error e => .error e
  | .ok hmtx =>
    match f.hmtxLoop hmtx p.order with
    | .error e => .error e
    | .ok (full, lsb) => .ok (full ++ lsb)

/-- `m_HMetricsCountNew`, counted in `src/pdfmm/base/PdfFontTrueTypeSubset.cpp:260-262` as a `uint16_t` when a glyph is put into the map. -/
def TtFont.hmCountOut (f : TtFont) (p : TtPlan) : Nat := (p.glyphs.filter (fun g => decide (g.1 < f.hmCount))).length % 65536

/-- Writing into the buffer at a place: outside of the buffer it is undefined. -/
def ttOver (buf : Bytes) (at_ : Nat) (b : Bytes) : Res Bytes :=
  if at_ + b.length > buf.length then .error .ub else .ok (buf.take at_ ++ b ++ buf.drop (at_ + b.length))

/-- A copied table with bytes of it replaced. -/
def ttCopied (file : Bytes) (t : TtTable) (at_ : Nat) (b : Bytes) : Res Bytes :=
  match ttRead file t.off t.len with
  | .error e => .error e
  | .ok buf => ttOver buf at_ b

/-- The table `post`, `src/pdfmm/base/PdfFontTrueTypeSubset.cpp:475-482`. -/
def ttPost (file : Bytes) (t : TtTable) : Res Bytes :=
  match ttCopied file t 0 (ttW32 0x00030000) with
  | .error e => .error e
  | .ok buf => ttOver buf 16 (List.replicate 16 0)

/-- The data of a table, `src/pdfmm/base/PdfFontTrueTypeSubset.cpp:455-499`. -/
def TtFont.body (f : TtFont) (p : TtPlan) (t : TtTable) : Res Bytes :=
  if t.tag = tagHead then ttCopied f.file t 4 (ttW32 0)
  else if t.tag = tagMaxp then ttCopied f.file t 4 (ttW16 (p.glyphs.length % 65536))
  else if t.tag = tagHhea then ttCopied f.file t 34 (ttW16 (f.hmCountOut p))
  else if t.tag = tagPost then ttPost f.file t
  else if t.tag = tagGlyf then f.glyfOut p
  else if t.tag = tagLoca then .ok (f.locaOut p)
  else if t.tag = tagHmtx then f.hmtxOut p
  else if t.tag = tagCvt ∨ t.tag = tagFpgm ∨ t.tag = tagPrep then ttRead f.file t.off t.len
  else raise .InvalidEnumValue

/-- `GetTableCheksum`, `src/pdfmm/base/PdfFontTrueTypeSubset.cpp:566-576`: one signed `char` for each four bytes of the size. -/
def ttChecksum (buf : Bytes) (size : Nat) : Nat :=
  (((buf.take ((size + 3) / 4)).map schar).sum % 4294967296).toNat

/-- The zeros after a table, `src/pdfmm/base/PdfFontTrueTypeSubset.cpp:501-505`. -/
def ttPad (b : Bytes) : Bytes := b ++ List.replicate ((b.length + 3) / 4 * 4 - b.length) 0

/-- One turn of the loop over the tables, `src/pdfmm/base/PdfFontTrueTypeSubset.cpp:451-512`: the buffer and the place of `head`. -/
def TtFont.writeTable (f : TtFont) (p : TtPlan) (i : Nat) (t : TtTable) (buf : Bytes) : Res Bytes :=
  match f.body p t with
  | .error e => .error e
  | .ok b => ttOver (buf ++ ttPad b) (12 + 16 * i + 4) (ttW32 (ttChecksum (ttPad b) b.length) ++ ttW32 (buf.length % 4294967296) ++ ttW32 (b.length % 4294967296))

/-- The loop over the tables, `src/pdfmm/base/PdfFontTrueTypeSubset.cpp:449-512`. -/
def TtFont.writeAll (f : TtFont) (p : TtPlan) : List TtTable → Nat → Bytes → Option Nat → Res (Bytes × Option Nat)
  | [], _, buf, head => .ok (buf, head)
  | t :: r, i, buf, head =>
    match f.writeTable p i t buf with
    | .error e => .error e
    | .ok buf' => f.writeAll p r (i + 1) buf' (if t.tag = tagHead then some buf.length else head)

/-- `ceil(log2(n))` for a positive number; the floating point computation is exact enough for the numbers of tables there are. -/
def ceilLog2 (n : Nat) : Nat := if n ≤ 2 ^ n.log2 then n.log2 else n.log2 + 1

/-- The header of the file, `src/pdfmm/base/PdfFontTrueTypeSubset.cpp:424-434`. -/
def ttHeader (n : Nat) : Bytes :=
  ttW32 0x00010000 ++ ttW16 (n % 65536) ++ ttW16 (2 ^ ceilLog2 n % 65536) ++ ttW16 (ceilLog2 n % 65536) ++
    ttW16 ((16 * (n % 65536) + 4294967296 - 2 ^ ceilLog2 n % 65536) % 65536)

/-- The directory with the places left empty, `src/pdfmm/base/PdfFontTrueTypeSubset.cpp:438-447`. -/
def ttPlaceholders (ts : List TtTable) : Bytes := ts.flatMap (fun t => ttW32 t.tag ++ List.replicate 12 0)

/-- `WriteTables`, `src/pdfmm/base/PdfFontTrueTypeSubset.cpp:420-522`. -/
def TtFont.write (f : TtFont) (p : TtPlan) : Res Bytes :=
  match f.writeAll p f.tables 0 (ttHeader f.tables.length ++ ttPlaceholders f.tables) none with
  | .error e => .error e
  | .ok (_, none) => raise .InternalLogic
  | .ok (buf, some head) => ttOver buf (head + 4) (ttW32 ((0xB1B0AFBA + 4294967296 - ttChecksum buf (buf.length % 4294967296)) % 4294967296))

/-- `BuildFont`, `src/pdfmm/base/PdfFontTrueTypeSubset.cpp:73-82`, into an empty string. -/
def ttBuild (file : Bytes) (gids : List Nat) : Res Bytes :=
  match ttInit file with
  | .error e => .error e
  | .ok f =>
    match f.plan gids with
    | .error e => .error e
    | .ok p => f.write p

end Pdfmm
