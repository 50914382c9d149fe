/-
The tables of the 14 standard fonts, copied from the source.
-/
set_option autoImplicit false
namespace Pdfmm

/-- `PdfStandard14FontType`, `src/pdfmm/base/PdfDeclarations.h:490-507`, without the unknown one. -/
inductive Std14
  | timesRoman | timesItalic | timesBold | timesBoldItalic | helvetica | helveticaOblique | helveticaBold | helveticaBoldOblique | courier | courierOblique | courierBold | courierBoldOblique | symbol | zapfDingbats
  deriving DecidableEq

/-- `src/pdfmm/private/PdfStandard14FontData.cpp:63-294`. -/
def timesRomanWidths : List Nat := [
  250, 250, 333, 408, 500, 500, 833, 778, 180, 333, 333, 500, 564, 250, 333, 250, 278, 500, 500, 500, 500, 500, 500, 500, 500, 500, 500, 278, 278,
  564, 564, 564, 444, 921, 722, 667, 667, 722, 611, 556, 722, 722, 333, 389, 722, 611, 889, 722, 722, 556, 722, 667, 556, 611, 722, 722, 944, 722,
  722, 611, 333, 278, 333, 469, 500, 333, 444, 500, 444, 500, 444, 333, 500, 500, 278, 278, 500, 278, 778, 500, 500, 500, 500, 333, 389, 278, 500,
  500, 722, 500, 500, 444, 480, 200, 480, 541, 333, 500, 500, 500, 500, 200, 500, 333, 760, 276, 500, 564, 760, 333, 400, 564, 300, 300, 333, 500,
  453, 250, 333, 300, 310, 500, 750, 750, 750, 444, 722, 722, 722, 722, 722, 722, 889, 667, 611, 611, 611, 611, 333, 333, 333, 333, 722, 722, 722,
  722, 722, 722, 722, 564, 722, 722, 722, 722, 722, 722, 556, 500, 444, 444, 444, 444, 444, 444, 667, 444, 444, 444, 444, 444, 278, 278, 278, 278,
  500, 500, 500, 500, 500, 500, 500, 564, 500, 500, 500, 500, 500, 500, 500, 500, 278, 611, 278, 889, 722, 556, 389, 722, 611, 444, 500, 333, 333,
  333, 333, 333, 333, 333, 333, 500, 1000, 333, 333, 333, 444, 444, 444, 500, 500, 350, 1000, 1000, 333, 333, 167, 722, 980, 564, 556, 556]

/-- `src/pdfmm/private/PdfStandard14FontData.cpp:296-527`. -/
def timesItalicWidths : List Nat := [
  250, 250, 333, 420, 500, 500, 833, 778, 214, 333, 333, 500, 675, 250, 333, 250, 278, 500, 500, 500, 500, 500, 500, 500, 500, 500, 500, 333, 333,
  675, 675, 675, 500, 920, 611, 611, 667, 722, 611, 611, 722, 722, 333, 444, 667, 556, 833, 667, 722, 611, 722, 611, 500, 556, 722, 611, 833, 611,
  556, 556, 389, 278, 389, 422, 500, 333, 500, 500, 444, 500, 444, 278, 500, 500, 278, 278, 444, 278, 722, 500, 500, 500, 500, 389, 389, 278, 500,
  444, 667, 444, 444, 389, 400, 275, 400, 541, 389, 500, 500, 500, 500, 275, 500, 333, 760, 276, 500, 675, 760, 333, 400, 675, 300, 300, 333, 500,
  523, 250, 333, 300, 310, 500, 750, 750, 750, 500, 611, 611, 611, 611, 611, 611, 889, 667, 611, 611, 611, 611, 333, 333, 333, 333, 722, 667, 722,
  722, 722, 722, 722, 675, 722, 722, 722, 722, 722, 556, 611, 500, 500, 500, 500, 500, 500, 500, 667, 444, 444, 444, 444, 444, 278, 278, 278, 278,
  500, 500, 500, 500, 500, 500, 500, 675, 500, 500, 500, 500, 500, 444, 500, 444, 278, 556, 278, 944, 667, 500, 389, 556, 556, 389, 500, 333, 333,
  333, 333, 333, 333, 333, 333, 500, 889, 333, 333, 333, 556, 556, 556, 500, 500, 350, 889, 1000, 333, 333, 167, 500, 980, 675, 500, 500]

/-- `src/pdfmm/private/PdfStandard14FontData.cpp:529-760`. -/
def timesBoldWidths : List Nat := [
  250, 250, 333, 555, 500, 500, 1000, 833, 278, 333, 333, 500, 570, 250, 333, 250, 278, 500, 500, 500, 500, 500, 500, 500, 500, 500, 500, 333, 333,
  570, 570, 570, 500, 930, 722, 667, 722, 722, 667, 611, 778, 778, 389, 500, 778, 667, 944, 722, 778, 611, 778, 722, 556, 667, 722, 722, 1000, 722,
  722, 667, 333, 278, 333, 581, 500, 333, 500, 556, 444, 556, 444, 333, 500, 556, 278, 333, 556, 278, 833, 556, 500, 556, 556, 444, 389, 333, 556,
  500, 722, 500, 500, 444, 394, 220, 394, 520, 333, 500, 500, 500, 500, 220, 500, 333, 747, 300, 500, 570, 747, 333, 400, 570, 300, 300, 333, 556,
  540, 250, 333, 300, 330, 500, 750, 750, 750, 500, 722, 722, 722, 722, 722, 722, 1000, 722, 667, 667, 667, 667, 389, 389, 389, 389, 722, 722, 778,
  778, 778, 778, 778, 570, 778, 722, 722, 722, 722, 722, 611, 556, 500, 500, 500, 500, 500, 500, 722, 444, 444, 444, 444, 444, 278, 278, 278, 278,
  500, 556, 500, 500, 500, 500, 500, 570, 500, 556, 556, 556, 556, 500, 556, 500, 278, 667, 278, 1000, 722, 556, 389, 722, 667, 444, 500, 333, 333,
  333, 333, 333, 333, 333, 333, 500, 1000, 333, 333, 333, 500, 500, 500, 500, 500, 350, 1000, 1000, 333, 333, 167, 722, 1000, 570, 556, 556]

/-- `src/pdfmm/private/PdfStandard14FontData.cpp:762-993`. -/
def timesBoldItalicWidths : List Nat := [
  250, 250, 389, 555, 500, 500, 833, 778, 278, 333, 333, 500, 570, 250, 333, 250, 278, 500, 500, 500, 500, 500, 500, 500, 500, 500, 500, 333, 333,
  570, 570, 570, 500, 832, 667, 667, 667, 722, 667, 667, 722, 778, 389, 500, 667, 611, 889, 722, 722, 611, 722, 667, 556, 611, 722, 667, 889, 667,
  611, 611, 333, 278, 333, 570, 500, 333, 500, 500, 444, 500, 444, 333, 500, 556, 278, 278, 500, 278, 778, 556, 500, 500, 500, 389, 389, 278, 556,
  444, 667, 500, 444, 389, 348, 220, 348, 570, 389, 500, 500, 500, 500, 220, 500, 333, 747, 266, 500, 606, 747, 333, 400, 570, 300, 300, 333, 576,
  500, 250, 333, 300, 300, 500, 750, 750, 750, 500, 667, 667, 667, 667, 667, 667, 944, 667, 667, 667, 667, 667, 389, 389, 389, 389, 722, 722, 722,
  722, 722, 722, 722, 570, 722, 722, 722, 722, 722, 611, 611, 500, 500, 500, 500, 500, 500, 500, 722, 444, 444, 444, 444, 444, 278, 278, 278, 278,
  500, 556, 500, 500, 500, 500, 500, 570, 500, 556, 556, 556, 556, 444, 500, 444, 278, 611, 278, 944, 722, 556, 389, 611, 611, 389, 500, 333, 333,
  333, 333, 333, 333, 333, 333, 500, 1000, 333, 333, 333, 500, 500, 500, 500, 500, 350, 1000, 1000, 333, 333, 167, 667, 1000, 606, 556, 556]

/-- `src/pdfmm/private/PdfStandard14FontData.cpp:995-1226`. -/
def helveticaWidths : List Nat := [
  278, 667, 1000, 667, 667, 667, 667, 667, 667, 667, 722, 722, 722, 667, 667, 667, 667, 667, 722, 667, 611, 778, 722, 278, 278, 278, 278, 278, 500,
  667, 556, 556, 833, 722, 722, 778, 1000, 778, 778, 778, 778, 778, 778, 667, 778, 722, 667, 667, 611, 667, 722, 722, 722, 722, 722, 667, 944, 667,
  667, 667, 667, 611, 611, 556, 556, 556, 333, 556, 889, 556, 667, 556, 469, 584, 389, 1015, 556, 556, 278, 260, 334, 334, 278, 278, 333, 260, 350,
  500, 333, 500, 333, 556, 333, 278, 278, 737, 556, 556, 556, 556, 400, 333, 584, 556, 333, 278, 556, 556, 556, 556, 556, 556, 1000, 1000, 556, 584,
  556, 278, 333, 278, 500, 556, 500, 556, 556, 167, 556, 611, 333, 584, 612, 612, 333, 366, 556, 333, 333, 222, 278, 278, 278, 278, 222, 500, 222,
  584, 584, 222, 833, 333, 584, 556, 584, 556, 556, 556, 556, 556, 556, 556, 556, 944, 333, 556, 556, 834, 834, 333, 370, 365, 611, 556, 556, 537,
  333, 333, 889, 278, 278, 1000, 584, 584, 556, 556, 611, 355, 333, 333, 333, 222, 222, 222, 191, 333, 737, 333, 500, 500, 556, 278, 556, 556, 278,
  278, 556, 278, 556, 556, 834, 333, 333, 1000, 556, 333, 556, 556, 556, 556, 556, 556, 500, 722, 500, 500, 500, 500, 556, 500, 500, 556]

/-- `src/pdfmm/private/PdfStandard14FontData.cpp:1228-1459`. -/
def helveticaObliqueWidths : List Nat := [
  278, 667, 1000, 667, 667, 667, 667, 667, 667, 667, 722, 722, 722, 667, 667, 667, 667, 667, 722, 667, 611, 778, 722, 278, 278, 278, 278, 278, 500,
  667, 556, 556, 833, 722, 722, 778, 1000, 778, 778, 778, 778, 778, 778, 667, 778, 722, 667, 667, 611, 667, 722, 722, 722, 722, 722, 667, 944, 667,
  667, 667, 667, 611, 611, 556, 556, 556, 333, 556, 889, 556, 667, 556, 469, 584, 389, 1116, 556, 556, 278, 260, 334, 334, 278, 278, 333, 260, 350,
  500, 333, 500, 333, 556, 333, 278, 278, 737, 556, 556, 556, 556, 400, 333, 584, 556, 333, 278, 556, 556, 556, 556, 556, 556, 1000, 1000, 556, 584,
  556, 278, 333, 278, 500, 556, 500, 556, 556, 167, 556, 611, 333, 584, 556, 556, 350, 333, 556, 333, 333, 222, 278, 278, 278, 278, 222, 500, 222,
  584, 584, 222, 833, 333, 584, 556, 584, 556, 556, 556, 556, 556, 556, 556, 556, 944, 333, 556, 556, 834, 834, 333, 370, 365, 611, 556, 556, 537,
  333, 333, 889, 278, 278, 1000, 584, 584, 556, 556, 611, 355, 333, 333, 333, 222, 222, 222, 191, 333, 737, 333, 500, 500, 556, 278, 556, 556, 278,
  278, 556, 278, 556, 556, 834, 333, 333, 1000, 556, 333, 556, 556, 556, 556, 556, 556, 500, 722, 500, 500, 500, 500, 556, 500, 500, 556]

/-- `src/pdfmm/private/PdfStandard14FontData.cpp:1461-1692`. -/
def helveticaBoldWidths : List Nat := [
  278, 278, 333, 333, 333, 333, 333, 333, 278, 167, 611, 611, 611, 278, 611, 500, 333, 474, 556, 556, 889, 722, 238, 333, 333, 389, 584, 278, 333,
  278, 278, 556, 556, 556, 556, 556, 556, 556, 556, 556, 556, 333, 333, 584, 584, 584, 611, 1072, 722, 722, 722, 722, 667, 611, 778, 722, 278, 556,
  722, 611, 833, 722, 778, 667, 778, 722, 667, 611, 722, 667, 944, 667, 667, 611, 333, 278, 333, 584, 556, 333, 556, 611, 556, 611, 556, 333, 611,
  611, 278, 278, 556, 278, 889, 611, 611, 611, 611, 389, 556, 333, 611, 556, 778, 556, 556, 500, 389, 280, 389, 584, 722, 278, 556, 500, 1000, 556,
  556, 333, 1000, 667, 333, 1000, 278, 278, 500, 500, 350, 556, 1000, 333, 1000, 556, 333, 944, 667, 333, 556, 556, 556, 556, 280, 556, 333, 737,
  370, 556, 584, 584, 737, 333, 400, 584, 333, 333, 333, 611, 556, 278, 333, 333, 365, 556, 834, 834, 834, 611, 722, 722, 722, 722, 722, 722, 1000,
  722, 667, 667, 667, 667, 278, 278, 278, 278, 722, 722, 778, 778, 778, 778, 778, 584, 778, 722, 722, 722, 722, 667, 667, 611, 556, 556, 556, 556,
  556, 556, 889, 556, 556, 556, 556, 556, 278, 278, 278, 278, 611, 611, 611, 611, 611, 611, 611, 584, 611, 611, 611, 611, 611, 556, 611, 556]

/-- `src/pdfmm/private/PdfStandard14FontData.cpp:1694-1925`. -/
def helveticaBoldObliqueWidths : List Nat := [
  278, 278, 333, 333, 333, 333, 333, 333, 278, 167, 611, 611, 611, 278, 611, 500, 333, 474, 556, 556, 889, 722, 238, 333, 333, 389, 584, 278, 333,
  278, 278, 556, 556, 556, 556, 556, 528, 556, 556, 556, 556, 333, 333, 584, 584, 584, 611, 1072, 722, 722, 722, 722, 667, 611, 778, 722, 278, 556,
  722, 611, 833, 722, 778, 667, 778, 722, 667, 611, 722, 667, 944, 667, 667, 611, 333, 278, 333, 584, 556, 333, 556, 611, 556, 611, 556, 333, 611,
  611, 278, 278, 556, 278, 889, 611, 611, 611, 611, 389, 556, 333, 611, 556, 778, 556, 556, 500, 389, 280, 389, 584, 722, 278, 556, 500, 1000, 556,
  556, 333, 1000, 667, 333, 1000, 278, 278, 500, 500, 350, 556, 1000, 333, 1000, 556, 333, 944, 667, 333, 556, 556, 556, 556, 280, 556, 333, 737,
  370, 556, 584, 584, 737, 333, 400, 584, 333, 333, 333, 611, 556, 278, 333, 333, 365, 556, 834, 834, 834, 611, 722, 722, 722, 722, 722, 722, 1000,
  722, 667, 667, 667, 667, 278, 278, 278, 278, 722, 722, 778, 778, 778, 778, 778, 584, 778, 722, 722, 722, 722, 667, 667, 611, 556, 556, 556, 556,
  556, 556, 889, 556, 556, 556, 556, 556, 278, 278, 278, 278, 611, 611, 611, 611, 611, 611, 611, 584, 519, 611, 611, 611, 611, 556, 611, 556]

/-- `src/pdfmm/private/PdfStandard14FontData.cpp:1927-2172`. -/
def courierWidths : List Nat := [
  600, 600, 600, 600, 600, 600, 600, 600, 600, 600, 600, 600, 600, 600, 600, 600, 600, 600, 600, 600, 600, 600, 600, 600, 600, 600, 600, 600, 600,
  600, 600, 600, 600, 600, 600, 600, 600, 600, 600, 600, 600, 600, 600, 600, 600, 600, 600, 600, 600, 600, 600, 600, 600, 600, 600, 600, 600, 600,
  600, 600, 600, 600, 600, 600, 600, 600, 600, 600, 600, 600, 600, 600, 600, 600, 600, 600, 600, 600, 600, 600, 600, 600, 600, 600, 600, 600, 600,
  600, 600, 600, 600, 600, 600, 600, 600, 600, 600, 600, 600, 600, 600, 600, 600, 600, 600, 600, 600, 600, 600, 600, 600, 600, 600, 600, 600, 600,
  600, 600, 600, 600, 600, 600, 600, 600, 600, 600, 600, 600, 600, 600, 600, 600, 600, 600, 600, 600, 600, 600, 600, 600, 600, 600, 600, 600, 600,
  600, 600, 600, 600, 600, 600, 600, 600, 600, 600, 600, 600, 600, 600, 600, 600, 600, 600, 600, 600, 600, 600, 600, 600, 600, 600, 600, 600, 600,
  600, 600, 600, 600, 600, 600, 600, 600, 600, 600, 600, 600, 600, 600, 600, 600, 600, 600, 600, 600, 600, 600, 600, 600, 600, 600, 600, 600, 600,
  600, 600, 600, 600, 600, 600, 600, 600, 600, 600, 600, 600, 600, 600, 600, 600, 600, 600, 600, 600, 600, 600, 600, 600, 600, 600, 600, 600, 600,
  600, 600, 600, 600, 600, 600, 600, 600, 600, 600, 600, 600]

/-- `src/pdfmm/private/PdfStandard14FontData.cpp:2174-2419`. -/
def courierObliqueWidths : List Nat := [
  600, 600, 600, 600, 600, 600, 600, 600, 600, 600, 600, 600, 600, 600, 600, 600, 600, 600, 600, 600, 600, 600, 600, 600, 600, 600, 600, 600, 600,
  600, 600, 600, 600, 600, 600, 600, 600, 600, 600, 600, 600, 600, 600, 600, 600, 600, 600, 600, 600, 600, 600, 600, 600, 600, 600, 600, 600, 600,
  600, 600, 600, 600, 600, 600, 600, 600, 600, 600, 600, 600, 600, 600, 600, 600, 600, 600, 600, 600, 600, 600, 600, 600, 600, 600, 600, 600, 600,
  600, 600, 600, 600, 600, 600, 600, 600, 600, 600, 600, 600, 600, 600, 600, 600, 600, 600, 600, 600, 600, 600, 600, 600, 600, 600, 600, 600, 600,
  600, 600, 600, 600, 600, 600, 600, 600, 600, 600, 600, 600, 600, 600, 600, 600, 600, 600, 600, 600, 600, 600, 600, 600, 600, 600, 600, 600, 600,
  600, 600, 600, 600, 600, 600, 600, 600, 600, 600, 600, 600, 600, 600, 600, 600, 600, 600, 600, 600, 600, 600, 600, 600, 600, 600, 600, 600, 600,
  600, 600, 600, 600, 600, 600, 600, 600, 600, 600, 600, 600, 600, 600, 600, 600, 600, 600, 600, 600, 600, 600, 600, 600, 600, 600, 600, 600, 600,
  600, 600, 600, 600, 600, 600, 600, 600, 600, 600, 600, 600, 600, 600, 600, 600, 600, 600, 600, 600, 600, 600, 600, 600, 600, 600, 600, 600, 600,
  600, 600, 600, 600, 600, 600, 600, 600, 600, 600, 600, 600]

/-- `src/pdfmm/private/PdfStandard14FontData.cpp:2421-2666`. -/
def courierBoldWidths : List Nat := [
  600, 600, 600, 600, 600, 600, 600, 600, 600, 600, 600, 600, 600, 600, 600, 600, 600, 600, 600, 600, 600, 600, 600, 600, 600, 600, 600, 600, 600,
  600, 600, 600, 600, 600, 600, 600, 600, 600, 600, 600, 600, 600, 600, 600, 600, 600, 600, 600, 600, 600, 600, 600, 600, 600, 600, 600, 600, 600,
  600, 600, 600, 600, 600, 600, 600, 600, 600, 600, 600, 600, 600, 600, 600, 600, 600, 600, 600, 600, 600, 600, 600, 600, 600, 600, 600, 600, 600,
  600, 600, 600, 600, 600, 600, 600, 600, 600, 600, 600, 600, 600, 600, 600, 600, 600, 600, 600, 600, 600, 600, 600, 600, 600, 600, 600, 600, 600,
  600, 600, 600, 600, 600, 600, 600, 600, 600, 600, 600, 600, 600, 600, 600, 600, 600, 600, 600, 600, 600, 600, 600, 600, 600, 600, 600, 600, 600,
  600, 600, 600, 600, 600, 600, 600, 600, 600, 600, 600, 600, 600, 600, 600, 600, 600, 600, 600, 600, 600, 600, 600, 600, 600, 600, 600, 600, 600,
  600, 600, 600, 600, 600, 600, 600, 600, 600, 600, 600, 600, 600, 600, 600, 600, 600, 600, 600, 600, 600, 600, 600, 600, 600, 600, 600, 600, 600,
  600, 600, 600, 600, 600, 600, 600, 600, 600, 600, 600, 600, 600, 600, 600, 600, 600, 600, 600, 600, 600, 600, 600, 600, 600, 600, 600, 600, 600,
  600, 600, 600, 600, 600, 600, 600, 600, 600, 600, 600, 600]

/-- `src/pdfmm/private/PdfStandard14FontData.cpp:2668-2913`. -/
def courierBoldObliqueWidths : List Nat := [
  600, 600, 600, 600, 600, 600, 600, 600, 600, 600, 600, 600, 600, 600, 600, 600, 600, 600, 600, 600, 600, 600, 600, 600, 600, 600, 600, 600, 600,
  600, 600, 600, 600, 600, 600, 600, 600, 600, 600, 600, 600, 600, 600, 600, 600, 600, 600, 600, 600, 600, 600, 600, 600, 600, 600, 600, 600, 600,
  600, 600, 600, 600, 600, 600, 600, 600, 600, 600, 600, 600, 600, 600, 600, 600, 600, 600, 600, 600, 600, 600, 600, 600, 600, 600, 600, 600, 600,
  600, 600, 600, 600, 600, 600, 600, 600, 600, 600, 600, 600, 600, 600, 600, 600, 600, 600, 600, 600, 600, 600, 600, 600, 600, 600, 600, 600, 600,
  600, 600, 600, 600, 600, 600, 600, 600, 600, 600, 600, 600, 600, 600, 600, 600, 600, 600, 600, 600, 600, 600, 600, 600, 600, 600, 600, 600, 600,
  600, 600, 600, 600, 600, 600, 600, 600, 600, 600, 600, 600, 600, 600, 600, 600, 600, 600, 600, 600, 600, 600, 600, 600, 600, 600, 600, 600, 600,
  600, 600, 600, 600, 600, 600, 600, 600, 600, 600, 600, 600, 600, 600, 600, 600, 600, 600, 600, 600, 600, 600, 600, 600, 600, 600, 600, 600, 600,
  600, 600, 600, 600, 600, 600, 600, 600, 600, 600, 600, 600, 600, 600, 600, 600, 600, 600, 600, 600, 600, 600, 600, 600, 600, 600, 600, 600, 600,
  600, 600, 600, 600, 600, 600, 600, 600, 600, 600, 600, 600]

/-- `src/pdfmm/private/PdfStandard14FontData.cpp:2915-3107`. -/
def symbolWidths : List Nat := [
  250, 250, 333, 500, 833, 778, 333, 333, 549, 250, 250, 278, 500, 500, 500, 500, 500, 500, 500, 500, 500, 500, 278, 278, 549, 549, 549, 444, 333,
  333, 500, 480, 200, 480, 713, 400, 549, 576, 549, 549, 500, 722, 667, 603, 611, 611, 722, 741, 333, 722, 686, 889, 722, 645, 722, 768, 556, 592,
  611, 690, 763, 722, 795, 631, 549, 411, 494, 439, 494, 603, 521, 329, 549, 549, 521, 493, 549, 549, 549, 439, 603, 439, 576, 521, 549, 686, 686,
  631, 620, 603, 713, 460, 1000, 247, 411, 167, 750, 686, 987, 795, 768, 823, 987, 603, 987, 603, 1042, 658, 987, 603, 987, 603, 1042, 713, 494, 549,
  823, 612, 713, 713, 713, 439, 823, 713, 549, 500, 549, 713, 713, 768, 603, 603, 768, 768, 274, 863, 549, 549, 549, 549, 549, 549, 549, 713, 713,
  713, 713, 713, 768, 768, 658, 250, 686, 686, 329, 329, 494, 753, 753, 753, 753, 790, 790, 890, 500, 603, 1000, 790, 790, 786, 384, 384, 384, 384,
  384, 384, 494, 494, 494, 494, 686, 384, 384, 384, 384, 384, 384, 494, 494, 494, 790]

/-- `src/pdfmm/private/PdfStandard14FontData.cpp:3109-3313`. -/
def zapfDingbatsWidths : List Nat := [
  278, 974, 692, 668, 732, 544, 544, 910, 911, 667, 760, 760, 626, 960, 694, 595, 776, 690, 791, 790, 939, 788, 788, 788, 788, 788, 788, 788, 788,
  788, 788, 549, 788, 788, 788, 788, 788, 788, 788, 788, 788, 788, 855, 788, 788, 788, 788, 788, 788, 788, 788, 788, 788, 911, 788, 788, 788, 788,
  788, 788, 788, 788, 788, 788, 933, 894, 838, 924, 1016, 458, 924, 918, 927, 928, 928, 945, 834, 873, 828, 924, 917, 930, 931, 463, 883, 836, 974,
  867, 696, 874, 760, 946, 865, 967, 831, 873, 927, 755, 970, 918, 748, 836, 771, 888, 748, 771, 888, 867, 961, 846, 696, 874, 974, 762, 759, 509,
  410, 762, 761, 571, 677, 763, 760, 759, 754, 786, 980, 788, 788, 790, 793, 794, 816, 823, 789, 841, 823, 719, 833, 816, 831, 923, 744, 723, 749,
  790, 792, 695, 789, 776, 768, 792, 759, 707, 708, 682, 701, 826, 815, 494, 789, 789, 707, 687, 696, 689, 786, 787, 713, 791, 552, 785, 791, 873,
  761, 762, 759, 892, 892, 788, 784, 537, 438, 138, 277, 415, 509, 410, 234, 234, 390, 577, 390, 276, 276, 317, 317, 334, 334, 392, 392, 668, 278]

/-- `src/pdfmm/private/PdfStandard14FontData.cpp:3576-3817`: code points and glyphs. -/
def timesRomanMap : List (Nat × Nat) := [
  (32, 1), (33, 2), (34, 3), (35, 4), (36, 5), (37, 6), (38, 7), (39, 8), (40, 9), (41, 10), (42, 11), (43, 12), (44, 13), (45, 14), (46, 15),
  (47, 16), (48, 17), (49, 18), (50, 19), (51, 20), (52, 21), (53, 22), (54, 23), (55, 24), (56, 25), (57, 26), (58, 27), (59, 28), (60, 29),
  (61, 30), (62, 31), (63, 32), (64, 33), (65, 34), (66, 35), (67, 36), (68, 37), (69, 38), (70, 39), (71, 40), (72, 41), (73, 42), (74, 43),
  (75, 44), (76, 45), (77, 46), (78, 47), (79, 48), (80, 49), (81, 50), (82, 51), (83, 52), (84, 53), (85, 54), (86, 55), (87, 56), (88, 57),
  (89, 58), (90, 59), (91, 60), (92, 61), (93, 62), (94, 63), (95, 64), (96, 65), (97, 66), (98, 67), (99, 68), (100, 69), (101, 70), (102, 71),
  (103, 72), (104, 73), (105, 74), (106, 75), (107, 76), (108, 77), (109, 78), (110, 79), (111, 80), (112, 81), (113, 82), (114, 83), (115, 84),
  (116, 85), (117, 86), (118, 87), (119, 88), (120, 89), (121, 90), (122, 91), (123, 92), (124, 93), (125, 94), (126, 95), (160, 1), (161, 96),
  (162, 97), (163, 98), (164, 99), (165, 100), (166, 101), (167, 102), (168, 103), (169, 104), (170, 105), (171, 106), (172, 107), (173, 14),
  (174, 108), (175, 109), (176, 110), (177, 111), (178, 112), (179, 113), (180, 114), (181, 115), (182, 116), (183, 117), (184, 118), (185, 119),
  (186, 120), (187, 121), (188, 122), (189, 123), (190, 124), (191, 125), (192, 126), (193, 127), (194, 128), (195, 129), (196, 130), (197, 131),
  (198, 132), (199, 133), (200, 134), (201, 135), (202, 136), (203, 137), (204, 138), (205, 139), (206, 140), (207, 141), (208, 142), (209, 143),
  (210, 144), (211, 145), (212, 146), (213, 147), (214, 148), (215, 149), (216, 150), (217, 151), (218, 152), (219, 153), (220, 154), (221, 155),
  (222, 156), (223, 157), (224, 158), (225, 159), (226, 160), (227, 161), (228, 162), (229, 163), (230, 164), (231, 165), (232, 166), (233, 167),
  (234, 168), (235, 169), (236, 170), (237, 171), (238, 172), (239, 173), (240, 174), (241, 175), (242, 176), (243, 177), (244, 178), (245, 179),
  (246, 180), (247, 181), (248, 182), (249, 183), (250, 184), (251, 185), (252, 186), (253, 187), (254, 188), (255, 189), (305, 190), (321, 191),
  (322, 192), (338, 193), (339, 194), (352, 195), (353, 196), (376, 197), (381, 198), (382, 199), (402, 200), (710, 201), (711, 202), (713, 109),
  (728, 203), (729, 204), (730, 205), (731, 206), (732, 207), (733, 208), (956, 115), (8211, 209), (8212, 210), (8216, 211), (8217, 212),
  (8218, 213), (8220, 214), (8221, 215), (8222, 216), (8224, 217), (8225, 218), (8226, 219), (8230, 220), (8240, 221), (8249, 222), (8250, 223),
  (8260, 224), (8364, 225), (8482, 226), (8722, 227), (8725, 224), (8729, 117), (64257, 228), (64258, 229)]

/-- `src/pdfmm/private/PdfStandard14FontData.cpp:3819-4059`: code points and glyphs. -/
def timesItalicMap : List (Nat × Nat) := [
  (32, 1), (33, 2), (34, 3), (35, 4), (36, 5), (37, 6), (38, 7), (39, 8), (40, 9), (41, 10), (42, 11), (43, 12), (44, 13), (45, 14), (46, 15),
  (47, 16), (48, 17), (49, 18), (50, 19), (51, 20), (52, 21), (53, 22), (54, 23), (55, 24), (56, 25), (57, 26), (58, 27), (59, 28), (60, 29),
  (61, 30), (62, 31), (63, 32), (64, 33), (65, 34), (66, 35), (67, 36), (68, 37), (69, 38), (70, 39), (71, 40), (72, 41), (73, 42), (74, 43),
  (75, 44), (76, 45), (77, 46), (78, 47), (79, 48), (80, 49), (81, 50), (82, 51), (83, 52), (84, 53), (85, 54), (86, 55), (87, 56), (88, 57),
  (89, 58), (90, 59), (91, 60), (92, 61), (93, 62), (94, 63), (95, 64), (96, 65), (97, 66), (98, 67), (99, 68), (100, 69), (101, 70), (102, 71),
  (103, 72), (104, 73), (105, 74), (106, 75), (107, 76), (108, 77), (109, 78), (110, 79), (111, 80), (112, 81), (113, 82), (114, 83), (115, 84),
  (116, 85), (117, 86), (118, 87), (119, 88), (120, 89), (121, 90), (122, 91), (123, 92), (124, 93), (125, 94), (126, 95), (160, 1), (161, 96),
  (162, 97), (163, 98), (164, 99), (165, 100), (166, 101), (167, 102), (168, 103), (169, 104), (170, 105), (171, 106), (172, 107), (173, 14),
  (174, 108), (175, 109), (176, 110), (177, 111), (178, 112), (179, 113), (180, 114), (181, 115), (182, 116), (183, 117), (184, 118), (185, 119),
  (186, 120), (187, 121), (188, 122), (189, 123), (190, 124), (191, 125), (192, 126), (193, 127), (194, 128), (195, 129), (196, 130), (197, 131),
  (198, 132), (199, 133), (200, 134), (201, 135), (202, 136), (203, 137), (204, 138), (205, 139), (206, 140), (207, 141), (208, 142), (209, 143),
  (210, 144), (211, 145), (212, 146), (213, 147), (214, 148), (215, 149), (216, 150), (217, 151), (218, 152), (219, 153), (220, 154), (221, 155),
  (222, 156), (223, 157), (224, 158), (225, 159), (226, 160), (227, 161), (228, 162), (229, 163), (230, 164), (231, 165), (232, 166), (233, 167),
  (234, 168), (235, 169), (236, 170), (237, 171), (238, 172), (239, 173), (240, 174), (241, 175), (242, 176), (243, 177), (244, 178), (245, 179),
  (246, 180), (247, 181), (248, 182), (249, 183), (250, 184), (251, 185), (252, 186), (253, 187), (254, 188), (255, 189), (305, 190), (321, 191),
  (322, 192), (338, 193), (339, 194), (352, 195), (353, 196), (376, 197), (381, 198), (382, 199), (402, 200), (710, 201), (711, 202), (713, 109),
  (728, 203), (729, 204), (730, 205), (731, 206), (732, 207), (733, 208), (956, 115), (8211, 209), (8212, 210), (8216, 211), (8217, 212),
  (8218, 213), (8220, 214), (8221, 215), (8222, 216), (8224, 217), (8225, 218), (8226, 219), (8230, 220), (8240, 221), (8249, 222), (8250, 223),
  (8260, 224), (8364, 225), (8482, 226), (8722, 227), (8725, 224), (8729, 117), (64257, 228), (64258, 229)]

/-- `src/pdfmm/private/PdfStandard14FontData.cpp:4061-4301`: code points and glyphs. -/
def timesBoldMap : List (Nat × Nat) := [
  (32, 1), (33, 2), (34, 3), (35, 4), (36, 5), (37, 6), (38, 7), (39, 8), (40, 9), (41, 10), (42, 11), (43, 12), (44, 13), (45, 14), (46, 15),
  (47, 16), (48, 17), (49, 18), (50, 19), (51, 20), (52, 21), (53, 22), (54, 23), (55, 24), (56, 25), (57, 26), (58, 27), (59, 28), (60, 29),
  (61, 30), (62, 31), (63, 32), (64, 33), (65, 34), (66, 35), (67, 36), (68, 37), (69, 38), (70, 39), (71, 40), (72, 41), (73, 42), (74, 43),
  (75, 44), (76, 45), (77, 46), (78, 47), (79, 48), (80, 49), (81, 50), (82, 51), (83, 52), (84, 53), (85, 54), (86, 55), (87, 56), (88, 57),
  (89, 58), (90, 59), (91, 60), (92, 61), (93, 62), (94, 63), (95, 64), (96, 65), (97, 66), (98, 67), (99, 68), (100, 69), (101, 70), (102, 71),
  (103, 72), (104, 73), (105, 74), (106, 75), (107, 76), (108, 77), (109, 78), (110, 79), (111, 80), (112, 81), (113, 82), (114, 83), (115, 84),
  (116, 85), (117, 86), (118, 87), (119, 88), (120, 89), (121, 90), (122, 91), (123, 92), (124, 93), (125, 94), (126, 95), (160, 1), (161, 96),
  (162, 97), (163, 98), (164, 99), (165, 100), (166, 101), (167, 102), (168, 103), (169, 104), (170, 105), (171, 106), (172, 107), (173, 14),
  (174, 108), (175, 109), (176, 110), (177, 111), (178, 112), (179, 113), (180, 114), (181, 115), (182, 116), (183, 117), (184, 118), (185, 119),
  (186, 120), (187, 121), (188, 122), (189, 123), (190, 124), (191, 125), (192, 126), (193, 127), (194, 128), (195, 129), (196, 130), (197, 131),
  (198, 132), (199, 133), (200, 134), (201, 135), (202, 136), (203, 137), (204, 138), (205, 139), (206, 140), (207, 141), (208, 142), (209, 143),
  (210, 144), (211, 145), (212, 146), (213, 147), (214, 148), (215, 149), (216, 150), (217, 151), (218, 152), (219, 153), (220, 154), (221, 155),
  (222, 156), (223, 157), (224, 158), (225, 159), (226, 160), (227, 161), (228, 162), (229, 163), (230, 164), (231, 165), (232, 166), (233, 167),
  (234, 168), (235, 169), (236, 170), (237, 171), (238, 172), (239, 173), (240, 174), (241, 175), (242, 176), (243, 177), (244, 178), (245, 179),
  (246, 180), (247, 181), (248, 182), (249, 183), (250, 184), (251, 185), (252, 186), (253, 187), (254, 188), (255, 189), (305, 190), (321, 191),
  (322, 192), (338, 193), (339, 194), (352, 195), (353, 196), (376, 197), (381, 198), (382, 199), (402, 200), (710, 201), (711, 202), (713, 109),
  (728, 203), (729, 204), (730, 205), (731, 206), (732, 207), (733, 208), (956, 115), (8211, 209), (8212, 210), (8216, 211), (8217, 212),
  (8218, 213), (8220, 214), (8221, 215), (8222, 216), (8224, 217), (8225, 218), (8226, 219), (8230, 220), (8240, 221), (8249, 222), (8250, 223),
  (8260, 224), (8364, 225), (8482, 226), (8722, 227), (8725, 224), (8729, 117), (64257, 228), (64258, 229)]

/-- `src/pdfmm/private/PdfStandard14FontData.cpp:4303-4543`: code points and glyphs. -/
def timesBoldItalicMap : List (Nat × Nat) := [
  (32, 1), (33, 2), (34, 3), (35, 4), (36, 5), (37, 6), (38, 7), (39, 8), (40, 9), (41, 10), (42, 11), (43, 12), (44, 13), (45, 14), (46, 15),
  (47, 16), (48, 17), (49, 18), (50, 19), (51, 20), (52, 21), (53, 22), (54, 23), (55, 24), (56, 25), (57, 26), (58, 27), (59, 28), (60, 29),
  (61, 30), (62, 31), (63, 32), (64, 33), (65, 34), (66, 35), (67, 36), (68, 37), (69, 38), (70, 39), (71, 40), (72, 41), (73, 42), (74, 43),
  (75, 44), (76, 45), (77, 46), (78, 47), (79, 48), (80, 49), (81, 50), (82, 51), (83, 52), (84, 53), (85, 54), (86, 55), (87, 56), (88, 57),
  (89, 58), (90, 59), (91, 60), (92, 61), (93, 62), (94, 63), (95, 64), (96, 65), (97, 66), (98, 67), (99, 68), (100, 69), (101, 70), (102, 71),
  (103, 72), (104, 73), (105, 74), (106, 75), (107, 76), (108, 77), (109, 78), (110, 79), (111, 80), (112, 81), (113, 82), (114, 83), (115, 84),
  (116, 85), (117, 86), (118, 87), (119, 88), (120, 89), (121, 90), (122, 91), (123, 92), (124, 93), (125, 94), (126, 95), (160, 1), (161, 96),
  (162, 97), (163, 98), (164, 99), (165, 100), (166, 101), (167, 102), (168, 103), (169, 104), (170, 105), (171, 106), (172, 107), (173, 14),
  (174, 108), (175, 109), (176, 110), (177, 111), (178, 112), (179, 113), (180, 114), (181, 115), (182, 116), (183, 117), (184, 118), (185, 119),
  (186, 120), (187, 121), (188, 122), (189, 123), (190, 124), (191, 125), (192, 126), (193, 127), (194, 128), (195, 129), (196, 130), (197, 131),
  (198, 132), (199, 133), (200, 134), (201, 135), (202, 136), (203, 137), (204, 138), (205, 139), (206, 140), (207, 141), (208, 142), (209, 143),
  (210, 144), (211, 145), (212, 146), (213, 147), (214, 148), (215, 149), (216, 150), (217, 151), (218, 152), (219, 153), (220, 154), (221, 155),
  (222, 156), (223, 157), (224, 158), (225, 159), (226, 160), (227, 161), (228, 162), (229, 163), (230, 164), (231, 165), (232, 166), (233, 167),
  (234, 168), (235, 169), (236, 170), (237, 171), (238, 172), (239, 173), (240, 174), (241, 175), (242, 176), (243, 177), (244, 178), (245, 179),
  (246, 180), (247, 181), (248, 182), (249, 183), (250, 184), (251, 185), (252, 186), (253, 187), (254, 188), (255, 189), (305, 190), (321, 191),
  (322, 192), (338, 193), (339, 194), (352, 195), (353, 196), (376, 197), (381, 198), (382, 199), (402, 200), (710, 201), (711, 202), (713, 109),
  (728, 203), (729, 204), (730, 205), (731, 206), (732, 207), (733, 208), (956, 115), (8211, 209), (8212, 210), (8216, 211), (8217, 212),
  (8218, 213), (8220, 214), (8221, 215), (8222, 216), (8224, 217), (8225, 218), (8226, 219), (8230, 220), (8240, 221), (8249, 222), (8250, 223),
  (8260, 224), (8364, 225), (8482, 226), (8722, 227), (8725, 224), (8729, 117), (64257, 228), (64258, 229)]

/-- `src/pdfmm/private/PdfStandard14FontData.cpp:4545-4785`: code points and glyphs. -/
def helveticaMap : List (Nat × Nat) := [
  (32, 203), (33, 117), (34, 185), (35, 156), (36, 103), (37, 176), (38, 70), (39, 192), (40, 174), (41, 175), (42, 74), (43, 180), (44, 94),
  (45, 136), (46, 177), (47, 202), (48, 229), (49, 164), (50, 212), (51, 207), (52, 124), (53, 121), (54, 201), (55, 200), (56, 111), (57, 154),
  (58, 93), (59, 199), (60, 145), (61, 115), (62, 129), (63, 183), (64, 75), (65, 1), (66, 9), (67, 10), (68, 12), (69, 13), (70, 20), (71, 21),
  (72, 22), (73, 23), (74, 28), (75, 29), (76, 30), (77, 32), (78, 33), (79, 35), (80, 43), (81, 44), (82, 45), (83, 46), (84, 48), (85, 50),
  (86, 55), (87, 56), (88, 57), (89, 58), (90, 61), (91, 82), (92, 78), (93, 83), (94, 72), (95, 219), (96, 128), (97, 63), (98, 77), (99, 87),
  (100, 97), (101, 106), (102, 119), (103, 126), (104, 134), (105, 137), (106, 142), (107, 143), (108, 144), (109, 148), (110, 153), (111, 157),
  (112, 172), (113, 182), (114, 193), (115, 196), (116, 205), (117, 214), (118, 220), (119, 221), (120, 222), (121, 223), (122, 227), (123, 80),
  (124, 79), (125, 81), (126, 73), (160, 203), (161, 118), (162, 91), (163, 204), (164, 96), (165, 226), (166, 85), (167, 198), (168, 101),
  (169, 95), (170, 168), (171, 130), (172, 146), (173, 136), (174, 194), (175, 149), (176, 100), (177, 181), (178, 213), (179, 209), (180, 66),
  (181, 151), (182, 173), (183, 178), (184, 90), (185, 167), (186, 169), (187, 131), (188, 166), (189, 165), (190, 208), (191, 184), (192, 6),
  (193, 3), (194, 4), (195, 8), (196, 5), (197, 7), (198, 2), (199, 11), (200, 17), (201, 14), (202, 15), (203, 16), (204, 27), (205, 24), (206, 25),
  (207, 26), (208, 18), (209, 34), (210, 40), (211, 37), (212, 38), (213, 42), (214, 39), (215, 152), (216, 41), (217, 54), (218, 51), (219, 52),
  (220, 53), (221, 59), (222, 49), (223, 127), (224, 69), (225, 64), (226, 65), (227, 76), (228, 67), (229, 71), (230, 68), (231, 89), (232, 110),
  (233, 107), (234, 108), (235, 109), (236, 141), (237, 138), (238, 139), (239, 140), (240, 116), (241, 155), (242, 163), (243, 158), (244, 159),
  (245, 171), (246, 160), (247, 102), (248, 170), (249, 218), (250, 215), (251, 216), (252, 217), (253, 224), (254, 206), (255, 225), (305, 105),
  (321, 31), (322, 147), (338, 36), (339, 161), (352, 47), (353, 197), (376, 60), (381, 62), (382, 228), (402, 123), (710, 92), (711, 88),
  (713, 149), (728, 84), (729, 104), (730, 195), (731, 162), (732, 210), (733, 135), (956, 151), (8211, 114), (8212, 113), (8216, 189), (8217, 190),
  (8218, 191), (8220, 187), (8221, 188), (8222, 186), (8224, 98), (8225, 99), (8226, 86), (8230, 112), (8240, 179), (8249, 132), (8250, 133),
  (8260, 125), (8364, 19), (8482, 211), (8722, 150), (8725, 125), (8729, 178), (64257, 120), (64258, 122)]

/-- `src/pdfmm/private/PdfStandard14FontData.cpp:4787-5027`: code points and glyphs. -/
def helveticaObliqueMap : List (Nat × Nat) := [
  (32, 203), (33, 117), (34, 185), (35, 156), (36, 103), (37, 176), (38, 70), (39, 192), (40, 174), (41, 175), (42, 74), (43, 180), (44, 94),
  (45, 136), (46, 177), (47, 202), (48, 229), (49, 164), (50, 212), (51, 207), (52, 124), (53, 121), (54, 201), (55, 200), (56, 111), (57, 154),
  (58, 93), (59, 199), (60, 145), (61, 115), (62, 129), (63, 183), (64, 75), (65, 1), (66, 9), (67, 10), (68, 12), (69, 13), (70, 20), (71, 21),
  (72, 22), (73, 23), (74, 28), (75, 29), (76, 30), (77, 32), (78, 33), (79, 35), (80, 43), (81, 44), (82, 45), (83, 46), (84, 48), (85, 50),
  (86, 55), (87, 56), (88, 57), (89, 58), (90, 61), (91, 82), (92, 78), (93, 83), (94, 72), (95, 219), (96, 128), (97, 63), (98, 77), (99, 87),
  (100, 97), (101, 106), (102, 119), (103, 126), (104, 134), (105, 137), (106, 142), (107, 143), (108, 144), (109, 148), (110, 153), (111, 157),
  (112, 172), (113, 182), (114, 193), (115, 196), (116, 205), (117, 214), (118, 220), (119, 221), (120, 222), (121, 223), (122, 227), (123, 80),
  (124, 79), (125, 81), (126, 73), (160, 203), (161, 118), (162, 91), (163, 204), (164, 96), (165, 226), (166, 85), (167, 198), (168, 101),
  (169, 95), (170, 168), (171, 130), (172, 146), (173, 136), (174, 194), (175, 149), (176, 100), (177, 181), (178, 213), (179, 209), (180, 66),
  (181, 151), (182, 173), (183, 178), (184, 90), (185, 167), (186, 169), (187, 131), (188, 166), (189, 165), (190, 208), (191, 184), (192, 6),
  (193, 3), (194, 4), (195, 8), (196, 5), (197, 7), (198, 2), (199, 11), (200, 17), (201, 14), (202, 15), (203, 16), (204, 27), (205, 24), (206, 25),
  (207, 26), (208, 18), (209, 34), (210, 40), (211, 37), (212, 38), (213, 42), (214, 39), (215, 152), (216, 41), (217, 54), (218, 51), (219, 52),
  (220, 53), (221, 59), (222, 49), (223, 127), (224, 69), (225, 64), (226, 65), (227, 76), (228, 67), (229, 71), (230, 68), (231, 89), (232, 110),
  (233, 107), (234, 108), (235, 109), (236, 141), (237, 138), (238, 139), (239, 140), (240, 116), (241, 155), (242, 163), (243, 158), (244, 159),
  (245, 171), (246, 160), (247, 102), (248, 170), (249, 218), (250, 215), (251, 216), (252, 217), (253, 224), (254, 206), (255, 225), (305, 105),
  (321, 31), (322, 147), (338, 36), (339, 161), (352, 47), (353, 197), (376, 60), (381, 62), (382, 228), (402, 123), (710, 92), (711, 88),
  (713, 149), (728, 84), (729, 104), (730, 195), (731, 162), (732, 210), (733, 135), (956, 151), (8211, 114), (8212, 113), (8216, 189), (8217, 190),
  (8218, 191), (8220, 187), (8221, 188), (8222, 186), (8224, 98), (8225, 99), (8226, 86), (8230, 112), (8240, 179), (8249, 132), (8250, 133),
  (8260, 125), (8364, 19), (8482, 211), (8722, 150), (8725, 125), (8729, 178), (64257, 120), (64258, 122)]

/-- `src/pdfmm/private/PdfStandard14FontData.cpp:5029-5269`: code points and glyphs. -/
def helveticaBoldMap : List (Nat × Nat) := [
  (32, 1), (33, 16), (34, 17), (35, 18), (36, 19), (37, 20), (38, 21), (39, 22), (40, 23), (41, 24), (42, 25), (43, 26), (44, 27), (45, 28),
  (46, 29), (47, 30), (48, 31), (49, 32), (50, 33), (51, 34), (52, 35), (53, 36), (54, 37), (55, 38), (56, 39), (57, 40), (58, 41), (59, 42),
  (60, 43), (61, 44), (62, 45), (63, 46), (64, 47), (65, 48), (66, 49), (67, 50), (68, 51), (69, 52), (70, 53), (71, 54), (72, 55), (73, 56),
  (74, 57), (75, 58), (76, 59), (77, 60), (78, 61), (79, 62), (80, 63), (81, 64), (82, 65), (83, 66), (84, 67), (85, 68), (86, 69), (87, 70),
  (88, 71), (89, 72), (90, 73), (91, 74), (92, 75), (93, 76), (94, 77), (95, 78), (96, 79), (97, 80), (98, 81), (99, 82), (100, 83), (101, 84),
  (102, 85), (103, 86), (104, 87), (105, 88), (106, 89), (107, 90), (108, 91), (109, 92), (110, 93), (111, 94), (112, 95), (113, 96), (114, 97),
  (115, 98), (116, 99), (117, 100), (118, 101), (119, 102), (120, 103), (121, 104), (122, 105), (123, 106), (124, 107), (125, 108), (126, 109),
  (160, 1), (161, 135), (162, 136), (163, 137), (164, 138), (165, 139), (166, 140), (167, 141), (168, 142), (169, 143), (170, 144), (171, 145),
  (172, 146), (173, 28), (174, 148), (175, 149), (176, 150), (177, 151), (178, 152), (179, 153), (180, 154), (181, 155), (182, 156), (183, 157),
  (184, 158), (185, 159), (186, 160), (187, 161), (188, 162), (189, 163), (190, 164), (191, 165), (192, 166), (193, 167), (194, 168), (195, 169),
  (196, 170), (197, 171), (198, 172), (199, 173), (200, 174), (201, 175), (202, 176), (203, 177), (204, 178), (205, 179), (206, 180), (207, 181),
  (208, 182), (209, 183), (210, 184), (211, 185), (212, 186), (213, 187), (214, 188), (215, 189), (216, 190), (217, 191), (218, 192), (219, 193),
  (220, 194), (221, 195), (222, 196), (223, 197), (224, 198), (225, 199), (226, 200), (227, 201), (228, 202), (229, 203), (230, 204), (231, 205),
  (232, 206), (233, 207), (234, 208), (235, 209), (236, 210), (237, 211), (238, 212), (239, 213), (240, 214), (241, 215), (242, 216), (243, 217),
  (244, 218), (245, 219), (246, 220), (247, 221), (248, 222), (249, 223), (250, 224), (251, 225), (252, 226), (253, 227), (254, 228), (255, 229),
  (305, 8), (321, 12), (322, 13), (338, 121), (339, 133), (352, 119), (353, 131), (376, 134), (381, 14), (382, 15), (402, 112), (710, 117), (711, 7),
  (713, 149), (728, 2), (729, 3), (730, 4), (731, 6), (732, 129), (733, 5), (956, 155), (8211, 127), (8212, 128), (8216, 122), (8217, 123),
  (8218, 111), (8220, 124), (8221, 125), (8222, 113), (8224, 115), (8225, 116), (8226, 126), (8230, 114), (8240, 118), (8249, 120), (8250, 132),
  (8260, 9), (8364, 110), (8482, 130), (8722, 147), (8725, 9), (8729, 157), (64257, 10), (64258, 11)]

/-- `src/pdfmm/private/PdfStandard14FontData.cpp:5271-5511`: code points and glyphs. -/
def helveticaBoldObliqueMap : List (Nat × Nat) := [
  (32, 1), (33, 16), (34, 17), (35, 18), (36, 19), (37, 20), (38, 21), (39, 22), (40, 23), (41, 24), (42, 25), (43, 26), (44, 27), (45, 28),
  (46, 29), (47, 30), (48, 31), (49, 32), (50, 33), (51, 34), (52, 35), (53, 36), (54, 37), (55, 38), (56, 39), (57, 40), (58, 41), (59, 42),
  (60, 43), (61, 44), (62, 45), (63, 46), (64, 47), (65, 48), (66, 49), (67, 50), (68, 51), (69, 52), (70, 53), (71, 54), (72, 55), (73, 56),
  (74, 57), (75, 58), (76, 59), (77, 60), (78, 61), (79, 62), (80, 63), (81, 64), (82, 65), (83, 66), (84, 67), (85, 68), (86, 69), (87, 70),
  (88, 71), (89, 72), (90, 73), (91, 74), (92, 75), (93, 76), (94, 77), (95, 78), (96, 79), (97, 80), (98, 81), (99, 82), (100, 83), (101, 84),
  (102, 85), (103, 86), (104, 87), (105, 88), (106, 89), (107, 90), (108, 91), (109, 92), (110, 93), (111, 94), (112, 95), (113, 96), (114, 97),
  (115, 98), (116, 99), (117, 100), (118, 101), (119, 102), (120, 103), (121, 104), (122, 105), (123, 106), (124, 107), (125, 108), (126, 109),
  (160, 1), (161, 135), (162, 136), (163, 137), (164, 138), (165, 139), (166, 140), (167, 141), (168, 142), (169, 143), (170, 144), (171, 145),
  (172, 146), (173, 28), (174, 148), (175, 149), (176, 150), (177, 151), (178, 152), (179, 153), (180, 154), (181, 155), (182, 156), (183, 157),
  (184, 158), (185, 159), (186, 160), (187, 161), (188, 162), (189, 163), (190, 164), (191, 165), (192, 166), (193, 167), (194, 168), (195, 169),
  (196, 170), (197, 171), (198, 172), (199, 173), (200, 174), (201, 175), (202, 176), (203, 177), (204, 178), (205, 179), (206, 180), (207, 181),
  (208, 182), (209, 183), (210, 184), (211, 185), (212, 186), (213, 187), (214, 188), (215, 189), (216, 190), (217, 191), (218, 192), (219, 193),
  (220, 194), (221, 195), (222, 196), (223, 197), (224, 198), (225, 199), (226, 200), (227, 201), (228, 202), (229, 203), (230, 204), (231, 205),
  (232, 206), (233, 207), (234, 208), (235, 209), (236, 210), (237, 211), (238, 212), (239, 213), (240, 214), (241, 215), (242, 216), (243, 217),
  (244, 218), (245, 219), (246, 220), (247, 221), (248, 222), (249, 223), (250, 224), (251, 225), (252, 226), (253, 227), (254, 228), (255, 229),
  (305, 8), (321, 12), (322, 13), (338, 121), (339, 133), (352, 119), (353, 131), (376, 134), (381, 14), (382, 15), (402, 112), (710, 117), (711, 7),
  (713, 149), (728, 2), (729, 3), (730, 4), (731, 6), (732, 129), (733, 5), (956, 155), (8211, 127), (8212, 128), (8216, 122), (8217, 123),
  (8218, 111), (8220, 124), (8221, 125), (8222, 113), (8224, 115), (8225, 116), (8226, 126), (8230, 114), (8240, 118), (8249, 120), (8250, 132),
  (8260, 9), (8364, 110), (8482, 130), (8722, 147), (8725, 9), (8729, 157), (64257, 10), (64258, 11)]

/-- `src/pdfmm/private/PdfStandard14FontData.cpp:5513-5767`: code points and glyphs. -/
def courierMap : List (Nat × Nat) := [
  (32, 217), (33, 126), (34, 198), (35, 168), (36, 112), (37, 188), (38, 74), (39, 205), (40, 186), (41, 187), (42, 83), (43, 192), (44, 103),
  (45, 146), (46, 189), (47, 216), (48, 243), (49, 176), (50, 226), (51, 221), (52, 133), (53, 130), (54, 215), (55, 214), (56, 120), (57, 166),
  (58, 102), (59, 213), (60, 156), (61, 124), (62, 139), (63, 196), (64, 84), (65, 1), (66, 9), (67, 10), (68, 12), (69, 13), (70, 20), (71, 21),
  (72, 23), (73, 24), (74, 31), (75, 32), (76, 33), (77, 35), (78, 36), (79, 38), (80, 46), (81, 47), (82, 48), (83, 49), (84, 52), (85, 54),
  (86, 59), (87, 60), (88, 61), (89, 62), (90, 65), (91, 91), (92, 87), (93, 92), (94, 81), (95, 233), (96, 138), (97, 67), (98, 86), (99, 96),
  (100, 106), (101, 115), (102, 128), (103, 135), (104, 144), (105, 147), (106, 153), (107, 154), (108, 155), (109, 160), (110, 165), (111, 169),
  (112, 184), (113, 195), (114, 206), (115, 209), (116, 219), (117, 228), (118, 234), (119, 235), (120, 236), (121, 237), (122, 241), (123, 89),
  (124, 88), (125, 90), (126, 82), (160, 217), (161, 127), (162, 100), (163, 218), (164, 105), (165, 240), (166, 94), (167, 212), (168, 110),
  (169, 104), (170, 180), (171, 140), (172, 158), (173, 146), (174, 207), (175, 161), (176, 109), (177, 193), (178, 227), (179, 223), (180, 70),
  (181, 163), (182, 185), (183, 190), (184, 99), (185, 179), (186, 181), (187, 141), (188, 178), (189, 177), (190, 222), (191, 197), (192, 6),
  (193, 3), (194, 4), (195, 8), (196, 5), (197, 7), (198, 2), (199, 11), (200, 17), (201, 14), (202, 15), (203, 16), (204, 30), (205, 26), (206, 27),
  (207, 28), (208, 18), (209, 37), (210, 43), (211, 40), (212, 41), (213, 45), (214, 42), (215, 164), (216, 44), (217, 58), (218, 55), (219, 56),
  (220, 57), (221, 63), (222, 53), (223, 137), (224, 73), (225, 68), (226, 69), (227, 85), (228, 71), (229, 75), (230, 72), (231, 98), (232, 119),
  (233, 116), (234, 117), (235, 118), (236, 151), (237, 148), (238, 149), (239, 150), (240, 125), (241, 167), (242, 175), (243, 170), (244, 171),
  (245, 183), (246, 172), (247, 111), (248, 182), (249, 232), (250, 229), (251, 230), (252, 231), (253, 238), (254, 220), (255, 239), (304, 29),
  (305, 114), (306, 25), (307, 152), (321, 34), (322, 159), (338, 39), (339, 173), (350, 51), (351, 211), (352, 50), (353, 210), (376, 64),
  (381, 66), (382, 242), (402, 132), (486, 22), (487, 136), (710, 101), (711, 97), (713, 161), (728, 93), (729, 113), (730, 208), (731, 174),
  (732, 224), (733, 145), (956, 163), (8211, 123), (8212, 122), (8216, 202), (8217, 203), (8218, 204), (8220, 200), (8221, 201), (8222, 199),
  (8224, 107), (8225, 108), (8226, 95), (8230, 121), (8240, 191), (8249, 142), (8250, 143), (8260, 134), (8356, 157), (8364, 19), (8478, 194),
  (8482, 225), (8592, 78), (8593, 80), (8594, 79), (8595, 77), (8596, 76), (8722, 162), (8725, 134), (8729, 190), (64257, 129), (64258, 131)]

/-- `src/pdfmm/private/PdfStandard14FontData.cpp:5769-6023`: code points and glyphs. -/
def courierObliqueMap : List (Nat × Nat) := [
  (32, 1), (33, 2), (34, 3), (35, 4), (36, 5), (37, 6), (38, 7), (39, 8), (40, 9), (41, 10), (42, 11), (43, 12), (44, 13), (45, 14), (46, 15),
  (47, 16), (48, 17), (49, 18), (50, 19), (51, 20), (52, 21), (53, 22), (54, 23), (55, 24), (56, 25), (57, 26), (58, 27), (59, 28), (60, 29),
  (61, 30), (62, 31), (63, 32), (64, 33), (65, 34), (66, 35), (67, 36), (68, 37), (69, 38), (70, 39), (71, 40), (72, 41), (73, 42), (74, 43),
  (75, 44), (76, 45), (77, 46), (78, 47), (79, 48), (80, 49), (81, 50), (82, 51), (83, 52), (84, 53), (85, 54), (86, 55), (87, 56), (88, 57),
  (89, 58), (90, 59), (91, 60), (92, 61), (93, 62), (94, 63), (95, 64), (96, 65), (97, 66), (98, 67), (99, 68), (100, 69), (101, 70), (102, 71),
  (103, 72), (104, 73), (105, 74), (106, 75), (107, 76), (108, 77), (109, 78), (110, 79), (111, 80), (112, 81), (113, 82), (114, 83), (115, 84),
  (116, 85), (117, 86), (118, 87), (119, 88), (120, 89), (121, 90), (122, 91), (123, 92), (124, 93), (125, 94), (126, 95), (160, 1), (161, 96),
  (162, 97), (163, 98), (164, 99), (165, 100), (166, 101), (167, 102), (168, 103), (169, 104), (170, 105), (171, 106), (172, 107), (173, 14),
  (174, 108), (175, 109), (176, 110), (177, 111), (178, 112), (179, 113), (180, 114), (181, 115), (182, 116), (183, 117), (184, 118), (185, 119),
  (186, 120), (187, 121), (188, 122), (189, 123), (190, 124), (191, 125), (192, 126), (193, 127), (194, 128), (195, 129), (196, 130), (197, 131),
  (198, 132), (199, 133), (200, 134), (201, 135), (202, 136), (203, 137), (204, 138), (205, 139), (206, 140), (207, 141), (208, 142), (209, 143),
  (210, 144), (211, 145), (212, 146), (213, 147), (214, 148), (215, 149), (216, 150), (217, 151), (218, 152), (219, 153), (220, 154), (221, 155),
  (222, 156), (223, 157), (224, 158), (225, 160), (226, 159), (227, 161), (228, 162), (229, 163), (230, 164), (231, 165), (232, 166), (233, 167),
  (234, 168), (235, 169), (236, 170), (237, 171), (238, 172), (239, 173), (240, 174), (241, 175), (242, 176), (243, 177), (244, 178), (245, 179),
  (246, 180), (247, 181), (248, 182), (249, 183), (250, 184), (251, 185), (252, 186), (253, 187), (254, 188), (255, 189), (304, 190), (305, 191),
  (306, 192), (307, 193), (321, 194), (322, 195), (338, 196), (339, 197), (350, 198), (351, 199), (352, 200), (353, 201), (376, 202), (381, 203),
  (382, 204), (402, 205), (486, 206), (487, 207), (710, 208), (711, 209), (713, 109), (728, 210), (729, 211), (730, 212), (731, 213), (732, 214),
  (733, 215), (956, 115), (8211, 216), (8212, 217), (8216, 218), (8217, 219), (8218, 220), (8220, 221), (8221, 222), (8222, 223), (8224, 224),
  (8225, 225), (8226, 226), (8230, 227), (8240, 228), (8249, 229), (8250, 230), (8260, 231), (8356, 232), (8364, 233), (8478, 234), (8482, 235),
  (8592, 236), (8593, 237), (8594, 238), (8595, 239), (8596, 240), (8722, 241), (8725, 231), (8729, 117), (64257, 242), (64258, 243)]

/-- `src/pdfmm/private/PdfStandard14FontData.cpp:6025-6279`: code points and glyphs. -/
def courierBoldMap : List (Nat × Nat) := [
  (32, 1), (33, 2), (34, 3), (35, 4), (36, 5), (37, 6), (38, 7), (39, 8), (40, 9), (41, 10), (42, 11), (43, 12), (44, 13), (45, 14), (46, 15),
  (47, 16), (48, 17), (49, 18), (50, 19), (51, 20), (52, 21), (53, 22), (54, 23), (55, 24), (56, 25), (57, 26), (58, 27), (59, 28), (60, 29),
  (61, 30), (62, 31), (63, 32), (64, 33), (65, 34), (66, 35), (67, 36), (68, 37), (69, 38), (70, 39), (71, 40), (72, 41), (73, 42), (74, 43),
  (75, 44), (76, 45), (77, 46), (78, 47), (79, 48), (80, 49), (81, 50), (82, 51), (83, 52), (84, 53), (85, 54), (86, 55), (87, 56), (88, 57),
  (89, 58), (90, 59), (91, 60), (92, 61), (93, 62), (94, 63), (95, 64), (96, 65), (97, 66), (98, 67), (99, 68), (100, 69), (101, 70), (102, 71),
  (103, 72), (104, 73), (105, 74), (106, 75), (107, 76), (108, 77), (109, 78), (110, 79), (111, 80), (112, 81), (113, 82), (114, 83), (115, 84),
  (116, 85), (117, 86), (118, 87), (119, 88), (120, 89), (121, 90), (122, 91), (123, 92), (124, 93), (125, 94), (126, 95), (160, 1), (161, 96),
  (162, 97), (163, 98), (164, 99), (165, 100), (166, 101), (167, 102), (168, 103), (169, 104), (170, 105), (171, 106), (172, 107), (173, 14),
  (174, 108), (175, 109), (176, 110), (177, 111), (178, 112), (179, 113), (180, 114), (181, 115), (182, 116), (183, 117), (184, 118), (185, 119),
  (186, 120), (187, 121), (188, 122), (189, 123), (190, 124), (191, 125), (192, 126), (193, 127), (194, 128), (195, 129), (196, 130), (197, 131),
  (198, 132), (199, 133), (200, 134), (201, 135), (202, 136), (203, 137), (204, 138), (205, 139), (206, 140), (207, 141), (208, 142), (209, 143),
  (210, 144), (211, 145), (212, 146), (213, 147), (214, 148), (215, 149), (216, 150), (217, 151), (218, 152), (219, 153), (220, 154), (221, 155),
  (222, 156), (223, 157), (224, 158), (225, 159), (226, 160), (227, 161), (228, 162), (229, 163), (230, 164), (231, 165), (232, 166), (233, 167),
  (234, 168), (235, 169), (236, 170), (237, 171), (238, 172), (239, 173), (240, 174), (241, 175), (242, 176), (243, 177), (244, 178), (245, 179),
  (246, 180), (247, 181), (248, 182), (249, 183), (250, 184), (251, 185), (252, 186), (253, 187), (254, 188), (255, 189), (304, 190), (305, 191),
  (306, 192), (307, 193), (321, 194), (322, 195), (338, 196), (339, 197), (350, 198), (351, 199), (352, 200), (353, 201), (376, 202), (381, 203),
  (382, 204), (402, 205), (486, 206), (487, 207), (710, 208), (711, 209), (713, 109), (728, 210), (729, 211), (730, 212), (731, 213), (732, 214),
  (733, 215), (956, 115), (8211, 216), (8212, 217), (8216, 218), (8217, 219), (8218, 220), (8220, 221), (8221, 222), (8222, 223), (8224, 224),
  (8225, 225), (8226, 226), (8230, 227), (8240, 228), (8249, 229), (8250, 230), (8260, 231), (8356, 232), (8364, 233), (8478, 234), (8482, 235),
  (8592, 236), (8593, 237), (8594, 238), (8595, 239), (8596, 240), (8722, 241), (8725, 231), (8729, 117), (64257, 242), (64258, 243)]

/-- `src/pdfmm/private/PdfStandard14FontData.cpp:6281-6535`: code points and glyphs. -/
def courierBoldObliqueMap : List (Nat × Nat) := [
  (32, 217), (33, 126), (34, 198), (35, 168), (36, 112), (37, 188), (38, 74), (39, 205), (40, 186), (41, 187), (42, 83), (43, 192), (44, 103),
  (45, 146), (46, 189), (47, 216), (48, 243), (49, 176), (50, 226), (51, 221), (52, 133), (53, 130), (54, 215), (55, 214), (56, 120), (57, 166),
  (58, 102), (59, 213), (60, 156), (61, 124), (62, 139), (63, 196), (64, 84), (65, 1), (66, 9), (67, 10), (68, 12), (69, 13), (70, 20), (71, 21),
  (72, 23), (73, 24), (74, 31), (75, 32), (76, 33), (77, 35), (78, 36), (79, 38), (80, 46), (81, 47), (82, 48), (83, 49), (84, 52), (85, 54),
  (86, 59), (87, 60), (88, 61), (89, 62), (90, 65), (91, 91), (92, 87), (93, 92), (94, 81), (95, 233), (96, 138), (97, 67), (98, 86), (99, 96),
  (100, 106), (101, 115), (102, 128), (103, 135), (104, 144), (105, 147), (106, 153), (107, 154), (108, 155), (109, 160), (110, 165), (111, 169),
  (112, 184), (113, 195), (114, 206), (115, 209), (116, 219), (117, 228), (118, 234), (119, 235), (120, 236), (121, 237), (122, 241), (123, 89),
  (124, 88), (125, 90), (126, 82), (160, 217), (161, 127), (162, 100), (163, 218), (164, 105), (165, 240), (166, 94), (167, 212), (168, 110),
  (169, 104), (170, 180), (171, 140), (172, 158), (173, 146), (174, 207), (175, 161), (176, 109), (177, 193), (178, 227), (179, 223), (180, 70),
  (181, 163), (182, 185), (183, 190), (184, 99), (185, 179), (186, 181), (187, 141), (188, 178), (189, 177), (190, 222), (191, 197), (192, 6),
  (193, 3), (194, 4), (195, 8), (196, 5), (197, 7), (198, 2), (199, 11), (200, 17), (201, 14), (202, 15), (203, 16), (204, 30), (205, 26), (206, 27),
  (207, 28), (208, 18), (209, 37), (210, 43), (211, 40), (212, 41), (213, 45), (214, 42), (215, 164), (216, 44), (217, 58), (218, 55), (219, 56),
  (220, 57), (221, 63), (222, 53), (223, 137), (224, 73), (225, 68), (226, 69), (227, 85), (228, 71), (229, 75), (230, 72), (231, 98), (232, 119),
  (233, 116), (234, 117), (235, 118), (236, 151), (237, 148), (238, 149), (239, 150), (240, 125), (241, 167), (242, 175), (243, 170), (244, 171),
  (245, 183), (246, 172), (247, 111), (248, 182), (249, 232), (250, 229), (251, 230), (252, 231), (253, 238), (254, 220), (255, 239), (304, 29),
  (305, 114), (306, 25), (307, 152), (321, 34), (322, 159), (338, 39), (339, 173), (350, 51), (351, 211), (352, 50), (353, 210), (376, 64),
  (381, 66), (382, 242), (402, 132), (486, 22), (487, 136), (710, 101), (711, 97), (713, 161), (728, 93), (729, 113), (730, 208), (731, 174),
  (732, 224), (733, 145), (956, 163), (8211, 123), (8212, 122), (8216, 202), (8217, 203), (8218, 204), (8220, 200), (8221, 201), (8222, 199),
  (8224, 107), (8225, 108), (8226, 95), (8230, 121), (8240, 191), (8249, 142), (8250, 143), (8260, 134), (8356, 157), (8364, 19), (8478, 194),
  (8482, 225), (8592, 78), (8593, 80), (8594, 79), (8595, 77), (8596, 76), (8722, 162), (8725, 134), (8729, 190), (64257, 129), (64258, 131)]

/-- `src/pdfmm/private/PdfStandard14FontData.cpp:6537-6737`: code points and glyphs. -/
def symbolMap : List (Nat × Nat) := [
  (32, 1), (33, 2), (35, 3), (37, 4), (38, 5), (40, 6), (41, 7), (43, 8), (44, 9), (46, 10), (47, 11), (48, 12), (49, 13), (50, 14), (51, 15),
  (52, 16), (53, 17), (54, 18), (55, 19), (56, 20), (57, 21), (58, 22), (59, 23), (60, 24), (61, 25), (62, 26), (63, 27), (91, 28), (93, 29),
  (95, 30), (123, 31), (124, 32), (125, 33), (160, 1), (172, 34), (176, 35), (177, 36), (181, 37), (215, 38), (247, 39), (402, 40), (913, 41),
  (914, 42), (915, 43), (916, 117), (917, 44), (918, 45), (919, 46), (920, 47), (921, 48), (922, 49), (923, 50), (924, 51), (925, 52), (926, 53),
  (927, 54), (928, 55), (929, 56), (931, 57), (932, 58), (933, 59), (934, 60), (935, 61), (936, 62), (937, 100), (945, 63), (946, 64), (947, 65),
  (948, 66), (949, 67), (950, 68), (951, 69), (952, 70), (953, 71), (954, 72), (955, 73), (956, 37), (957, 74), (958, 75), (959, 76), (960, 77),
  (961, 78), (962, 79), (963, 80), (964, 81), (965, 82), (966, 83), (967, 84), (968, 85), (969, 86), (977, 87), (978, 88), (981, 89), (982, 90),
  (8226, 91), (8230, 92), (8242, 93), (8243, 94), (8260, 95), (8364, 96), (8465, 97), (8472, 98), (8476, 99), (8486, 100), (8501, 101), (8592, 102),
  (8593, 103), (8594, 104), (8595, 105), (8596, 106), (8629, 107), (8656, 108), (8657, 109), (8658, 110), (8659, 111), (8660, 112), (8704, 113),
  (8706, 114), (8707, 115), (8709, 116), (8710, 117), (8711, 118), (8712, 119), (8713, 120), (8715, 121), (8719, 122), (8721, 123), (8722, 124),
  (8725, 95), (8727, 125), (8730, 126), (8733, 127), (8734, 128), (8736, 129), (8743, 130), (8744, 131), (8745, 132), (8746, 133), (8747, 134),
  (8756, 135), (8764, 136), (8773, 137), (8776, 138), (8800, 139), (8801, 140), (8804, 141), (8805, 142), (8834, 143), (8835, 144), (8836, 145),
  (8838, 146), (8839, 147), (8853, 148), (8855, 149), (8869, 150), (8901, 151), (8992, 152), (8993, 153), (9001, 154), (9002, 155), (9674, 156),
  (9824, 157), (9827, 158), (9829, 159), (9830, 160), (63193, 161), (63194, 162), (63195, 163), (63717, 164), (63718, 165), (63719, 166),
  (63720, 167), (63721, 168), (63722, 169), (63723, 170), (63724, 171), (63725, 172), (63726, 173), (63727, 174), (63728, 175), (63729, 176),
  (63730, 177), (63731, 178), (63732, 179), (63733, 180), (63734, 181), (63735, 182), (63736, 183), (63737, 184), (63738, 185), (63739, 186),
  (63740, 187), (63741, 188), (63742, 189), (63743, 190)]

/-- `src/pdfmm/private/PdfStandard14FontData.cpp:6739-6947`: code points and glyphs. -/
def zapfDingbatsMap : List (Nat × Nat) := [
  (32, 202), (160, 202), (8594, 66), (8596, 68), (8597, 69), (9312, 21), (9313, 22), (9314, 23), (9315, 24), (9316, 25), (9317, 26), (9318, 27),
  (9319, 28), (9320, 29), (9321, 30), (9632, 174), (9650, 177), (9660, 178), (9670, 179), (9679, 172), (9687, 182), (9733, 132), (9742, 137),
  (9755, 13), (9758, 20), (9824, 12), (9827, 16), (9829, 14), (9830, 15), (9985, 1), (9986, 108), (9987, 112), (9988, 126), (9990, 148), (9991, 19),
  (9992, 18), (9993, 17), (9996, 31), (9997, 42), (9998, 53), (9999, 64), (10000, 8), (10001, 75), (10002, 86), (10003, 97), (10004, 109),
  (10005, 117), (10006, 118), (10007, 119), (10008, 120), (10009, 121), (10010, 122), (10011, 123), (10012, 124), (10013, 159), (10014, 170),
  (10015, 181), (10016, 191), (10017, 2), (10018, 125), (10019, 127), (10020, 128), (10021, 129), (10022, 130), (10023, 131), (10025, 133),
  (10026, 134), (10027, 135), (10028, 136), (10029, 138), (10030, 139), (10031, 140), (10032, 141), (10033, 142), (10034, 143), (10035, 144),
  (10036, 145), (10037, 146), (10038, 147), (10039, 149), (10040, 150), (10041, 151), (10042, 152), (10043, 153), (10044, 154), (10045, 155),
  (10046, 156), (10047, 157), (10048, 158), (10049, 160), (10050, 161), (10051, 162), (10052, 163), (10053, 164), (10054, 165), (10055, 166),
  (10056, 167), (10057, 168), (10058, 169), (10059, 171), (10061, 173), (10063, 175), (10064, 113), (10065, 176), (10066, 114), (10070, 180),
  (10072, 183), (10073, 184), (10074, 185), (10075, 199), (10076, 200), (10077, 201), (10078, 3), (10081, 4), (10082, 5), (10083, 6), (10084, 7),
  (10085, 9), (10086, 10), (10087, 11), (10088, 190), (10089, 192), (10090, 195), (10091, 196), (10092, 193), (10093, 194), (10094, 115),
  (10095, 186), (10096, 116), (10097, 187), (10098, 188), (10099, 189), (10100, 197), (10101, 198), (10102, 32), (10103, 33), (10104, 34),
  (10105, 35), (10106, 36), (10107, 37), (10108, 38), (10109, 39), (10110, 40), (10111, 41), (10112, 43), (10113, 44), (10114, 45), (10115, 46),
  (10116, 47), (10117, 48), (10118, 49), (10119, 50), (10120, 51), (10121, 52), (10122, 54), (10123, 55), (10124, 56), (10125, 57), (10126, 58),
  (10127, 59), (10128, 60), (10129, 61), (10130, 62), (10131, 63), (10132, 65), (10136, 104), (10137, 70), (10138, 100), (10139, 71), (10140, 72),
  (10141, 73), (10142, 74), (10143, 76), (10144, 77), (10145, 78), (10146, 79), (10147, 67), (10148, 80), (10149, 81), (10150, 82), (10151, 83),
  (10152, 84), (10153, 85), (10154, 101), (10155, 87), (10156, 107), (10157, 88), (10158, 110), (10159, 89), (10161, 111), (10162, 90), (10163, 91),
  (10164, 105), (10165, 92), (10166, 102), (10167, 106), (10168, 93), (10169, 103), (10170, 94), (10171, 95), (10172, 96), (10173, 98), (10174, 99)]

/-- The tables of widths, `src/pdfmm/private/PdfStandard14FontData.cpp:7016-7276`. -/
def Std14.widths : Std14 → List Nat
  | .timesRoman => timesRomanWidths
  | .timesItalic => timesItalicWidths
  | .timesBold => timesBoldWidths
  | .timesBoldItalic => timesBoldItalicWidths
  | .helvetica => helveticaWidths
  | .helveticaOblique => helveticaObliqueWidths
  | .helveticaBold => helveticaBoldWidths
  | .helveticaBoldOblique => helveticaBoldObliqueWidths
  | .courier => courierWidths
  | .courierOblique => courierObliqueWidths
  | .courierBold => courierBoldWidths
  | .courierBoldOblique => courierBoldObliqueWidths
  | .symbol => symbolWidths
  | .zapfDingbats => zapfDingbatsWidths

/-- The sizes the tables are said to have, `src/pdfmm/private/PdfStandard14FontData.cpp:7016-7276`: those of Courier are written as a number. -/
def Std14.size : Std14 → Nat
  | .timesRoman => 230
  | .timesItalic => 230
  | .timesBold => 230
  | .timesBoldItalic => 230
  | .helvetica => 230
  | .helveticaOblique => 230
  | .helveticaBold => 230
  | .helveticaBoldOblique => 230
  | .courier => 315
  | .courierOblique => 315
  | .courierBold => 315
  | .courierBoldOblique => 315
  | .symbol => 191
  | .zapfDingbats => 203

/-- `GetStd14CPToGIDMap`, `src/pdfmm/private/PdfStandard14FontData.cpp:6949-6985`. -/
def Std14.map : Std14 → List (Nat × Nat)
  | .timesRoman => timesRomanMap
  | .timesItalic => timesItalicMap
  | .timesBold => timesBoldMap
  | .timesBoldItalic => timesBoldItalicMap
  | .helvetica => helveticaMap
  | .helveticaOblique => helveticaObliqueMap
  | .helveticaBold => helveticaBoldMap
  | .helveticaBoldOblique => helveticaBoldObliqueMap
  | .courier => courierMap
  | .courierOblique => courierObliqueMap
  | .courierBold => courierBoldMap
  | .courierBoldOblique => courierBoldObliqueMap
  | .symbol => symbolMap
  | .zapfDingbats => zapfDingbatsMap

/-- The default widths, `src/pdfmm/private/PdfStandard14FontData.cpp:7016-7276`. -/
def Std14.dflt : Std14 → Nat
  | .timesRoman => 1000
  | .timesItalic => 1000
  | .timesBold => 1000
  | .timesBoldItalic => 1000
  | .helvetica => 1000
  | .helveticaOblique => 1000
  | .helveticaBold => 1000
  | .helveticaBoldOblique => 1000
  | .courier => 1000
  | .courierOblique => 1000
  | .courierBold => 1000
  | .courierBoldOblique => 1000
  | .symbol => 0
  | .zapfDingbats => 0

end Pdfmm
