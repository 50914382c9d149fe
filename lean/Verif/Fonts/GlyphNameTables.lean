import Verif.Base.Basic
set_option autoImplicit false
/-
The tables of glyph names of `src/pdfmm/base/PdfDifferenceEncoding.cpp`, C140.  This file is generated from the source.  A name is given as the
number whose digits in the base 256 are the bytes of the name, after a digit 1.
-/
namespace Pdfmm

/-- A part of `nameTab`. -/
def nameTab0 : List (Nat × Nat) := [
  (0x21, 0x121), (0x23, 0x123), (0x24, 0x124), (0x25, 0x125), (0x26, 0x126), (0x27, 0x127),
  (0x28, 0x128), (0x29, 0x129), (0x2a, 0x12a), (0x2b, 0x12b), (0x2c, 0x12c), (0x2d, 0x12d),
  (0x2e, 0x12e), (0x2f, 0x12f), (0x30, 0x130), (0x31, 0x131), (0x32, 0x132), (0x33, 0x133),
  (0x34, 0x134), (0x35, 0x135), (0x36, 0x136), (0x37, 0x137), (0x38, 0x138), (0x39, 0x139),
  (0x3a, 0x13a), (0x3b, 0x13b), (0x3c, 0x13c), (0x3d, 0x13d), (0x3e, 0x13e), (0x3f, 0x13f),
  (0x40, 0x140), (0x41, 0x141), (0xc6, 0x14145), (0x1fc, 0x141456163757465), (0xc6, 0x14145736d616c6c), (0xc1, 0x1416163757465),
  (0xc1, 0x1416163757465736d616c6c), (0x102, 0x1416272657665), (0xc2, 0x14163697263756d666c6578), (0xc2, 0x14163697263756d666c6578736d616c6c), (0xf6c9, 0x14163757465), (0xf6c9, 0x14163757465736d616c6c),
  (0xc4, 0x1416469657265736973), (0xc4, 0x1416469657265736973736d616c6c), (0xc0, 0x1416772617665), (0xc0, 0x1416772617665736d616c6c), (0x391, 0x1416c706861), (0x386, 0x1416c706861746f6e6f73),
  (0x100, 0x1416d6163726f6e), (0x104, 0x1416f676f6e656b), (0xc5, 0x14172696e67), (0x1fa, 0x14172696e676163757465), (0xc5, 0x14172696e67736d616c6c), (0x41, 0x141736d616c6c),
  (0xc3, 0x14174696c6465), (0xc3, 0x14174696c6465736d616c6c), (0x42, 0x142), (0x392, 0x142657461), (0xf6f4, 0x14272657665736d616c6c), (0x42, 0x142736d616c6c),
  (0x43, 0x143), (0x106, 0x1436163757465), (0xf6ca, 0x14361726f6e), (0xf6ca, 0x14361726f6e736d616c6c), (0x10c, 0x1436361726f6e), (0xc7, 0x143636564696c6c61),
  (0xc7, 0x143636564696c6c61736d616c6c), (0x108, 0x14363697263756d666c6578), (0x10a, 0x143646f74616363656e74), (0xf7b8, 0x1436564696c6c61736d616c6c), (0x3a7, 0x1436869), (0xf6f6, 0x143697263756d666c6578736d616c6c),
  (0x43, 0x143736d616c6c), (0x44, 0x144), (0x10e, 0x1446361726f6e), (0x110, 0x14463726f6174), (0x2206, 0x144656c7461), (0xf6cb, 0x14469657265736973),
  (0xf6cc, 0x144696572657369734163757465), (0xf6cd, 0x144696572657369734772617665), (0xf6cb, 0x14469657265736973736d616c6c), (0xf6f7, 0x1446f74616363656e74736d616c6c), (0x44, 0x144736d616c6c), (0x45, 0x145),
  (0xc9, 0x1456163757465), (0xc9, 0x1456163757465736d616c6c), (0x114, 0x1456272657665), (0x11a, 0x1456361726f6e), (0xca, 0x14563697263756d666c6578), (0xca, 0x14563697263756d666c6578736d616c6c),
  (0xcb, 0x1456469657265736973), (0xcb, 0x1456469657265736973736d616c6c), (0x116, 0x145646f74616363656e74), (0xc8, 0x1456772617665), (0xc8, 0x1456772617665736d616c6c), (0x112, 0x1456d6163726f6e),
  (0x14a, 0x1456e67), (0x118, 0x1456f676f6e656b), (0x395, 0x1457073696c6f6e), (0x388, 0x1457073696c6f6e746f6e6f73), (0x45, 0x145736d616c6c), (0x397, 0x1457461),
  (0x389, 0x1457461746f6e6f73), (0xd0, 0x1457468), (0xd0, 0x1457468736d616c6c), (0x20ac, 0x14575726f), (0x46, 0x146), (0x46, 0x146736d616c6c),
  (0x47, 0x147), (0x393, 0x147616d6d61), (0x11e, 0x1476272657665), (0x1e6, 0x1476361726f6e), (0x11c, 0x14763697263756d666c6578), (0x122, 0x147636f6d6d61616363656e74),
  (0x120, 0x147646f74616363656e74), (0xf6ce, 0x14772617665), (0xf6ce, 0x14772617665736d616c6c), (0x47, 0x147736d616c6c), (0x48, 0x148), (0x25cf, 0x1483138353333)]

/-- A part of `nameTab`. -/
def nameTab1 : List (Nat × Nat) := [
  (0x25aa, 0x1483138353433), (0x25ab, 0x1483138353531), (0x25a1, 0x1483232303733), (0x126, 0x148626172), (0x124, 0x14863697263756d666c6578), (0x48, 0x148736d616c6c),
  (0xf6cf, 0x148756e676172756d6c617574), (0xf6cf, 0x148756e676172756d6c617574736d616c6c), (0x49, 0x149), (0x132, 0x1494a), (0xcd, 0x1496163757465), (0xcd, 0x1496163757465736d616c6c),
  (0x12c, 0x1496272657665), (0xce, 0x14963697263756d666c6578), (0xce, 0x14963697263756d666c6578736d616c6c), (0xcf, 0x1496469657265736973), (0xcf, 0x1496469657265736973736d616c6c), (0x130, 0x149646f74616363656e74),
  (0x2111, 0x1496672616b747572), (0xcc, 0x1496772617665), (0xcc, 0x1496772617665736d616c6c), (0x12a, 0x1496d6163726f6e), (0x12e, 0x1496f676f6e656b), (0x399, 0x1496f7461),
  (0x3aa, 0x1496f74616469657265736973), (0x38a, 0x1496f7461746f6e6f73), (0x49, 0x149736d616c6c), (0x128, 0x14974696c6465), (0x4a, 0x14a), (0x134, 0x14a63697263756d666c6578),
  (0x4a, 0x14a736d616c6c), (0x4b, 0x14b), (0x39a, 0x14b61707061), (0x136, 0x14b636f6d6d61616363656e74), (0x4b, 0x14b736d616c6c), (0x4c, 0x14c),
  (0xf6bf, 0x14c4c), (0x139, 0x14c6163757465), (0x39b, 0x14c616d626461), (0x13d, 0x14c6361726f6e), (0x13b, 0x14c636f6d6d61616363656e74), (0x13f, 0x14c646f74),
  (0x141, 0x14c736c617368), (0x141, 0x14c736c617368736d616c6c), (0x4c, 0x14c736d616c6c), (0x4d, 0x14d), (0xf6d0, 0x14d6163726f6e), (0xf6d0, 0x14d6163726f6e736d616c6c),
  (0x4d, 0x14d736d616c6c), (0x39c, 0x14d75), (0x4e, 0x14e), (0x143, 0x14e6163757465), (0x147, 0x14e6361726f6e), (0x145, 0x14e636f6d6d61616363656e74),
  (0x4e, 0x14e736d616c6c), (0xd1, 0x14e74696c6465), (0xd1, 0x14e74696c6465736d616c6c), (0x39d, 0x14e75), (0x4f, 0x14f), (0x152, 0x14f45),
  (0x152, 0x14f45736d616c6c), (0xd3, 0x14f6163757465), (0xd3, 0x14f6163757465736d616c6c), (0x14e, 0x14f6272657665), (0xd4, 0x14f63697263756d666c6578), (0xd4, 0x14f63697263756d666c6578736d616c6c),
  (0xd6, 0x14f6469657265736973), (0xd6, 0x14f6469657265736973736d616c6c), (0xf6fb, 0x14f676f6e656b736d616c6c), (0xd2, 0x14f6772617665), (0xd2, 0x14f6772617665736d616c6c), (0x1a0, 0x14f686f726e),
  (0x150, 0x14f68756e676172756d6c617574), (0x14c, 0x14f6d6163726f6e), (0x2126, 0x14f6d656761), (0x38f, 0x14f6d656761746f6e6f73), (0x39f, 0x14f6d6963726f6e), (0x38c, 0x14f6d6963726f6e746f6e6f73),
  (0xd8, 0x14f736c617368), (0x1fe, 0x14f736c6173686163757465), (0xd8, 0x14f736c617368736d616c6c), (0x4f, 0x14f736d616c6c), (0xd5, 0x14f74696c6465), (0xd5, 0x14f74696c6465736d616c6c),
  (0x50, 0x150), (0x3a6, 0x1506869), (0x3a0, 0x15069), (0x3a8, 0x1507369), (0x50, 0x150736d616c6c), (0x51, 0x151),
  (0x51, 0x151736d616c6c), (0x52, 0x152), (0x154, 0x1526163757465), (0x158, 0x1526361726f6e), (0x156, 0x152636f6d6d61616363656e74), (0x211c, 0x1526672616b747572),
  (0x3a1, 0x152686f), (0xf6fc, 0x152696e67736d616c6c), (0x52, 0x152736d616c6c), (0x53, 0x153), (0x250c, 0x15346303130303030), (0x2514, 0x15346303230303030),
  (0x2510, 0x15346303330303030), (0x2518, 0x15346303430303030), (0x253c, 0x15346303530303030), (0x252c, 0x15346303630303030), (0x2534, 0x15346303730303030), (0x251c, 0x15346303830303030),
  (0x2524, 0x15346303930303030), (0x2500, 0x15346313030303030), (0x2502, 0x15346313130303030), (0x2561, 0x15346313930303030), (0x2562, 0x15346323030303030), (0x2556, 0x15346323130303030),
  (0x2555, 0x15346323230303030), (0x2563, 0x15346323330303030), (0x2551, 0x15346323430303030), (0x2557, 0x15346323530303030), (0x255d, 0x15346323630303030), (0x255c, 0x15346323730303030)]

/-- A part of `nameTab`. -/
def nameTab2 : List (Nat × Nat) := [
  (0x255b, 0x15346323830303030), (0x255e, 0x15346333630303030), (0x255f, 0x15346333730303030), (0x255a, 0x15346333830303030), (0x2554, 0x15346333930303030), (0x2569, 0x15346343030303030),
  (0x2566, 0x15346343130303030), (0x2560, 0x15346343230303030), (0x2550, 0x15346343330303030), (0x256c, 0x15346343430303030), (0x2567, 0x15346343530303030), (0x2568, 0x15346343630303030),
  (0x2564, 0x15346343730303030), (0x2565, 0x15346343830303030), (0x2559, 0x15346343930303030), (0x2558, 0x15346353030303030), (0x2552, 0x15346353130303030), (0x2553, 0x15346353230303030),
  (0x256b, 0x15346353330303030), (0x256a, 0x15346353430303030), (0x15a, 0x1536163757465), (0x160, 0x1536361726f6e), (0x160, 0x1536361726f6e736d616c6c), (0x15e, 0x153636564696c6c61),
  (0x15c, 0x15363697263756d666c6578), (0x218, 0x153636f6d6d61616363656e74), (0x3a3, 0x15369676d61), (0x53, 0x153736d616c6c), (0x54, 0x154), (0x3a4, 0x1546175),
  (0x166, 0x154626172), (0x164, 0x1546361726f6e), (0x162, 0x154636f6d6d61616363656e74), (0x398, 0x15468657461), (0xde, 0x154686f726e), (0xde, 0x154686f726e736d616c6c),
  (0xf6fe, 0x154696c6465736d616c6c), (0x54, 0x154736d616c6c), (0x55, 0x155), (0xda, 0x1556163757465), (0xda, 0x1556163757465736d616c6c), (0x16c, 0x1556272657665),
  (0xdb, 0x15563697263756d666c6578), (0xdb, 0x15563697263756d666c6578736d616c6c), (0xdc, 0x1556469657265736973), (0xdc, 0x1556469657265736973736d616c6c), (0xd9, 0x1556772617665), (0xd9, 0x1556772617665736d616c6c),
  (0x1af, 0x155686f726e), (0x170, 0x15568756e676172756d6c617574), (0x16a, 0x1556d6163726f6e), (0x172, 0x1556f676f6e656b), (0x3a5, 0x1557073696c6f6e), (0x3d2, 0x1557073696c6f6e31),
  (0x3ab, 0x1557073696c6f6e6469657265736973), (0x38e, 0x1557073696c6f6e746f6e6f73), (0x16e, 0x15572696e67), (0x55, 0x155736d616c6c), (0x168, 0x15574696c6465), (0x56, 0x156),
  (0x56, 0x156736d616c6c), (0x57, 0x157), (0x1e82, 0x1576163757465), (0x174, 0x15763697263756d666c6578), (0x1e84, 0x1576469657265736973), (0x1e80, 0x1576772617665),
  (0x57, 0x157736d616c6c), (0x58, 0x158), (0x39e, 0x15869), (0x58, 0x158736d616c6c), (0x59, 0x159), (0xdd, 0x1596163757465),
  (0xdd, 0x1596163757465736d616c6c), (0x176, 0x15963697263756d666c6578), (0x178, 0x1596469657265736973), (0x178, 0x1596469657265736973736d616c6c), (0x1ef2, 0x1596772617665), (0x59, 0x159736d616c6c),
  (0x5a, 0x15a), (0x179, 0x15a6163757465), (0x17d, 0x15a6361726f6e), (0x17d, 0x15a6361726f6e736d616c6c), (0x17b, 0x15a646f74616363656e74), (0x396, 0x15a657461),
  (0x5a, 0x15a736d616c6c), (0x22, 0x122), (0x5c, 0x15c), (0x5d, 0x15d), (0x5e, 0x15e), (0x5f, 0x15f),
  (0x60, 0x160), (0x61, 0x161), (0xe1, 0x1616163757465), (0x103, 0x1616272657665), (0xe2, 0x16163697263756d666c6578), (0xb4, 0x16163757465),
  (0x301, 0x16163757465636f6d62), (0xe4, 0x1616469657265736973), (0xe6, 0x16165), (0x1fd, 0x161656163757465), (0x2015, 0x1616669693030323038), (0x410, 0x1616669693130303137),
  (0x411, 0x1616669693130303138), (0x412, 0x1616669693130303139), (0x413, 0x1616669693130303230), (0x414, 0x1616669693130303231), (0x415, 0x1616669693130303232), (0x401, 0x1616669693130303233),
  (0x416, 0x1616669693130303234), (0x417, 0x1616669693130303235), (0x418, 0x1616669693130303236), (0x419, 0x1616669693130303237), (0x41a, 0x1616669693130303238), (0x41b, 0x1616669693130303239),
  (0x41c, 0x1616669693130303330), (0x41d, 0x1616669693130303331), (0x41e, 0x1616669693130303332), (0x41f, 0x1616669693130303333), (0x420, 0x1616669693130303334), (0x421, 0x1616669693130303335)]

/-- A part of `nameTab`. -/
def nameTab3 : List (Nat × Nat) := [
  (0x422, 0x1616669693130303336), (0x423, 0x1616669693130303337), (0x424, 0x1616669693130303338), (0x425, 0x1616669693130303339), (0x426, 0x1616669693130303430), (0x427, 0x1616669693130303431),
  (0x428, 0x1616669693130303432), (0x429, 0x1616669693130303433), (0x42a, 0x1616669693130303434), (0x42b, 0x1616669693130303435), (0x42c, 0x1616669693130303436), (0x42d, 0x1616669693130303437),
  (0x42e, 0x1616669693130303438), (0x42f, 0x1616669693130303439), (0x490, 0x1616669693130303530), (0x402, 0x1616669693130303531), (0x403, 0x1616669693130303532), (0x404, 0x1616669693130303533),
  (0x405, 0x1616669693130303534), (0x406, 0x1616669693130303535), (0x407, 0x1616669693130303536), (0x408, 0x1616669693130303537), (0x409, 0x1616669693130303538), (0x40a, 0x1616669693130303539),
  (0x40b, 0x1616669693130303630), (0x40c, 0x1616669693130303631), (0x40e, 0x1616669693130303632), (0xf6c4, 0x1616669693130303633), (0xf6c5, 0x1616669693130303634), (0x430, 0x1616669693130303635),
  (0x431, 0x1616669693130303636), (0x432, 0x1616669693130303637), (0x433, 0x1616669693130303638), (0x434, 0x1616669693130303639), (0x435, 0x1616669693130303730), (0x451, 0x1616669693130303731),
  (0x436, 0x1616669693130303732), (0x437, 0x1616669693130303733), (0x438, 0x1616669693130303734), (0x439, 0x1616669693130303735), (0x43a, 0x1616669693130303736), (0x43b, 0x1616669693130303737),
  (0x43c, 0x1616669693130303738), (0x43d, 0x1616669693130303739), (0x43e, 0x1616669693130303830), (0x43f, 0x1616669693130303831), (0x440, 0x1616669693130303832), (0x441, 0x1616669693130303833),
  (0x442, 0x1616669693130303834), (0x443, 0x1616669693130303835), (0x444, 0x1616669693130303836), (0x445, 0x1616669693130303837), (0x446, 0x1616669693130303838), (0x447, 0x1616669693130303839),
  (0x448, 0x1616669693130303930), (0x449, 0x1616669693130303931), (0x44a, 0x1616669693130303932), (0x44b, 0x1616669693130303933), (0x44c, 0x1616669693130303934), (0x44d, 0x1616669693130303935),
  (0x44e, 0x1616669693130303936), (0x44f, 0x1616669693130303937), (0x491, 0x1616669693130303938), (0x452, 0x1616669693130303939), (0x453, 0x1616669693130313030), (0x454, 0x1616669693130313031),
  (0x455, 0x1616669693130313032), (0x456, 0x1616669693130313033), (0x457, 0x1616669693130313034), (0x458, 0x1616669693130313035), (0x459, 0x1616669693130313036), (0x45a, 0x1616669693130313037),
  (0x45b, 0x1616669693130313038), (0x45c, 0x1616669693130313039), (0x45e, 0x1616669693130313130), (0x40f, 0x1616669693130313435), (0x462, 0x1616669693130313436), (0x472, 0x1616669693130313437),
  (0x474, 0x1616669693130313438), (0xf6c6, 0x1616669693130313932), (0x45f, 0x1616669693130313933), (0x463, 0x1616669693130313934), (0x473, 0x1616669693130313935), (0x475, 0x1616669693130313936),
  (0xf6c7, 0x1616669693130383331), (0xf6c8, 0x1616669693130383332), (0x4d9, 0x1616669693130383436), (0x200e, 0x161666969323939), (0x200f, 0x161666969333030), (0x200d, 0x161666969333031),
  (0x66a, 0x1616669693537333831), (0x60c, 0x1616669693537333838), (0x660, 0x1616669693537333932), (0x661, 0x1616669693537333933), (0x662, 0x1616669693537333934), (0x663, 0x1616669693537333935),
  (0x664, 0x1616669693537333936), (0x665, 0x1616669693537333937), (0x666, 0x1616669693537333938), (0x667, 0x1616669693537333939), (0x668, 0x1616669693537343030), (0x669, 0x1616669693537343031),
  (0x61b, 0x1616669693537343033), (0x61f, 0x1616669693537343037), (0x621, 0x1616669693537343039), (0x622, 0x1616669693537343130), (0x623, 0x1616669693537343131), (0x624, 0x1616669693537343132),
  (0x625, 0x1616669693537343133), (0x626, 0x1616669693537343134), (0x627, 0x1616669693537343135), (0x628, 0x1616669693537343136), (0x629, 0x1616669693537343137), (0x62a, 0x1616669693537343138),
  (0x62b, 0x1616669693537343139), (0x62c, 0x1616669693537343230), (0x62d, 0x1616669693537343231), (0x62e, 0x1616669693537343232), (0x62f, 0x1616669693537343233), (0x630, 0x1616669693537343234)]

/-- A part of `nameTab`. -/
def nameTab4 : List (Nat × Nat) := [
  (0x631, 0x1616669693537343235), (0x632, 0x1616669693537343236), (0x633, 0x1616669693537343237), (0x634, 0x1616669693537343238), (0x635, 0x1616669693537343239), (0x636, 0x1616669693537343330),
  (0x637, 0x1616669693537343331), (0x638, 0x1616669693537343332), (0x639, 0x1616669693537343333), (0x63a, 0x1616669693537343334), (0x640, 0x1616669693537343430), (0x641, 0x1616669693537343431),
  (0x642, 0x1616669693537343432), (0x643, 0x1616669693537343433), (0x644, 0x1616669693537343434), (0x645, 0x1616669693537343435), (0x646, 0x1616669693537343436), (0x648, 0x1616669693537343438),
  (0x649, 0x1616669693537343439), (0x64a, 0x1616669693537343530), (0x64b, 0x1616669693537343531), (0x64c, 0x1616669693537343532), (0x64d, 0x1616669693537343533), (0x64e, 0x1616669693537343534),
  (0x64f, 0x1616669693537343535), (0x650, 0x1616669693537343536), (0x651, 0x1616669693537343537), (0x652, 0x1616669693537343538), (0x647, 0x1616669693537343730), (0x6a4, 0x1616669693537353035),
  (0x67e, 0x1616669693537353036), (0x686, 0x1616669693537353037), (0x698, 0x1616669693537353038), (0x6af, 0x1616669693537353039), (0x679, 0x1616669693537353131), (0x688, 0x1616669693537353132),
  (0x691, 0x1616669693537353133), (0x6ba, 0x1616669693537353134), (0x6d2, 0x1616669693537353139), (0x6d5, 0x1616669693537353334), (0x20aa, 0x1616669693537363336), (0x5be, 0x1616669693537363435),
  (0x5c3, 0x1616669693537363538), (0x5d0, 0x1616669693537363634), (0x5d1, 0x1616669693537363635), (0x5d2, 0x1616669693537363636), (0x5d3, 0x1616669693537363637), (0x5d4, 0x1616669693537363638),
  (0x5d5, 0x1616669693537363639), (0x5d6, 0x1616669693537363730), (0x5d7, 0x1616669693537363731), (0x5d8, 0x1616669693537363732), (0x5d9, 0x1616669693537363733), (0x5da, 0x1616669693537363734),
  (0x5db, 0x1616669693537363735), (0x5dc, 0x1616669693537363736), (0x5dd, 0x1616669693537363737), (0x5de, 0x1616669693537363738), (0x5df, 0x1616669693537363739), (0x5e0, 0x1616669693537363830),
  (0x5e1, 0x1616669693537363831), (0x5e2, 0x1616669693537363832), (0x5e3, 0x1616669693537363833), (0x5e4, 0x1616669693537363834), (0x5e5, 0x1616669693537363835), (0x5e6, 0x1616669693537363836),
  (0x5e7, 0x1616669693537363837), (0x5e8, 0x1616669693537363838), (0x5e9, 0x1616669693537363839), (0x5ea, 0x1616669693537363930), (0xfb2a, 0x1616669693537363934), (0xfb2b, 0x1616669693537363935),
  (0xfb4b, 0x1616669693537373030), (0xfb1f, 0x1616669693537373035), (0x5f0, 0x1616669693537373136), (0x5f1, 0x1616669693537373137), (0x5f2, 0x1616669693537373138), (0xfb35, 0x1616669693537373233),
  (0x5b4, 0x1616669693537373933), (0x5b5, 0x1616669693537373934), (0x5b6, 0x1616669693537373935), (0x5bb, 0x1616669693537373936), (0x5b8, 0x1616669693537373937), (0x5b7, 0x1616669693537373938),
  (0x5b0, 0x1616669693537373939), (0x5b2, 0x1616669693537383030), (0x5b1, 0x1616669693537383031), (0x5b3, 0x1616669693537383032), (0x5c2, 0x1616669693537383033), (0x5c1, 0x1616669693537383034),
  (0x5b9, 0x1616669693537383036), (0x5bc, 0x1616669693537383037), (0x5bd, 0x1616669693537383339), (0x5bf, 0x1616669693537383431), (0x5c0, 0x1616669693537383432), (0x2bc, 0x1616669693537393239),
  (0x2105, 0x1616669693631323438), (0x2113, 0x1616669693631323839), (0x2116, 0x1616669693631333532), (0x202c, 0x1616669693631353733), (0x202d, 0x1616669693631353734), (0x202e, 0x1616669693631353735),
  (0x200c, 0x1616669693631363634), (0x66d, 0x1616669693633313637), (0x2bd, 0x1616669693634393337), (0xe0, 0x1616772617665), (0x2135, 0x1616c657068), (0x3b1, 0x1616c706861),
  (0x3ac, 0x1616c706861746f6e6f73), (0x101, 0x1616d6163726f6e), (0x26, 0x1616d70657273616e64), (0x26, 0x1616d70657273616e64736d616c6c), (0x2220, 0x1616e676c65), (0x2329, 0x1616e676c656c656674),
  (0x232a, 0x1616e676c657269676874), (0x387, 0x1616e6f74656c656961), (0x105, 0x1616f676f6e656b), (0x2248, 0x1617070726f78657175616c), (0xe5, 0x16172696e67), (0x1fb, 0x16172696e676163757465)]

/-- A part of `nameTab`. -/
def nameTab5 : List (Nat × Nat) := [
  (0x2194, 0x16172726f77626f7468), (0x21d4, 0x16172726f7764626c626f7468), (0x21d3, 0x16172726f7764626c646f776e), (0x21d0, 0x16172726f7764626c6c656674), (0x21d2, 0x16172726f7764626c7269676874), (0x21d1, 0x16172726f7764626c7570),
  (0x2193, 0x16172726f77646f776e), (0xf8e7, 0x16172726f77686f72697a6578), (0x2190, 0x16172726f776c656674), (0x2192, 0x16172726f777269676874), (0x2191, 0x16172726f777570), (0x2195, 0x16172726f777570646e),
  (0x21a8, 0x16172726f777570646e627365), (0xf8e6, 0x16172726f77766572746578), (0x5e, 0x1617363696963697263756d), (0x7e, 0x1617363696974696c6465), (0x2a, 0x1617374657269736b), (0x2217, 0x1617374657269736b6d617468),
  (0xf6e9, 0x1617375706572696f72), (0x40, 0x16174), (0xe3, 0x16174696c6465), (0x62, 0x162), (0x5c, 0x16261636b736c617368), (0x7c, 0x1626172),
  (0x3b2, 0x162657461), (0x2588, 0x1626c6f636b), (0xf8f4, 0x162726163656578), (0x7b, 0x162726163656c656674), (0xf8f3, 0x162726163656c6566746274), (0xf8f2, 0x162726163656c6566746d6964),
  (0xf8f1, 0x162726163656c6566747470), (0x7d, 0x162726163657269676874), (0xf8fe, 0x1627261636572696768746274), (0xf8fd, 0x1627261636572696768746d6964), (0xf8fc, 0x1627261636572696768747470), (0x5b, 0x1627261636b65746c656674),
  (0xf8f0, 0x1627261636b65746c6566746274), (0xf8ef, 0x1627261636b65746c6566746578), (0xf8ee, 0x1627261636b65746c6566747470), (0x5d, 0x1627261636b65747269676874), (0xf8fb, 0x1627261636b657472696768746274), (0xf8fa, 0x1627261636b657472696768746578),
  (0xf8f9, 0x1627261636b657472696768747470), (0x2d8, 0x16272657665), (0xa6, 0x162726f6b656e626172), (0xf6ea, 0x1627375706572696f72), (0x2022, 0x162756c6c6574), (0x63, 0x163),
  (0x107, 0x1636163757465), (0x2c7, 0x16361726f6e), (0x21b5, 0x1636172726961676572657475726e), (0x10d, 0x1636361726f6e), (0xe7, 0x163636564696c6c61), (0x109, 0x16363697263756d666c6578),
  (0x10b, 0x163646f74616363656e74), (0xb8, 0x1636564696c6c61), (0xa2, 0x163656e74), (0xf6df, 0x163656e74696e666572696f72), (0xa2, 0x163656e746f6c647374796c65), (0xf6e0, 0x163656e747375706572696f72),
  (0x3c7, 0x1636869), (0x25cb, 0x1636972636c65), (0x2297, 0x1636972636c656d756c7469706c79), (0x2295, 0x1636972636c65706c7573), (0x2c6, 0x163697263756d666c6578), (0x2663, 0x1636c7562),
  (0x3a, 0x1636f6c6f6e), (0x20a1, 0x1636f6c6f6e6d6f6e6574617279), (0x2c, 0x1636f6d6d61), (0xf6c3, 0x1636f6d6d61616363656e74), (0xf6e1, 0x1636f6d6d61696e666572696f72), (0xf6e2, 0x1636f6d6d617375706572696f72),
  (0x2245, 0x1636f6e677275656e74), (0xa9, 0x1636f70797269676874), (0xa9, 0x1636f7079726967687473616e73), (0xa9, 0x1636f707972696768747365726966), (0xa4, 0x163757272656e6379), (0xf6d1, 0x16379724272657665),
  (0xf6d2, 0x1637972466c6578), (0xf6d4, 0x16379726272657665), (0xf6d5, 0x1637972666c6578), (0x64, 0x164), (0x2020, 0x1646167676572), (0x2021, 0x164616767657264626c),
  (0xf6d3, 0x164626c4772617665), (0xf6d6, 0x164626c6772617665), (0x10f, 0x1646361726f6e), (0x111, 0x16463726f6174), (0xb0, 0x1646567726565), (0x3b4, 0x164656c7461),
  (0x2666, 0x16469616d6f6e64), (0xa8, 0x16469657265736973), (0xf6d7, 0x164696572657369736163757465), (0xf6d8, 0x164696572657369736772617665), (0x385, 0x16469657265736973746f6e6f73), (0xf7, 0x1646976696465),
  (0x2593, 0x1646b7368616465), (0x2584, 0x1646e626c6f636b), (0x24, 0x1646f6c6c6172), (0xf6e3, 0x1646f6c6c6172696e666572696f72), (0x24, 0x1646f6c6c61726f6c647374796c65), (0xf6e4, 0x1646f6c6c61727375706572696f72),
  (0x20ab, 0x1646f6e67), (0x2d9, 0x1646f74616363656e74), (0x323, 0x1646f7462656c6f77636f6d62), (0x131, 0x1646f746c65737369), (0xf6be, 0x1646f746c6573736a), (0x22c5, 0x1646f746d617468),
  (0xf6eb, 0x1647375706572696f72), (0x65, 0x165), (0xe9, 0x1656163757465), (0x115, 0x1656272657665), (0x11b, 0x1656361726f6e), (0xea, 0x16563697263756d666c6578),
  (0xeb, 0x1656469657265736973), (0x117, 0x165646f74616363656e74), (0xe8, 0x1656772617665), (0x38, 0x16569676874), (0x2088, 0x16569676874696e666572696f72), (0x38, 0x165696768746f6c647374796c65)]

/-- A part of `nameTab`. -/
def nameTab6 : List (Nat × Nat) := [
  (0x2078, 0x165696768747375706572696f72), (0x2208, 0x1656c656d656e74), (0x2026, 0x1656c6c6970736973), (0x113, 0x1656d6163726f6e), (0x2014, 0x1656d64617368), (0x2205, 0x1656d707479736574),
  (0x2013, 0x1656e64617368), (0x14b, 0x1656e67), (0x119, 0x1656f676f6e656b), (0x3b5, 0x1657073696c6f6e), (0x3ad, 0x1657073696c6f6e746f6e6f73), (0x3d, 0x1657175616c),
  (0x2261, 0x16571756976616c656e6365), (0x212e, 0x1657374696d61746564), (0xf6ec, 0x1657375706572696f72), (0x3b7, 0x1657461), (0x3ae, 0x1657461746f6e6f73), (0xf0, 0x1657468),
  (0x21, 0x16578636c616d), (0x203c, 0x16578636c616d64626c), (0xa1, 0x16578636c616d646f776e), (0xa1, 0x16578636c616d646f776e736d616c6c), (0x21, 0x16578636c616d6c656674), (0x21, 0x16578636c616d736d616c6c),
  (0x2203, 0x16578697374656e7469616c), (0x66, 0x166), (0xfb00, 0x16666), (0xfb03, 0x1666669), (0xfb04, 0x166666c), (0xfb01, 0x16669),
  (0xfb00, 0x1665f66), (0xfb03, 0x1665f665f69), (0xfb04, 0x1665f665f6c), (0xfb01, 0x1665f69), (0x2640, 0x166656d616c65), (0x2012, 0x166696775726564617368),
  (0x25a0, 0x166696c6c6564626f78), (0x25ac, 0x166696c6c656472656374), (0x35, 0x166697665), (0x215d, 0x16669766565696768746873), (0x2085, 0x166697665696e666572696f72), (0x35, 0x1666976656f6c647374796c65),
  (0x2075, 0x1666976657375706572696f72), (0xfb02, 0x1666c), (0xfb02, 0x1665f6c), (0x192, 0x1666c6f72696e), (0x34, 0x1666f7572), (0x2084, 0x1666f7572696e666572696f72),
  (0x34, 0x1666f75726f6c647374796c65), (0x2074, 0x1666f75727375706572696f72), (0x2044, 0x16672616374696f6e), (0x20a3, 0x16672616e63), (0x67, 0x167), (0x3b3, 0x167616d6d61),
  (0x11f, 0x1676272657665), (0x1e7, 0x1676361726f6e), (0x11d, 0x16763697263756d666c6578), (0x123, 0x167636f6d6d61616363656e74), (0x121, 0x167646f74616363656e74), (0xdf, 0x16765726d616e64626c73),
  (0x2207, 0x16772616469656e74), (0x60, 0x16772617665), (0x300, 0x16772617665636f6d62), (0x3e, 0x167726561746572), (0x2265, 0x167726561746572657175616c), (0xab, 0x16775696c6c656d6f746c656674),
  (0xbb, 0x16775696c6c656d6f747269676874), (0x2039, 0x16775696c73696e676c6c656674), (0x203a, 0x16775696c73696e676c7269676874), (0x68, 0x168), (0x127, 0x168626172), (0x125, 0x16863697263756d666c6578),
  (0x2665, 0x16865617274), (0x309, 0x1686f6f6b61626f7665636f6d62), (0x2302, 0x1686f757365), (0x2dd, 0x168756e676172756d6c617574), (0x2d, 0x168797068656e), (0xf6e5, 0x168797068656e696e666572696f72),
  (0xf6e6, 0x168797068656e7375706572696f72), (0x69, 0x169), (0xed, 0x1696163757465), (0x12d, 0x1696272657665), (0xee, 0x16963697263756d666c6578), (0xef, 0x1696469657265736973),
  (0xec, 0x1696772617665), (0x133, 0x1696a), (0x12b, 0x1696d6163726f6e), (0x221e, 0x1696e66696e697479), (0x222b, 0x1696e74656772616c), (0x2321, 0x1696e74656772616c6274),
  (0xf8f5, 0x1696e74656772616c6578), (0x2320, 0x1696e74656772616c7470), (0x2229, 0x1696e74657273656374696f6e), (0x25d8, 0x1696e7662756c6c6574), (0x25d9, 0x1696e76636972636c65), (0x263b, 0x1696e76736d696c6566616365),
  (0x12f, 0x1696f676f6e656b), (0x3b9, 0x1696f7461), (0x3ca, 0x1696f74616469657265736973), (0x390, 0x1696f74616469657265736973746f6e6f73), (0x3af, 0x1696f7461746f6e6f73), (0xf6ed, 0x1697375706572696f72),
  (0x129, 0x16974696c6465), (0x6a, 0x16a), (0x135, 0x16a63697263756d666c6578), (0x6b, 0x16b), (0x3ba, 0x16b61707061), (0x137, 0x16b636f6d6d61616363656e74),
  (0x138, 0x16b677265656e6c616e646963), (0x6c, 0x16c), (0x13a, 0x16c6163757465), (0x3bb, 0x16c616d626461), (0x13e, 0x16c6361726f6e), (0x13c, 0x16c636f6d6d61616363656e74),
  (0x140, 0x16c646f74), (0x3c, 0x16c657373), (0x2264, 0x16c657373657175616c), (0x258c, 0x16c66626c6f636b), (0x20a4, 0x16c697261), (0xf6c0, 0x16c6c)]

/-- A part of `nameTab`. -/
def nameTab7 : List (Nat × Nat) := [
  (0x2227, 0x16c6f676963616c616e64), (0xac, 0x16c6f676963616c6e6f74), (0x2228, 0x16c6f676963616c6f72), (0x17f, 0x16c6f6e6773), (0x25ca, 0x16c6f7a656e6765), (0x142, 0x16c736c617368),
  (0xf6ee, 0x16c7375706572696f72), (0x2591, 0x16c747368616465), (0x6d, 0x16d), (0xaf, 0x16d6163726f6e), (0x2642, 0x16d616c65), (0x2212, 0x16d696e7573),
  (0x2032, 0x16d696e757465), (0xf6ef, 0x16d7375706572696f72), (0xb5, 0x16d75), (0xd7, 0x16d756c7469706c79), (0x266a, 0x16d75736963616c6e6f7465), (0x266b, 0x16d75736963616c6e6f746564626c),
  (0x6e, 0x16e), (0x144, 0x16e6163757465), (0x149, 0x16e61706f7374726f706865), (0xa0, 0x16e627370616365), (0x148, 0x16e6361726f6e), (0x146, 0x16e636f6d6d61616363656e74),
  (0x39, 0x16e696e65), (0x2089, 0x16e696e65696e666572696f72), (0x39, 0x16e696e656f6c647374796c65), (0x2079, 0x16e696e657375706572696f72), (0xa0, 0x16e6f6e627265616b696e677370616365), (0x2209, 0x16e6f74656c656d656e74),
  (0x2260, 0x16e6f74657175616c), (0x2284, 0x16e6f74737562736574), (0x207f, 0x16e7375706572696f72), (0xf1, 0x16e74696c6465), (0x3bd, 0x16e75), (0x23, 0x16e756d6265727369676e),
  (0x6f, 0x16f), (0xf3, 0x16f6163757465), (0x14f, 0x16f6272657665), (0xf4, 0x16f63697263756d666c6578), (0xf6, 0x16f6469657265736973), (0x153, 0x16f65),
  (0x2db, 0x16f676f6e656b), (0xf2, 0x16f6772617665), (0x1a1, 0x16f686f726e), (0x151, 0x16f68756e676172756d6c617574), (0x14d, 0x16f6d6163726f6e), (0x3c9, 0x16f6d656761),
  (0x3d6, 0x16f6d65676131), (0x3ce, 0x16f6d656761746f6e6f73), (0x3bf, 0x16f6d6963726f6e), (0x3cc, 0x16f6d6963726f6e746f6e6f73), (0x31, 0x16f6e65), (0x2024, 0x16f6e65646f74656e6c6561646572),
  (0x215b, 0x16f6e65656967687468), (0xf6dc, 0x16f6e65666974746564), (0xbd, 0x16f6e6568616c66), (0x2081, 0x16f6e65696e666572696f72), (0x31, 0x16f6e656f6c647374796c65), (0xbc, 0x16f6e6571756172746572),
  (0xb9, 0x16f6e657375706572696f72), (0x2153, 0x16f6e657468697264), (0x25e6, 0x16f70656e62756c6c6574), (0xaa, 0x16f726466656d696e696e65), (0xba, 0x16f72646d617363756c696e65), (0x221f, 0x16f7274686f676f6e616c),
  (0xf8, 0x16f736c617368), (0x1ff, 0x16f736c6173686163757465), (0xf6f0, 0x16f7375706572696f72), (0xf5, 0x16f74696c6465), (0x70, 0x170), (0xb6, 0x1706172616772617068),
  (0x28, 0x1706172656e6c656674), (0xf8ed, 0x1706172656e6c6566746274), (0xf8ec, 0x1706172656e6c6566746578), (0x208d, 0x1706172656e6c656674696e666572696f72), (0x207d, 0x1706172656e6c6566747375706572696f72), (0xf8eb, 0x1706172656e6c6566747470),
  (0x29, 0x1706172656e7269676874), (0xf8f8, 0x1706172656e72696768746274), (0xf8f7, 0x1706172656e72696768746578), (0x208e, 0x1706172656e7269676874696e666572696f72), (0x207e, 0x1706172656e72696768747375706572696f72), (0xf8f6, 0x1706172656e72696768747470),
  (0x2202, 0x17061727469616c64696666), (0x25, 0x170657263656e74), (0x2e, 0x1706572696f64), (0xb7, 0x1706572696f6463656e7465726564), (0xf6e7, 0x1706572696f64696e666572696f72), (0xf6e8, 0x1706572696f647375706572696f72),
  (0x22a5, 0x170657270656e646963756c6172), (0x2030, 0x170657274686f7573616e64), (0x20a7, 0x1706573657461), (0x3c6, 0x1706869), (0x3d5, 0x170686931), (0x3c0, 0x17069),
  (0x2b, 0x1706c7573), (0xb1, 0x1706c75736d696e7573), (0x211e, 0x1707265736372697074696f6e), (0x220f, 0x170726f64756374), (0x2282, 0x170726f706572737562736574), (0x2283, 0x170726f7065727375706572736574),
  (0x221d, 0x170726f706f7274696f6e616c), (0x3c8, 0x1707369), (0x71, 0x171), (0x3f, 0x17175657374696f6e), (0xbf, 0x17175657374696f6e646f776e), (0xbf, 0x17175657374696f6e646f776e736d616c6c),
  (0x3f, 0x17175657374696f6e736d616c6c), (0x22, 0x171756f746564626c), (0x201e, 0x171756f746564626c62617365), (0x201c, 0x171756f746564626c6c656674), (0x201d, 0x171756f746564626c7269676874), (0x2018, 0x171756f74656c656674),
  (0x201b, 0x171756f74657265766572736564), (0x2019, 0x171756f74657269676874), (0x201a, 0x171756f746573696e676c62617365), (0x27, 0x171756f746573696e676c65), (0x72, 0x172), (0x155, 0x1726163757465)]

/-- A part of `nameTab`. -/
def nameTab8 : List (Nat × Nat) := [
  (0x221a, 0x17261646963616c), (0xf8e5, 0x17261646963616c6578), (0x159, 0x1726361726f6e), (0x157, 0x172636f6d6d61616363656e74), (0x2286, 0x17265666c6578737562736574), (0x2287, 0x17265666c65787375706572736574),
  (0xae, 0x172656769737465726564), (0xae, 0x1726567697374657273616e73), (0xae, 0x172656769737465727365726966), (0x2310, 0x17265766c6f676963616c6e6f74), (0x3c1, 0x172686f), (0x2da, 0x172696e67),
  (0xf6f1, 0x1727375706572696f72), (0x2590, 0x17274626c6f636b), (0xf6dd, 0x1727570696168), (0x73, 0x173), (0x15b, 0x1736163757465), (0x161, 0x1736361726f6e),
  (0x15f, 0x173636564696c6c61), (0x15d, 0x17363697263756d666c6578), (0x219, 0x173636f6d6d61616363656e74), (0x2033, 0x17365636f6e64), (0xa7, 0x173656374696f6e), (0x3b, 0x173656d69636f6c6f6e),
  (0x37, 0x1736576656e), (0x215e, 0x1736576656e65696768746873), (0x2087, 0x1736576656e696e666572696f72), (0x37, 0x1736576656e6f6c647374796c65), (0x2077, 0x1736576656e7375706572696f72), (0x2592, 0x17368616465),
  (0x3c3, 0x17369676d61), (0x3c2, 0x17369676d6131), (0x223c, 0x173696d696c6172), (0x36, 0x1736978), (0x2086, 0x1736978696e666572696f72), (0x36, 0x17369786f6c647374796c65),
  (0x2076, 0x17369787375706572696f72), (0x2f, 0x1736c617368), (0x263a, 0x1736d696c6566616365), (0x20, 0x17370616365), (0x2660, 0x17370616465), (0xf6f2, 0x1737375706572696f72),
  (0xa3, 0x1737465726c696e67), (0x220b, 0x17375636874686174), (0x2211, 0x173756d6d6174696f6e), (0x263c, 0x173756e), (0x74, 0x174), (0x3c4, 0x1746175),
  (0x167, 0x174626172), (0x165, 0x1746361726f6e), (0x163, 0x174636f6d6d61616363656e74), (0x2234, 0x17468657265666f7265), (0x3b8, 0x17468657461), (0x3d1, 0x1746865746131),
  (0xfe, 0x174686f726e), (0x33, 0x17468726565), (0x215c, 0x1746872656565696768746873), (0x2083, 0x17468726565696e666572696f72), (0x33, 0x174687265656f6c647374796c65), (0xbe, 0x174687265657175617274657273),
  (0xf6de, 0x174687265657175617274657273656d64617368), (0xb3, 0x174687265657375706572696f72), (0x2dc, 0x174696c6465), (0x303, 0x174696c6465636f6d62), (0x384, 0x1746f6e6f73), (0x2122, 0x174726164656d61726b),
  (0x2122, 0x174726164656d61726b73616e73), (0x2122, 0x174726164656d61726b7365726966), (0x25bc, 0x17472696167646e), (0x25c4, 0x174726961676c66), (0x25ba, 0x174726961677274), (0x25b2, 0x174726961677570),
  (0xf6f3, 0x1747375706572696f72), (0x32, 0x174776f), (0x2025, 0x174776f646f74656e6c6561646572), (0x2082, 0x174776f696e666572696f72), (0x32, 0x174776f6f6c647374796c65), (0xb2, 0x174776f7375706572696f72),
  (0x2154, 0x174776f746869726473), (0x75, 0x175), (0xfa, 0x1756163757465), (0x16d, 0x1756272657665), (0xfb, 0x17563697263756d666c6578), (0xfc, 0x1756469657265736973),
  (0xf9, 0x1756772617665), (0x1b0, 0x175686f726e), (0x171, 0x17568756e676172756d6c617574), (0x16b, 0x1756d6163726f6e), (0x5f, 0x1756e64657273636f7265), (0x2017, 0x1756e64657273636f726564626c),
  (0x222a, 0x1756e696f6e), (0x2200, 0x1756e6976657273616c), (0x173, 0x1756f676f6e656b), (0x2580, 0x17570626c6f636b), (0x3c5, 0x1757073696c6f6e), (0x3cb, 0x1757073696c6f6e6469657265736973),
  (0x3b0, 0x1757073696c6f6e6469657265736973746f6e6f73), (0x3cd, 0x1757073696c6f6e746f6e6f73), (0x16f, 0x17572696e67), (0x169, 0x17574696c6465), (0x76, 0x176), (0x77, 0x177),
  (0x1e83, 0x1776163757465), (0x175, 0x17763697263756d666c6578), (0x1e85, 0x1776469657265736973), (0x2118, 0x17765696572737472617373), (0x1e81, 0x1776772617665), (0x78, 0x178),
  (0x3be, 0x17869), (0x79, 0x179), (0xfd, 0x1796163757465), (0x177, 0x17963697263756d666c6578), (0xff, 0x1796469657265736973), (0xa5, 0x179656e),
  (0x1ef3, 0x1796772617665), (0x7a, 0x17a), (0x17a, 0x17a6163757465), (0x17e, 0x17a6361726f6e), (0x17c, 0x17a646f74616363656e74), (0x30, 0x17a65726f)]

/-- A part of `nameTab`. -/
def nameTab9 : List (Nat × Nat) := [
  (0x2080, 0x17a65726f696e666572696f72), (0x30, 0x17a65726f6f6c647374796c65), (0x2070, 0x17a65726f7375706572696f72), (0x3b6, 0x17a657461), (0x7b, 0x17b), (0x7c, 0x17c),
  (0x7d, 0x17d), (0x7e, 0x17e), (0x275e, 0x161313030), (0x2761, 0x161313031), (0x2762, 0x161313032), (0x2763, 0x161313033),
  (0x2764, 0x161313034), (0x2710, 0x161313035), (0x2765, 0x161313036), (0x2766, 0x161313037), (0x2767, 0x161313038), (0x2660, 0x161313039),
  (0x2721, 0x1613130), (0x2665, 0x161313130), (0x2666, 0x161313131), (0x2663, 0x161313132), (0x2709, 0x161313137), (0x2708, 0x161313138),
  (0x2707, 0x161313139), (0x261b, 0x1613131), (0x2460, 0x161313230), (0x2461, 0x161313231), (0x2462, 0x161313232), (0x2463, 0x161313233),
  (0x2464, 0x161313234), (0x2465, 0x161313235), (0x2466, 0x161313236), (0x2467, 0x161313237), (0x2468, 0x161313238), (0x2469, 0x161313239),
  (0x261e, 0x1613132), (0x2776, 0x161313330), (0x2777, 0x161313331), (0x2778, 0x161313332), (0x2779, 0x161313333), (0x277a, 0x161313334),
  (0x277b, 0x161313335), (0x277c, 0x161313336), (0x277d, 0x161313337), (0x277e, 0x161313338), (0x277f, 0x161313339), (0x270c, 0x1613133),
  (0x2780, 0x161313430), (0x2781, 0x161313431), (0x2782, 0x161313432), (0x2783, 0x161313433), (0x2784, 0x161313434), (0x2785, 0x161313435),
  (0x2786, 0x161313436), (0x2787, 0x161313437), (0x2788, 0x161313438), (0x2789, 0x161313439), (0x270d, 0x1613134), (0x278a, 0x161313530),
  (0x278b, 0x161313531), (0x278c, 0x161313532), (0x278d, 0x161313533), (0x278e, 0x161313534), (0x278f, 0x161313535), (0x2790, 0x161313536),
  (0x2791, 0x161313537), (0x2792, 0x161313538), (0x2793, 0x161313539), (0x270e, 0x1613135), (0x2794, 0x161313630), (0x2192, 0x161313631),
  (0x27a3, 0x161313632), (0x2194, 0x161313633), (0x2195, 0x161313634), (0x2799, 0x161313635), (0x279b, 0x161313636), (0x279c, 0x161313637),
  (0x279d, 0x161313638), (0x279e, 0x161313639), (0x270f, 0x1613136), (0x279f, 0x161313730), (0x27a0, 0x161313731), (0x27a1, 0x161313732),
  (0x27a2, 0x161313733), (0x27a4, 0x161313734), (0x27a5, 0x161313735), (0x27a6, 0x161313736), (0x27a7, 0x161313737), (0x27a8, 0x161313738),
  (0x27a9, 0x161313739), (0x2711, 0x1613137), (0x27ab, 0x161313830), (0x27ad, 0x161313831), (0x27af, 0x161313832), (0x27b2, 0x161313833),
  (0x27b3, 0x161313834), (0x27b5, 0x161313835), (0x27b8, 0x161313836), (0x27ba, 0x161313837), (0x27bb, 0x161313838), (0x27bc, 0x161313839),
  (0x2712, 0x1613138), (0x27bd, 0x161313930), (0x27be, 0x161313931), (0x279a, 0x161313932), (0x27aa, 0x161313933), (0x27b6, 0x161313934),
  (0x27b9, 0x161313935), (0x2798, 0x161313936), (0x27b4, 0x161313937), (0x27b7, 0x161313938), (0x27ac, 0x161313939), (0x2713, 0x1613139),
  (0x2701, 0x16131), (0x27ae, 0x161323030), (0x27b1, 0x161323031), (0x2703, 0x161323032), (0x2750, 0x161323033), (0x2752, 0x161323034)]

/-- A part of `nameTab`. -/
def nameTab10 : List (Nat × Nat) := [
  (0x276e, 0x161323035), (0x2770, 0x161323036), (0x2714, 0x1613230), (0x2715, 0x1613231), (0x2716, 0x1613232), (0x2717, 0x1613233),
  (0x2718, 0x1613234), (0x2719, 0x1613235), (0x271a, 0x1613236), (0x271b, 0x1613237), (0x271c, 0x1613238), (0x2722, 0x1613239),
  (0x2702, 0x16132), (0x2723, 0x1613330), (0x2724, 0x1613331), (0x2725, 0x1613332), (0x2726, 0x1613333), (0x2727, 0x1613334),
  (0x2605, 0x1613335), (0x2729, 0x1613336), (0x272a, 0x1613337), (0x272b, 0x1613338), (0x272c, 0x1613339), (0x2704, 0x16133),
  (0x272d, 0x1613430), (0x272e, 0x1613431), (0x272f, 0x1613432), (0x2730, 0x1613433), (0x2731, 0x1613434), (0x2732, 0x1613435),
  (0x2733, 0x1613436), (0x2734, 0x1613437), (0x2735, 0x1613438), (0x2736, 0x1613439), (0x260e, 0x16134), (0x2737, 0x1613530),
  (0x2738, 0x1613531), (0x2739, 0x1613532), (0x273a, 0x1613533), (0x273b, 0x1613534), (0x273c, 0x1613535), (0x273d, 0x1613536),
  (0x273e, 0x1613537), (0x273f, 0x1613538), (0x2740, 0x1613539), (0x2706, 0x16135), (0x2741, 0x1613630), (0x2742, 0x1613631),
  (0x2743, 0x1613632), (0x2744, 0x1613633), (0x2745, 0x1613634), (0x2746, 0x1613635), (0x2747, 0x1613636), (0x2748, 0x1613637),
  (0x2749, 0x1613638), (0x274a, 0x1613639), (0x271d, 0x16136), (0x274b, 0x1613730), (0x25cf, 0x1613731), (0x274d, 0x1613732),
  (0x25a0, 0x1613733), (0x274f, 0x1613734), (0x2751, 0x1613735), (0x25b2, 0x1613736), (0x25bc, 0x1613737), (0x25c6, 0x1613738),
  (0x2756, 0x1613739), (0x271e, 0x16137), (0x25d7, 0x1613831), (0x2758, 0x1613832), (0x2759, 0x1613833), (0x275a, 0x1613834),
  (0x276f, 0x1613835), (0x2771, 0x1613836), (0x2772, 0x1613837), (0x2773, 0x1613838), (0x2768, 0x1613839), (0x271f, 0x16138),
  (0x2769, 0x1613930), (0x276c, 0x1613931), (0x276d, 0x1613932), (0x276a, 0x1613933), (0x276b, 0x1613934), (0x2774, 0x1613935),
  (0x2775, 0x1613936), (0x275b, 0x1613937), (0x275c, 0x1613938), (0x275d, 0x1613939), (0x2720, 0x16139)]

/-- `nameToUnicodeTab`, `src/pdfmm/base/PdfDifferenceEncoding.cpp:28-1325`: code points and names. -/
def nameTab : List (Nat × Nat) :=
  nameTab0 ++ (nameTab1 ++ (nameTab2 ++ (nameTab3 ++ (nameTab4 ++ (nameTab5 ++ (nameTab6 ++ (nameTab7 ++ (nameTab8 ++ (nameTab9 ++ (nameTab10))))))))))

/-- A part of `codeTab`. -/
def codeTab0 : List (Nat × Nat) := [
  (0x0, 0x12e6e6f74646566), (0x20, 0x17370616365), (0x21, 0x16578636c616d), (0x22, 0x171756f746564626c), (0x23, 0x16e756d6265727369676e), (0x24, 0x1646f6c6c6172),
  (0x25, 0x170657263656e74), (0x26, 0x1616d70657273616e64), (0x27, 0x171756f746573696e676c65), (0x28, 0x1706172656e6c656674), (0x29, 0x1706172656e7269676874), (0x2a, 0x1617374657269736b),
  (0x2b, 0x1706c7573), (0x2c, 0x1636f6d6d61), (0x2d, 0x168797068656e), (0x2e, 0x1706572696f64), (0x2f, 0x1736c617368), (0x30, 0x17a65726f),
  (0x31, 0x16f6e65), (0x32, 0x174776f), (0x33, 0x17468726565), (0x34, 0x1666f7572), (0x35, 0x166697665), (0x36, 0x1736978),
  (0x37, 0x1736576656e), (0x38, 0x16569676874), (0x39, 0x16e696e65), (0x3a, 0x1636f6c6f6e), (0x3b, 0x173656d69636f6c6f6e), (0x3c, 0x16c657373),
  (0x3d, 0x1657175616c), (0x3e, 0x167726561746572), (0x3f, 0x17175657374696f6e), (0x40, 0x16174), (0x41, 0x141), (0x42, 0x142),
  (0x43, 0x143), (0x44, 0x144), (0x45, 0x145), (0x46, 0x146), (0x47, 0x147), (0x48, 0x148),
  (0x49, 0x149), (0x4a, 0x14a), (0x4b, 0x14b), (0x4c, 0x14c), (0x4d, 0x14d), (0x4e, 0x14e),
  (0x4f, 0x14f), (0x50, 0x150), (0x51, 0x151), (0x52, 0x152), (0x53, 0x153), (0x54, 0x154),
  (0x55, 0x155), (0x56, 0x156), (0x57, 0x157), (0x58, 0x158), (0x59, 0x159), (0x5a, 0x15a),
  (0x5b, 0x1627261636b65746c656674), (0x5c, 0x16261636b736c617368), (0x5d, 0x1627261636b65747269676874), (0x5e, 0x1617363696963697263756d), (0x5f, 0x1756e64657273636f7265), (0x60, 0x16772617665),
  (0x61, 0x161), (0x62, 0x162), (0x63, 0x163), (0x64, 0x164), (0x65, 0x165), (0x66, 0x166),
  (0x67, 0x167), (0x68, 0x168), (0x69, 0x169), (0x6a, 0x16a), (0x6b, 0x16b), (0x6c, 0x16c),
  (0x6d, 0x16d), (0x6e, 0x16e), (0x6f, 0x16f), (0x70, 0x170), (0x71, 0x171), (0x72, 0x172),
  (0x73, 0x173), (0x74, 0x174), (0x75, 0x175), (0x76, 0x176), (0x77, 0x177), (0x78, 0x178),
  (0x79, 0x179), (0x7a, 0x17a), (0x7b, 0x162726163656c656674), (0x7c, 0x1626172), (0x7d, 0x162726163657269676874), (0x7e, 0x1617363696974696c6465),
  (0xa0, 0x17370616365), (0xa1, 0x16578636c616d646f776e), (0xa2, 0x163656e74), (0xa3, 0x1737465726c696e67), (0xa4, 0x163757272656e6379), (0xa5, 0x179656e),
  (0xa6, 0x162726f6b656e626172), (0xa7, 0x173656374696f6e), (0xa8, 0x16469657265736973), (0xa9, 0x1636f70797269676874), (0xaa, 0x16f726466656d696e696e65), (0xab, 0x16775696c6c656d6f746c656674),
  (0xac, 0x16c6f676963616c6e6f74), (0xad, 0x168797068656e), (0xae, 0x172656769737465726564), (0xaf, 0x16d6163726f6e), (0xb0, 0x1646567726565), (0xb1, 0x1706c75736d696e7573),
  (0xb2, 0x174776f7375706572696f72), (0xb3, 0x174687265657375706572696f72), (0xb4, 0x16163757465), (0xb5, 0x16d75), (0xb6, 0x1706172616772617068), (0xb7, 0x1706572696f6463656e7465726564)]

/-- A part of `codeTab`. -/
def codeTab1 : List (Nat × Nat) := [
  (0xb8, 0x1636564696c6c61), (0xb9, 0x16f6e657375706572696f72), (0xba, 0x16f72646d617363756c696e65), (0xbb, 0x16775696c6c656d6f747269676874), (0xbc, 0x16f6e6571756172746572), (0xbd, 0x16f6e6568616c66),
  (0xbe, 0x174687265657175617274657273), (0xbf, 0x17175657374696f6e646f776e), (0xc0, 0x1416772617665), (0xc1, 0x1416163757465), (0xc2, 0x14163697263756d666c6578), (0xc3, 0x14174696c6465),
  (0xc4, 0x1416469657265736973), (0xc5, 0x14172696e67), (0xc6, 0x14145), (0xc7, 0x143636564696c6c61), (0xc8, 0x1456772617665), (0xc9, 0x1456163757465),
  (0xca, 0x14563697263756d666c6578), (0xcb, 0x1456469657265736973), (0xcc, 0x1496772617665), (0xcd, 0x1496163757465), (0xce, 0x14963697263756d666c6578), (0xcf, 0x1496469657265736973),
  (0xd0, 0x1457468), (0xd1, 0x14e74696c6465), (0xd2, 0x14f6772617665), (0xd3, 0x14f6163757465), (0xd4, 0x14f63697263756d666c6578), (0xd5, 0x14f74696c6465),
  (0xd6, 0x14f6469657265736973), (0xd7, 0x16d756c7469706c79), (0xd8, 0x14f736c617368), (0xd9, 0x1556772617665), (0xda, 0x1556163757465), (0xdb, 0x15563697263756d666c6578),
  (0xdc, 0x1556469657265736973), (0xdd, 0x1596163757465), (0xde, 0x154686f726e), (0xdf, 0x16765726d616e64626c73), (0xe0, 0x1616772617665), (0xe1, 0x1616163757465),
  (0xe2, 0x16163697263756d666c6578), (0xe3, 0x16174696c6465), (0xe4, 0x1616469657265736973), (0xe5, 0x16172696e67), (0xe6, 0x16165), (0xe7, 0x163636564696c6c61),
  (0xe8, 0x1656772617665), (0xe9, 0x1656163757465), (0xea, 0x16563697263756d666c6578), (0xeb, 0x1656469657265736973), (0xec, 0x1696772617665), (0xed, 0x1696163757465),
  (0xee, 0x16963697263756d666c6578), (0xef, 0x1696469657265736973), (0xf0, 0x1657468), (0xf1, 0x16e74696c6465), (0xf2, 0x16f6772617665), (0xf3, 0x16f6163757465),
  (0xf4, 0x16f63697263756d666c6578), (0xf5, 0x16f74696c6465), (0xf6, 0x16f6469657265736973), (0xf7, 0x1646976696465), (0xf8, 0x16f736c617368), (0xf9, 0x1756772617665),
  (0xfa, 0x1756163757465), (0xfb, 0x17563697263756d666c6578), (0xfc, 0x1756469657265736973), (0xfd, 0x1796163757465), (0xfe, 0x174686f726e), (0xff, 0x1796469657265736973),
  (0x100, 0x1416d6163726f6e), (0x101, 0x1616d6163726f6e), (0x102, 0x1416272657665), (0x103, 0x1616272657665), (0x104, 0x1416f676f6e656b), (0x105, 0x1616f676f6e656b),
  (0x106, 0x1436163757465), (0x107, 0x1636163757465), (0x108, 0x14363697263756d666c6578), (0x109, 0x16363697263756d666c6578), (0x10a, 0x143646f74616363656e74), (0x10b, 0x163646f74616363656e74),
  (0x10c, 0x1436361726f6e), (0x10d, 0x1636361726f6e), (0x10e, 0x1446361726f6e), (0x10f, 0x1646361726f6e), (0x110, 0x14463726f6174), (0x111, 0x16463726f6174),
  (0x112, 0x1456d6163726f6e), (0x113, 0x1656d6163726f6e), (0x114, 0x1456272657665), (0x115, 0x1656272657665), (0x116, 0x145646f74616363656e74), (0x117, 0x165646f74616363656e74),
  (0x118, 0x1456f676f6e656b), (0x119, 0x1656f676f6e656b), (0x11a, 0x1456361726f6e), (0x11b, 0x1656361726f6e), (0x11c, 0x14763697263756d666c6578), (0x11d, 0x16763697263756d666c6578),
  (0x11e, 0x1476272657665), (0x11f, 0x1676272657665), (0x120, 0x147646f74616363656e74), (0x121, 0x167646f74616363656e74), (0x122, 0x147636f6d6d61616363656e74), (0x123, 0x167636f6d6d61616363656e74),
  (0x124, 0x14863697263756d666c6578), (0x125, 0x16863697263756d666c6578), (0x126, 0x148626172), (0x127, 0x168626172), (0x128, 0x14974696c6465), (0x129, 0x16974696c6465),
  (0x12a, 0x1496d6163726f6e), (0x12b, 0x1696d6163726f6e), (0x12c, 0x1496272657665), (0x12d, 0x1696272657665), (0x12e, 0x1496f676f6e656b), (0x12f, 0x1696f676f6e656b)]

/-- A part of `codeTab`. -/
def codeTab2 : List (Nat × Nat) := [
  (0x130, 0x149646f74616363656e74), (0x131, 0x1646f746c65737369), (0x132, 0x1494a), (0x133, 0x1696a), (0x134, 0x14a63697263756d666c6578), (0x135, 0x16a63697263756d666c6578),
  (0x136, 0x14b636f6d6d61616363656e74), (0x137, 0x16b636f6d6d61616363656e74), (0x138, 0x16b677265656e6c616e646963), (0x139, 0x14c6163757465), (0x13a, 0x16c6163757465), (0x13b, 0x14c636f6d6d61616363656e74),
  (0x13c, 0x16c636f6d6d61616363656e74), (0x13d, 0x14c6361726f6e), (0x13e, 0x16c6361726f6e), (0x13f, 0x14c646f74), (0x140, 0x16c646f74), (0x141, 0x14c736c617368),
  (0x142, 0x16c736c617368), (0x143, 0x14e6163757465), (0x144, 0x16e6163757465), (0x145, 0x14e636f6d6d61616363656e74), (0x146, 0x16e636f6d6d61616363656e74), (0x147, 0x14e6361726f6e),
  (0x148, 0x16e6361726f6e), (0x149, 0x16e61706f7374726f706865), (0x14a, 0x1456e67), (0x14b, 0x1656e67), (0x14c, 0x14f6d6163726f6e), (0x14d, 0x16f6d6163726f6e),
  (0x14e, 0x14f6272657665), (0x14f, 0x16f6272657665), (0x150, 0x14f68756e676172756d6c617574), (0x151, 0x16f68756e676172756d6c617574), (0x152, 0x14f45), (0x153, 0x16f65),
  (0x154, 0x1526163757465), (0x155, 0x1726163757465), (0x156, 0x152636f6d6d61616363656e74), (0x157, 0x172636f6d6d61616363656e74), (0x158, 0x1526361726f6e), (0x159, 0x1726361726f6e),
  (0x15a, 0x1536163757465), (0x15b, 0x1736163757465), (0x15c, 0x15363697263756d666c6578), (0x15d, 0x17363697263756d666c6578), (0x15e, 0x153636564696c6c61), (0x15f, 0x173636564696c6c61),
  (0x160, 0x1536361726f6e), (0x161, 0x1736361726f6e), (0x162, 0x154636f6d6d61616363656e74), (0x163, 0x174636f6d6d61616363656e74), (0x164, 0x1546361726f6e), (0x165, 0x1746361726f6e),
  (0x166, 0x154626172), (0x167, 0x174626172), (0x168, 0x15574696c6465), (0x169, 0x17574696c6465), (0x16a, 0x1556d6163726f6e), (0x16b, 0x1756d6163726f6e),
  (0x16c, 0x1556272657665), (0x16d, 0x1756272657665), (0x16e, 0x15572696e67), (0x16f, 0x17572696e67), (0x170, 0x15568756e676172756d6c617574), (0x171, 0x17568756e676172756d6c617574),
  (0x172, 0x1556f676f6e656b), (0x173, 0x1756f676f6e656b), (0x174, 0x15763697263756d666c6578), (0x175, 0x17763697263756d666c6578), (0x176, 0x15963697263756d666c6578), (0x177, 0x17963697263756d666c6578),
  (0x178, 0x1596469657265736973), (0x179, 0x15a6163757465), (0x17a, 0x17a6163757465), (0x17b, 0x15a646f74616363656e74), (0x17c, 0x17a646f74616363656e74), (0x17d, 0x15a6361726f6e),
  (0x17e, 0x17a6361726f6e), (0x17f, 0x16c6f6e6773), (0x192, 0x1666c6f72696e), (0x1a0, 0x14f686f726e), (0x1a1, 0x16f686f726e), (0x1af, 0x155686f726e),
  (0x1b0, 0x175686f726e), (0x1e6, 0x1476361726f6e), (0x1e7, 0x1676361726f6e), (0x1fa, 0x14172696e676163757465), (0x1fb, 0x16172696e676163757465), (0x1fc, 0x141456163757465),
  (0x1fd, 0x161656163757465), (0x1fe, 0x14f736c6173686163757465), (0x1ff, 0x16f736c6173686163757465), (0x218, 0x153636f6d6d61616363656e74), (0x219, 0x173636f6d6d61616363656e74), (0x21a, 0x154636f6d6d61616363656e74),
  (0x21b, 0x174636f6d6d61616363656e74), (0x2bc, 0x1616669693537393239), (0x2bd, 0x1616669693634393337), (0x2c6, 0x163697263756d666c6578), (0x2c7, 0x16361726f6e), (0x2c9, 0x16d6163726f6e),
  (0x2d8, 0x16272657665), (0x2d9, 0x1646f74616363656e74), (0x2da, 0x172696e67), (0x2db, 0x16f676f6e656b), (0x2dc, 0x174696c6465), (0x2dd, 0x168756e676172756d6c617574),
  (0x300, 0x16772617665636f6d62), (0x301, 0x16163757465636f6d62), (0x303, 0x174696c6465636f6d62), (0x309, 0x1686f6f6b61626f7665636f6d62), (0x323, 0x1646f7462656c6f77636f6d62), (0x384, 0x1746f6e6f73),
  (0x385, 0x16469657265736973746f6e6f73), (0x386, 0x1416c706861746f6e6f73), (0x387, 0x1616e6f74656c656961), (0x388, 0x1457073696c6f6e746f6e6f73), (0x389, 0x1457461746f6e6f73), (0x38a, 0x1496f7461746f6e6f73)]

/-- A part of `codeTab`. -/
def codeTab3 : List (Nat × Nat) := [
  (0x38c, 0x14f6d6963726f6e746f6e6f73), (0x38e, 0x1557073696c6f6e746f6e6f73), (0x38f, 0x14f6d656761746f6e6f73), (0x390, 0x1696f74616469657265736973746f6e6f73), (0x391, 0x1416c706861), (0x392, 0x142657461),
  (0x393, 0x147616d6d61), (0x394, 0x144656c7461), (0x395, 0x1457073696c6f6e), (0x396, 0x15a657461), (0x397, 0x1457461), (0x398, 0x15468657461),
  (0x399, 0x1496f7461), (0x39a, 0x14b61707061), (0x39b, 0x14c616d626461), (0x39c, 0x14d75), (0x39d, 0x14e75), (0x39e, 0x15869),
  (0x39f, 0x14f6d6963726f6e), (0x3a0, 0x15069), (0x3a1, 0x152686f), (0x3a3, 0x15369676d61), (0x3a4, 0x1546175), (0x3a5, 0x1557073696c6f6e),
  (0x3a6, 0x1506869), (0x3a7, 0x1436869), (0x3a8, 0x1507369), (0x3a9, 0x14f6d656761), (0x3aa, 0x1496f74616469657265736973), (0x3ab, 0x1557073696c6f6e6469657265736973),
  (0x3ac, 0x1616c706861746f6e6f73), (0x3ad, 0x1657073696c6f6e746f6e6f73), (0x3ae, 0x1657461746f6e6f73), (0x3af, 0x1696f7461746f6e6f73), (0x3b0, 0x1757073696c6f6e6469657265736973746f6e6f73), (0x3b1, 0x1616c706861),
  (0x3b2, 0x162657461), (0x3b3, 0x167616d6d61), (0x3b4, 0x164656c7461), (0x3b5, 0x1657073696c6f6e), (0x3b6, 0x17a657461), (0x3b7, 0x1657461),
  (0x3b8, 0x17468657461), (0x3b9, 0x1696f7461), (0x3ba, 0x16b61707061), (0x3bb, 0x16c616d626461), (0x3bc, 0x16d75), (0x3bd, 0x16e75),
  (0x3be, 0x17869), (0x3bf, 0x16f6d6963726f6e), (0x3c0, 0x17069), (0x3c1, 0x172686f), (0x3c2, 0x17369676d6131), (0x3c3, 0x17369676d61),
  (0x3c4, 0x1746175), (0x3c5, 0x1757073696c6f6e), (0x3c6, 0x1706869), (0x3c7, 0x1636869), (0x3c8, 0x1707369), (0x3c9, 0x16f6d656761),
  (0x3ca, 0x1696f74616469657265736973), (0x3cb, 0x1757073696c6f6e6469657265736973), (0x3cc, 0x16f6d6963726f6e746f6e6f73), (0x3cd, 0x1757073696c6f6e746f6e6f73), (0x3ce, 0x16f6d656761746f6e6f73), (0x3d1, 0x1746865746131),
  (0x3d2, 0x1557073696c6f6e31), (0x3d5, 0x170686931), (0x3d6, 0x16f6d65676131), (0x401, 0x1616669693130303233), (0x402, 0x1616669693130303531), (0x403, 0x1616669693130303532),
  (0x404, 0x1616669693130303533), (0x405, 0x1616669693130303534), (0x406, 0x1616669693130303535), (0x407, 0x1616669693130303536), (0x408, 0x1616669693130303537), (0x409, 0x1616669693130303538),
  (0x40a, 0x1616669693130303539), (0x40b, 0x1616669693130303630), (0x40c, 0x1616669693130303631), (0x40e, 0x1616669693130303632), (0x40f, 0x1616669693130313435), (0x410, 0x1616669693130303137),
  (0x411, 0x1616669693130303138), (0x412, 0x1616669693130303139), (0x413, 0x1616669693130303230), (0x414, 0x1616669693130303231), (0x415, 0x1616669693130303232), (0x416, 0x1616669693130303234),
  (0x417, 0x1616669693130303235), (0x418, 0x1616669693130303236), (0x419, 0x1616669693130303237), (0x41a, 0x1616669693130303238), (0x41b, 0x1616669693130303239), (0x41c, 0x1616669693130303330),
  (0x41d, 0x1616669693130303331), (0x41e, 0x1616669693130303332), (0x41f, 0x1616669693130303333), (0x420, 0x1616669693130303334), (0x421, 0x1616669693130303335), (0x422, 0x1616669693130303336),
  (0x423, 0x1616669693130303337), (0x424, 0x1616669693130303338), (0x425, 0x1616669693130303339), (0x426, 0x1616669693130303430), (0x427, 0x1616669693130303431), (0x428, 0x1616669693130303432),
  (0x429, 0x1616669693130303433), (0x42a, 0x1616669693130303434), (0x42b, 0x1616669693130303435), (0x42c, 0x1616669693130303436), (0x42d, 0x1616669693130303437), (0x42e, 0x1616669693130303438),
  (0x42f, 0x1616669693130303439), (0x430, 0x1616669693130303635), (0x431, 0x1616669693130303636), (0x432, 0x1616669693130303637), (0x433, 0x1616669693130303638), (0x434, 0x1616669693130303639)]

/-- A part of `codeTab`. -/
def codeTab4 : List (Nat × Nat) := [
  (0x435, 0x1616669693130303730), (0x436, 0x1616669693130303732), (0x437, 0x1616669693130303733), (0x438, 0x1616669693130303734), (0x439, 0x1616669693130303735), (0x43a, 0x1616669693130303736),
  (0x43b, 0x1616669693130303737), (0x43c, 0x1616669693130303738), (0x43d, 0x1616669693130303739), (0x43e, 0x1616669693130303830), (0x43f, 0x1616669693130303831), (0x440, 0x1616669693130303832),
  (0x441, 0x1616669693130303833), (0x442, 0x1616669693130303834), (0x443, 0x1616669693130303835), (0x444, 0x1616669693130303836), (0x445, 0x1616669693130303837), (0x446, 0x1616669693130303838),
  (0x447, 0x1616669693130303839), (0x448, 0x1616669693130303930), (0x449, 0x1616669693130303931), (0x44a, 0x1616669693130303932), (0x44b, 0x1616669693130303933), (0x44c, 0x1616669693130303934),
  (0x44d, 0x1616669693130303935), (0x44e, 0x1616669693130303936), (0x44f, 0x1616669693130303937), (0x451, 0x1616669693130303731), (0x452, 0x1616669693130303939), (0x453, 0x1616669693130313030),
  (0x454, 0x1616669693130313031), (0x455, 0x1616669693130313032), (0x456, 0x1616669693130313033), (0x457, 0x1616669693130313034), (0x458, 0x1616669693130313035), (0x459, 0x1616669693130313036),
  (0x45a, 0x1616669693130313037), (0x45b, 0x1616669693130313038), (0x45c, 0x1616669693130313039), (0x45e, 0x1616669693130313130), (0x45f, 0x1616669693130313933), (0x462, 0x1616669693130313436),
  (0x463, 0x1616669693130313934), (0x472, 0x1616669693130313437), (0x473, 0x1616669693130313935), (0x474, 0x1616669693130313438), (0x475, 0x1616669693130313936), (0x490, 0x1616669693130303530),
  (0x491, 0x1616669693130303938), (0x4d9, 0x1616669693130383436), (0x5b0, 0x1616669693537373939), (0x5b1, 0x1616669693537383031), (0x5b2, 0x1616669693537383030), (0x5b3, 0x1616669693537383032),
  (0x5b4, 0x1616669693537373933), (0x5b5, 0x1616669693537373934), (0x5b6, 0x1616669693537373935), (0x5b7, 0x1616669693537373938), (0x5b8, 0x1616669693537373937), (0x5b9, 0x1616669693537383036),
  (0x5bb, 0x1616669693537373936), (0x5bc, 0x1616669693537383037), (0x5bd, 0x1616669693537383339), (0x5be, 0x1616669693537363435), (0x5bf, 0x1616669693537383431), (0x5c0, 0x1616669693537383432),
  (0x5c1, 0x1616669693537383034), (0x5c2, 0x1616669693537383033), (0x5c3, 0x1616669693537363538), (0x5d0, 0x1616669693537363634), (0x5d1, 0x1616669693537363635), (0x5d2, 0x1616669693537363636),
  (0x5d3, 0x1616669693537363637), (0x5d4, 0x1616669693537363638), (0x5d5, 0x1616669693537363639), (0x5d6, 0x1616669693537363730), (0x5d7, 0x1616669693537363731), (0x5d8, 0x1616669693537363732),
  (0x5d9, 0x1616669693537363733), (0x5da, 0x1616669693537363734), (0x5db, 0x1616669693537363735), (0x5dc, 0x1616669693537363736), (0x5dd, 0x1616669693537363737), (0x5de, 0x1616669693537363738),
  (0x5df, 0x1616669693537363739), (0x5e0, 0x1616669693537363830), (0x5e1, 0x1616669693537363831), (0x5e2, 0x1616669693537363832), (0x5e3, 0x1616669693537363833), (0x5e4, 0x1616669693537363834),
  (0x5e5, 0x1616669693537363835), (0x5e6, 0x1616669693537363836), (0x5e7, 0x1616669693537363837), (0x5e8, 0x1616669693537363838), (0x5e9, 0x1616669693537363839), (0x5ea, 0x1616669693537363930),
  (0x5f0, 0x1616669693537373136), (0x5f1, 0x1616669693537373137), (0x5f2, 0x1616669693537373138), (0x60c, 0x1616669693537333838), (0x61b, 0x1616669693537343033), (0x61f, 0x1616669693537343037),
  (0x621, 0x1616669693537343039), (0x622, 0x1616669693537343130), (0x623, 0x1616669693537343131), (0x624, 0x1616669693537343132), (0x625, 0x1616669693537343133), (0x626, 0x1616669693537343134),
  (0x627, 0x1616669693537343135), (0x628, 0x1616669693537343136), (0x629, 0x1616669693537343137), (0x62a, 0x1616669693537343138), (0x62b, 0x1616669693537343139), (0x62c, 0x1616669693537343230),
  (0x62d, 0x1616669693537343231), (0x62e, 0x1616669693537343232), (0x62f, 0x1616669693537343233), (0x630, 0x1616669693537343234), (0x631, 0x1616669693537343235), (0x632, 0x1616669693537343236)]

/-- A part of `codeTab`. -/
def codeTab5 : List (Nat × Nat) := [
  (0x633, 0x1616669693537343237), (0x634, 0x1616669693537343238), (0x635, 0x1616669693537343239), (0x636, 0x1616669693537343330), (0x637, 0x1616669693537343331), (0x638, 0x1616669693537343332),
  (0x639, 0x1616669693537343333), (0x63a, 0x1616669693537343334), (0x640, 0x1616669693537343430), (0x641, 0x1616669693537343431), (0x642, 0x1616669693537343432), (0x643, 0x1616669693537343433),
  (0x644, 0x1616669693537343434), (0x645, 0x1616669693537343435), (0x646, 0x1616669693537343436), (0x647, 0x1616669693537343730), (0x648, 0x1616669693537343438), (0x649, 0x1616669693537343439),
  (0x64a, 0x1616669693537343530), (0x64b, 0x1616669693537343531), (0x64c, 0x1616669693537343532), (0x64d, 0x1616669693537343533), (0x64e, 0x1616669693537343534), (0x64f, 0x1616669693537343535),
  (0x650, 0x1616669693537343536), (0x651, 0x1616669693537343537), (0x652, 0x1616669693537343538), (0x660, 0x1616669693537333932), (0x661, 0x1616669693537333933), (0x662, 0x1616669693537333934),
  (0x663, 0x1616669693537333935), (0x664, 0x1616669693537333936), (0x665, 0x1616669693537333937), (0x666, 0x1616669693537333938), (0x667, 0x1616669693537333939), (0x668, 0x1616669693537343030),
  (0x669, 0x1616669693537343031), (0x66a, 0x1616669693537333831), (0x66d, 0x1616669693633313637), (0x679, 0x1616669693537353131), (0x67e, 0x1616669693537353036), (0x686, 0x1616669693537353037),
  (0x688, 0x1616669693537353132), (0x691, 0x1616669693537353133), (0x698, 0x1616669693537353038), (0x6a4, 0x1616669693537353035), (0x6af, 0x1616669693537353039), (0x6ba, 0x1616669693537353134),
  (0x6d2, 0x1616669693537353139), (0x6d5, 0x1616669693537353334), (0x1e80, 0x1576772617665), (0x1e81, 0x1776772617665), (0x1e82, 0x1576163757465), (0x1e83, 0x1776163757465),
  (0x1e84, 0x1576469657265736973), (0x1e85, 0x1776469657265736973), (0x1ef2, 0x1596772617665), (0x1ef3, 0x1796772617665), (0x200c, 0x1616669693631363634), (0x200d, 0x161666969333031),
  (0x200e, 0x161666969323939), (0x200f, 0x161666969333030), (0x2012, 0x166696775726564617368), (0x2013, 0x1656e64617368), (0x2014, 0x1656d64617368), (0x2015, 0x1616669693030323038),
  (0x2017, 0x1756e64657273636f726564626c), (0x2018, 0x171756f74656c656674), (0x2019, 0x171756f74657269676874), (0x201a, 0x171756f746573696e676c62617365), (0x201b, 0x171756f74657265766572736564), (0x201c, 0x171756f746564626c6c656674),
  (0x201d, 0x171756f746564626c7269676874), (0x201e, 0x171756f746564626c62617365), (0x2020, 0x1646167676572), (0x2021, 0x164616767657264626c), (0x2022, 0x162756c6c6574), (0x2024, 0x16f6e65646f74656e6c6561646572),
  (0x2025, 0x174776f646f74656e6c6561646572), (0x2026, 0x1656c6c6970736973), (0x202c, 0x1616669693631353733), (0x202d, 0x1616669693631353734), (0x202e, 0x1616669693631353735), (0x2030, 0x170657274686f7573616e64),
  (0x2032, 0x16d696e757465), (0x2033, 0x17365636f6e64), (0x2039, 0x16775696c73696e676c6c656674), (0x203a, 0x16775696c73696e676c7269676874), (0x203c, 0x16578636c616d64626c), (0x2044, 0x16672616374696f6e),
  (0x2070, 0x17a65726f7375706572696f72), (0x2074, 0x1666f75727375706572696f72), (0x2075, 0x1666976657375706572696f72), (0x2076, 0x17369787375706572696f72), (0x2077, 0x1736576656e7375706572696f72), (0x2078, 0x165696768747375706572696f72),
  (0x2079, 0x16e696e657375706572696f72), (0x207d, 0x1706172656e6c6566747375706572696f72), (0x207e, 0x1706172656e72696768747375706572696f72), (0x207f, 0x16e7375706572696f72), (0x2080, 0x17a65726f696e666572696f72), (0x2081, 0x16f6e65696e666572696f72),
  (0x2082, 0x174776f696e666572696f72), (0x2083, 0x17468726565696e666572696f72), (0x2084, 0x1666f7572696e666572696f72), (0x2085, 0x166697665696e666572696f72), (0x2086, 0x1736978696e666572696f72), (0x2087, 0x1736576656e696e666572696f72),
  (0x2088, 0x16569676874696e666572696f72), (0x2089, 0x16e696e65696e666572696f72), (0x208d, 0x1706172656e6c656674696e666572696f72), (0x208e, 0x1706172656e7269676874696e666572696f72), (0x20a1, 0x1636f6c6f6e6d6f6e6574617279), (0x20a3, 0x16672616e63),
  (0x20a4, 0x16c697261), (0x20a7, 0x1706573657461), (0x20aa, 0x1616669693537363336), (0x20ab, 0x1646f6e67), (0x20ac, 0x14575726f), (0x2105, 0x1616669693631323438)]

/-- A part of `codeTab`. -/
def codeTab6 : List (Nat × Nat) := [
  (0x2111, 0x1496672616b747572), (0x2113, 0x1616669693631323839), (0x2116, 0x1616669693631333532), (0x2118, 0x17765696572737472617373), (0x211c, 0x1526672616b747572), (0x211e, 0x1707265736372697074696f6e),
  (0x2122, 0x174726164656d61726b), (0x2126, 0x14f6d656761), (0x212e, 0x1657374696d61746564), (0x2135, 0x1616c657068), (0x2153, 0x16f6e657468697264), (0x2154, 0x174776f746869726473),
  (0x215b, 0x16f6e65656967687468), (0x215c, 0x1746872656565696768746873), (0x215d, 0x16669766565696768746873), (0x215e, 0x1736576656e65696768746873), (0x2190, 0x16172726f776c656674), (0x2191, 0x16172726f777570),
  (0x2192, 0x16172726f777269676874), (0x2193, 0x16172726f77646f776e), (0x2194, 0x16172726f77626f7468), (0x2195, 0x16172726f777570646e), (0x21a8, 0x16172726f777570646e627365), (0x21b5, 0x1636172726961676572657475726e),
  (0x21d0, 0x16172726f7764626c6c656674), (0x21d1, 0x16172726f7764626c7570), (0x21d2, 0x16172726f7764626c7269676874), (0x21d3, 0x16172726f7764626c646f776e), (0x21d4, 0x16172726f7764626c626f7468), (0x2200, 0x1756e6976657273616c),
  (0x2202, 0x17061727469616c64696666), (0x2203, 0x16578697374656e7469616c), (0x2205, 0x1656d707479736574), (0x2206, 0x144656c7461), (0x2207, 0x16772616469656e74), (0x2208, 0x1656c656d656e74),
  (0x2209, 0x16e6f74656c656d656e74), (0x220b, 0x17375636874686174), (0x220f, 0x170726f64756374), (0x2211, 0x173756d6d6174696f6e), (0x2212, 0x16d696e7573), (0x2215, 0x16672616374696f6e),
  (0x2217, 0x1617374657269736b6d617468), (0x2219, 0x1706572696f6463656e7465726564), (0x221a, 0x17261646963616c), (0x221d, 0x170726f706f7274696f6e616c), (0x221e, 0x1696e66696e697479), (0x221f, 0x16f7274686f676f6e616c),
  (0x2220, 0x1616e676c65), (0x2227, 0x16c6f676963616c616e64), (0x2228, 0x16c6f676963616c6f72), (0x2229, 0x1696e74657273656374696f6e), (0x222a, 0x1756e696f6e), (0x222b, 0x1696e74656772616c),
  (0x2234, 0x17468657265666f7265), (0x223c, 0x173696d696c6172), (0x2245, 0x1636f6e677275656e74), (0x2248, 0x1617070726f78657175616c), (0x2260, 0x16e6f74657175616c), (0x2261, 0x16571756976616c656e6365),
  (0x2264, 0x16c657373657175616c), (0x2265, 0x167726561746572657175616c), (0x2282, 0x170726f706572737562736574), (0x2283, 0x170726f7065727375706572736574), (0x2284, 0x16e6f74737562736574), (0x2286, 0x17265666c6578737562736574),
  (0x2287, 0x17265666c65787375706572736574), (0x2295, 0x1636972636c65706c7573), (0x2297, 0x1636972636c656d756c7469706c79), (0x22a5, 0x170657270656e646963756c6172), (0x22c5, 0x1646f746d617468), (0x2302, 0x1686f757365),
  (0x2310, 0x17265766c6f676963616c6e6f74), (0x2320, 0x1696e74656772616c7470), (0x2321, 0x1696e74656772616c6274), (0x2329, 0x1616e676c656c656674), (0x232a, 0x1616e676c657269676874), (0x2500, 0x15346313030303030),
  (0x2502, 0x15346313130303030), (0x250c, 0x15346303130303030), (0x2510, 0x15346303330303030), (0x2514, 0x15346303230303030), (0x2518, 0x15346303430303030), (0x251c, 0x15346303830303030),
  (0x2524, 0x15346303930303030), (0x252c, 0x15346303630303030), (0x2534, 0x15346303730303030), (0x253c, 0x15346303530303030), (0x2550, 0x15346343330303030), (0x2551, 0x15346323430303030),
  (0x2552, 0x15346353130303030), (0x2553, 0x15346353230303030), (0x2554, 0x15346333930303030), (0x2555, 0x15346323230303030), (0x2556, 0x15346323130303030), (0x2557, 0x15346323530303030),
  (0x2558, 0x15346353030303030), (0x2559, 0x15346343930303030), (0x255a, 0x15346333830303030), (0x255b, 0x15346323830303030), (0x255c, 0x15346323730303030), (0x255d, 0x15346323630303030),
  (0x255e, 0x15346333630303030), (0x255f, 0x15346333730303030), (0x2560, 0x15346343230303030), (0x2561, 0x15346313930303030), (0x2562, 0x15346323030303030), (0x2563, 0x15346323330303030),
  (0x2564, 0x15346343730303030), (0x2565, 0x15346343830303030), (0x2566, 0x15346343130303030), (0x2567, 0x15346343530303030), (0x2568, 0x15346343630303030), (0x2569, 0x15346343030303030),
  (0x256a, 0x15346353430303030), (0x256b, 0x15346353330303030), (0x256c, 0x15346343430303030), (0x2580, 0x17570626c6f636b), (0x2584, 0x1646e626c6f636b), (0x2588, 0x1626c6f636b)]

/-- A part of `codeTab`. -/
def codeTab7 : List (Nat × Nat) := [
  (0x258c, 0x16c66626c6f636b), (0x2590, 0x17274626c6f636b), (0x2591, 0x16c747368616465), (0x2592, 0x17368616465), (0x2593, 0x1646b7368616465), (0x25a0, 0x166696c6c6564626f78),
  (0x25a1, 0x1483232303733), (0x25aa, 0x1483138353433), (0x25ab, 0x1483138353531), (0x25ac, 0x166696c6c656472656374), (0x25b2, 0x174726961677570), (0x25ba, 0x174726961677274),
  (0x25bc, 0x17472696167646e), (0x25c4, 0x174726961676c66), (0x25ca, 0x16c6f7a656e6765), (0x25cb, 0x1636972636c65), (0x25cf, 0x1483138353333), (0x25d8, 0x1696e7662756c6c6574),
  (0x25d9, 0x1696e76636972636c65), (0x25e6, 0x16f70656e62756c6c6574), (0x263a, 0x1736d696c6566616365), (0x263b, 0x1696e76736d696c6566616365), (0x263c, 0x173756e), (0x2640, 0x166656d616c65),
  (0x2642, 0x16d616c65), (0x2660, 0x17370616465), (0x2663, 0x1636c7562), (0x2665, 0x16865617274), (0x2666, 0x16469616d6f6e64), (0x266a, 0x16d75736963616c6e6f7465),
  (0x266b, 0x16d75736963616c6e6f746564626c), (0xf6be, 0x1646f746c6573736a), (0xf6bf, 0x14c4c), (0xf6c0, 0x16c6c), (0xf6c1, 0x153636564696c6c61), (0xf6c2, 0x173636564696c6c61),
  (0xf6c3, 0x1636f6d6d61616363656e74), (0xf6c4, 0x1616669693130303633), (0xf6c5, 0x1616669693130303634), (0xf6c6, 0x1616669693130313932), (0xf6c7, 0x1616669693130383331), (0xf6c8, 0x1616669693130383332),
  (0xf6c9, 0x14163757465), (0xf6ca, 0x14361726f6e), (0xf6cb, 0x14469657265736973), (0xf6cc, 0x144696572657369734163757465), (0xf6cd, 0x144696572657369734772617665), (0xf6ce, 0x14772617665),
  (0xf6cf, 0x148756e676172756d6c617574), (0xf6d0, 0x14d6163726f6e), (0xf6d1, 0x16379724272657665), (0xf6d2, 0x1637972466c6578), (0xf6d3, 0x164626c4772617665), (0xf6d4, 0x16379726272657665),
  (0xf6d5, 0x1637972666c6578), (0xf6d6, 0x164626c6772617665), (0xf6d7, 0x164696572657369736163757465), (0xf6d8, 0x164696572657369736772617665), (0xf6d9, 0x1636f707972696768747365726966), (0xf6da, 0x172656769737465727365726966),
  (0xf6db, 0x174726164656d61726b7365726966), (0xf6dc, 0x16f6e65666974746564), (0xf6dd, 0x1727570696168), (0xf6de, 0x174687265657175617274657273656d64617368), (0xf6df, 0x163656e74696e666572696f72), (0xf6e0, 0x163656e747375706572696f72),
  (0xf6e1, 0x1636f6d6d61696e666572696f72), (0xf6e2, 0x1636f6d6d617375706572696f72), (0xf6e3, 0x1646f6c6c6172696e666572696f72), (0xf6e4, 0x1646f6c6c61727375706572696f72), (0xf6e5, 0x168797068656e696e666572696f72), (0xf6e6, 0x168797068656e7375706572696f72),
  (0xf6e7, 0x1706572696f64696e666572696f72), (0xf6e8, 0x1706572696f647375706572696f72), (0xf6e9, 0x1617375706572696f72), (0xf6ea, 0x1627375706572696f72), (0xf6eb, 0x1647375706572696f72), (0xf6ec, 0x1657375706572696f72),
  (0xf6ed, 0x1697375706572696f72), (0xf6ee, 0x16c7375706572696f72), (0xf6ef, 0x16d7375706572696f72), (0xf6f0, 0x16f7375706572696f72), (0xf6f1, 0x1727375706572696f72), (0xf6f2, 0x1737375706572696f72),
  (0xf6f3, 0x1747375706572696f72), (0xf6f4, 0x14272657665736d616c6c), (0xf6f5, 0x14361726f6e736d616c6c), (0xf6f6, 0x143697263756d666c6578736d616c6c), (0xf6f7, 0x1446f74616363656e74736d616c6c), (0xf6f8, 0x148756e676172756d6c617574736d616c6c),
  (0xf6f9, 0x14c736c617368736d616c6c), (0xf6fa, 0x14f45736d616c6c), (0xf6fb, 0x14f676f6e656b736d616c6c), (0xf6fc, 0x152696e67736d616c6c), (0xf6fd, 0x1536361726f6e736d616c6c), (0xf6fe, 0x154696c6465736d616c6c),
  (0xf6ff, 0x15a6361726f6e736d616c6c), (0xf721, 0x16578636c616d736d616c6c), (0xf724, 0x1646f6c6c61726f6c647374796c65), (0xf726, 0x1616d70657273616e64736d616c6c), (0xf730, 0x17a65726f6f6c647374796c65), (0xf731, 0x16f6e656f6c647374796c65),
  (0xf732, 0x174776f6f6c647374796c65), (0xf733, 0x174687265656f6c647374796c65), (0xf734, 0x1666f75726f6c647374796c65), (0xf735, 0x1666976656f6c647374796c65), (0xf736, 0x17369786f6c647374796c65), (0xf737, 0x1736576656e6f6c647374796c65),
  (0xf738, 0x165696768746f6c647374796c65), (0xf739, 0x16e696e656f6c647374796c65), (0xf73f, 0x17175657374696f6e736d616c6c), (0xf760, 0x14772617665736d616c6c), (0xf761, 0x141736d616c6c), (0xf762, 0x142736d616c6c),
  (0xf763, 0x143736d616c6c), (0xf764, 0x144736d616c6c), (0xf765, 0x145736d616c6c), (0xf766, 0x146736d616c6c), (0xf767, 0x147736d616c6c), (0xf768, 0x148736d616c6c)]

/-- A part of `codeTab`. -/
def codeTab8 : List (Nat × Nat) := [
  (0xf769, 0x149736d616c6c), (0xf76a, 0x14a736d616c6c), (0xf76b, 0x14b736d616c6c), (0xf76c, 0x14c736d616c6c), (0xf76d, 0x14d736d616c6c), (0xf76e, 0x14e736d616c6c),
  (0xf76f, 0x14f736d616c6c), (0xf770, 0x150736d616c6c), (0xf771, 0x151736d616c6c), (0xf772, 0x152736d616c6c), (0xf773, 0x153736d616c6c), (0xf774, 0x154736d616c6c),
  (0xf775, 0x155736d616c6c), (0xf776, 0x156736d616c6c), (0xf777, 0x157736d616c6c), (0xf778, 0x158736d616c6c), (0xf779, 0x159736d616c6c), (0xf77a, 0x15a736d616c6c),
  (0xf7a1, 0x16578636c616d646f776e736d616c6c), (0xf7a2, 0x163656e746f6c647374796c65), (0xf7a8, 0x14469657265736973736d616c6c), (0xf7af, 0x14d6163726f6e736d616c6c), (0xf7b4, 0x14163757465736d616c6c), (0xf7b8, 0x1436564696c6c61736d616c6c),
  (0xf7bf, 0x17175657374696f6e646f776e736d616c6c), (0xf7e0, 0x1416772617665736d616c6c), (0xf7e1, 0x1416163757465736d616c6c), (0xf7e2, 0x14163697263756d666c6578736d616c6c), (0xf7e3, 0x14174696c6465736d616c6c), (0xf7e4, 0x1416469657265736973736d616c6c),
  (0xf7e5, 0x14172696e67736d616c6c), (0xf7e6, 0x14145736d616c6c), (0xf7e7, 0x143636564696c6c61736d616c6c), (0xf7e8, 0x1456772617665736d616c6c), (0xf7e9, 0x1456163757465736d616c6c), (0xf7ea, 0x14563697263756d666c6578736d616c6c),
  (0xf7eb, 0x1456469657265736973736d616c6c), (0xf7ec, 0x1496772617665736d616c6c), (0xf7ed, 0x1496163757465736d616c6c), (0xf7ee, 0x14963697263756d666c6578736d616c6c), (0xf7ef, 0x1496469657265736973736d616c6c), (0xf7f0, 0x1457468736d616c6c),
  (0xf7f1, 0x14e74696c6465736d616c6c), (0xf7f2, 0x14f6772617665736d616c6c), (0xf7f3, 0x14f6163757465736d616c6c), (0xf7f4, 0x14f63697263756d666c6578736d616c6c), (0xf7f5, 0x14f74696c6465736d616c6c), (0xf7f6, 0x14f6469657265736973736d616c6c),
  (0xf7f8, 0x14f736c617368736d616c6c), (0xf7f9, 0x1556772617665736d616c6c), (0xf7fa, 0x1556163757465736d616c6c), (0xf7fb, 0x15563697263756d666c6578736d616c6c), (0xf7fc, 0x1556469657265736973736d616c6c), (0xf7fd, 0x1596163757465736d616c6c),
  (0xf7fe, 0x154686f726e736d616c6c), (0xf7ff, 0x1596469657265736973736d616c6c), (0xf8e5, 0x17261646963616c6578), (0xf8e6, 0x16172726f77766572746578), (0xf8e7, 0x16172726f77686f72697a6578), (0xf8e8, 0x1726567697374657273616e73),
  (0xf8e9, 0x1636f7079726967687473616e73), (0xf8ea, 0x174726164656d61726b73616e73), (0xf8eb, 0x1706172656e6c6566747470), (0xf8ec, 0x1706172656e6c6566746578), (0xf8ed, 0x1706172656e6c6566746274), (0xf8ee, 0x1627261636b65746c6566747470),
  (0xf8ef, 0x1627261636b65746c6566746578), (0xf8f0, 0x1627261636b65746c6566746274), (0xf8f1, 0x162726163656c6566747470), (0xf8f2, 0x162726163656c6566746d6964), (0xf8f3, 0x162726163656c6566746274), (0xf8f4, 0x162726163656578),
  (0xf8f5, 0x1696e74656772616c6578), (0xf8f6, 0x1706172656e72696768747470), (0xf8f7, 0x1706172656e72696768746578), (0xf8f8, 0x1706172656e72696768746274), (0xf8f9, 0x1627261636b657472696768747470), (0xf8fa, 0x1627261636b657472696768746578),
  (0xf8fb, 0x1627261636b657472696768746274), (0xf8fc, 0x1627261636572696768747470), (0xf8fd, 0x1627261636572696768746d6964), (0xf8fe, 0x1627261636572696768746274), (0xfb00, 0x16666), (0xfb01, 0x16669),
  (0xfb02, 0x1666c), (0xfb03, 0x1666669), (0xfb04, 0x166666c), (0xfb1f, 0x1616669693537373035), (0xfb2a, 0x1616669693537363934), (0xfb2b, 0x1616669693537363935),
  (0xfb35, 0x1616669693537373233), (0xfb4b, 0x1616669693537373030)]

/-- `UnicodeToNameTab`, `src/pdfmm/base/PdfDifferenceEncoding.cpp:1327-2384`: code points and names. -/
def codeTab : List (Nat × Nat) :=
  codeTab0 ++ (codeTab1 ++ (codeTab2 ++ (codeTab3 ++ (codeTab4 ++ (codeTab5 ++ (codeTab6 ++ (codeTab7 ++ (codeTab8))))))))

end Pdfmm
