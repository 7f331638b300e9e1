/-
  Tables of the built-in encodings of pdfreader/codecs. Generated by tools/gentables.py.
-/
import Verif.Model.Basic

namespace PdfReader

/-- `encode_table`, codecs/winansi.py: code points and bytes. -/
def winansiEncode : List (Nat × Byte) :=
  [(0x0041, 65), (0x00C6, 198), (0x00C1, 193), (0x00C2, 194), (0x00C4, 196), (0x00C0, 192), (0x00C5, 197), (0x00C3, 195),
   (0x0042, 66), (0x0043, 67), (0x00C7, 199), (0x0044, 68), (0x0045, 69), (0x00C9, 201), (0x00CA, 202), (0x00CB, 203),
   (0x00C8, 200), (0x00D0, 208), (0x20AC, 128), (0x0046, 70), (0x0047, 71), (0x0048, 72), (0x0049, 73), (0x00CD, 205),
   (0x00CE, 206), (0x00CF, 207), (0x00CC, 204), (0x004A, 74), (0x004B, 75), (0x004C, 76), (0x004D, 77), (0x004E, 78),
   (0x00D1, 209), (0x004F, 79), (0x0152, 140), (0x00D3, 211), (0x00D4, 212), (0x00D6, 214), (0x00D2, 210), (0x00D8, 216),
   (0x00D5, 213), (0x0050, 80), (0x0051, 81), (0x0052, 82), (0x0053, 83), (0x0160, 138), (0x0054, 84), (0x00DE, 222),
   (0x0055, 85), (0x00DA, 218), (0x00DB, 219), (0x00DC, 220), (0x00D9, 217), (0x0056, 86), (0x0057, 87), (0x0058, 88),
   (0x0059, 89), (0x00DD, 221), (0x0178, 159), (0x005A, 90), (0x017D, 142), (0x0061, 97), (0x00E1, 225), (0x00E2, 226),
   (0x00B4, 180), (0x00E4, 228), (0x00E6, 230), (0x00E0, 224), (0x0026, 38), (0x00E5, 229), (0x005E, 94), (0x007E, 126),
   (0x002A, 42), (0x0040, 64), (0x00E3, 227), (0x0062, 98), (0x005C, 92), (0x007C, 124), (0x007B, 123), (0x007D, 125),
   (0x005B, 91), (0x005D, 93), (0x00A6, 166), (0x2022, 149), (0x0063, 99), (0x00E7, 231), (0x00B8, 184), (0x00A2, 162),
   (0x02C6, 136), (0x003A, 58), (0x002C, 44), (0x00A9, 169), (0x00A4, 164), (0x0064, 100), (0x2020, 134), (0x2021, 135),
   (0x00B0, 176), (0x00A8, 168), (0x00F7, 247), (0x0024, 36), (0x0065, 101), (0x00E9, 233), (0x00EA, 234), (0x00EB, 235),
   (0x00E8, 232), (0x0038, 56), (0x2026, 133), (0x2014, 151), (0x2013, 150), (0x003D, 61), (0x00F0, 240), (0x0021, 33),
   (0x00A1, 161), (0x0066, 102), (0x0035, 53), (0x0192, 131), (0x0034, 52), (0x0067, 103), (0x00DF, 223), (0x0060, 96),
   (0x003E, 62), (0x00AB, 171), (0x00BB, 187), (0x2039, 139), (0x203A, 155), (0x0068, 104), (0x002D, 45), (0x0069, 105),
   (0x00ED, 237), (0x00EE, 238), (0x00EF, 239), (0x00EC, 236), (0x006A, 106), (0x006B, 107), (0x006C, 108), (0x003C, 60),
   (0x00AC, 172), (0x006D, 109), (0x00AF, 175), (0x03BC, 181), (0x00D7, 215), (0x006E, 110), (0x0039, 57), (0x00F1, 241),
   (0x0023, 35), (0x006F, 111), (0x00F3, 243), (0x00F4, 244), (0x00F6, 246), (0x0153, 156), (0x00F2, 242), (0x0031, 49),
   (0x00BD, 189), (0x00BC, 188), (0x00B9, 185), (0x00AA, 170), (0x00BA, 186), (0x00F8, 248), (0x00F5, 245), (0x0070, 112),
   (0x00B6, 182), (0x0028, 40), (0x0029, 41), (0x0025, 37), (0x002E, 46), (0x00B7, 183), (0x2030, 137), (0x002B, 43),
   (0x00B1, 177), (0x0071, 113), (0x003F, 63), (0x00BF, 191), (0x0022, 34), (0x201E, 132), (0x201C, 147), (0x201D, 148),
   (0x2018, 145), (0x2019, 146), (0x201A, 130), (0x0027, 39), (0x0072, 114), (0x00AE, 174), (0x0073, 115), (0x0161, 154),
   (0x00A7, 167), (0x003B, 59), (0x0037, 55), (0x0036, 54), (0x002F, 47), (0x00A0, 32), (0x00A3, 163), (0x0074, 116),
   (0x00FE, 254), (0x0033, 51), (0x00BE, 190), (0x00B3, 179), (0x02DC, 152), (0x2122, 153), (0x0032, 50), (0x00B2, 178),
   (0x0075, 117), (0x00FA, 250), (0x00FB, 251), (0x00FC, 252), (0x00F9, 249), (0x005F, 95), (0x0076, 118), (0x0077, 119),
   (0x0078, 120), (0x0079, 121), (0x00FD, 253), (0x00FF, 255), (0x00A5, 165), (0x007A, 122), (0x017E, 158), (0x0030, 48)]

/-- `decode_table`, codecs/winansi.py. -/
def winansiDecode : List (Nat × Bytes) :=
  [(65, b!"A"), (198, b!"AE"), (193, b!"Aacute"), (194, b!"Acircumflex"), (196, b!"Adieresis"), (192, b!"Agrave"),
   (197, b!"Aring"), (195, b!"Atilde"), (66, b!"B"), (67, b!"C"), (199, b!"Ccedilla"), (68, b!"D"),
   (69, b!"E"), (201, b!"Eacute"), (202, b!"Ecircumflex"), (203, b!"Edieresis"), (200, b!"Egrave"), (208, b!"Eth"),
   (128, b!"Euro"), (70, b!"F"), (71, b!"G"), (72, b!"H"), (73, b!"I"), (205, b!"Iacute"),
   (206, b!"Icircumflex"), (207, b!"Idieresis"), (204, b!"Igrave"), (74, b!"J"), (75, b!"K"), (76, b!"L"),
   (77, b!"M"), (78, b!"N"), (209, b!"Ntilde"), (79, b!"O"), (140, b!"OE"), (211, b!"Oacute"),
   (212, b!"Ocircumflex"), (214, b!"Odieresis"), (210, b!"Ograve"), (216, b!"Oslash"), (213, b!"Otilde"), (80, b!"P"),
   (81, b!"Q"), (82, b!"R"), (83, b!"S"), (138, b!"Scaron"), (84, b!"T"), (222, b!"Thorn"),
   (85, b!"U"), (218, b!"Uacute"), (219, b!"Ucircumflex"), (220, b!"Udieresis"), (217, b!"Ugrave"), (86, b!"V"),
   (87, b!"W"), (88, b!"X"), (89, b!"Y"), (221, b!"Yacute"), (159, b!"Ydieresis"), (90, b!"Z"),
   (142, b!"Zcaron"), (97, b!"a"), (225, b!"aacute"), (226, b!"acircumflex"), (180, b!"acute"), (228, b!"adieresis"),
   (230, b!"ae"), (224, b!"agrave"), (38, b!"ampersand"), (229, b!"aring"), (94, b!"asciicircum"), (126, b!"asciitilde"),
   (42, b!"asterisk"), (64, b!"at"), (227, b!"atilde"), (98, b!"b"), (92, b!"backslash"), (124, b!"bar"),
   (123, b!"braceleft"), (125, b!"braceright"), (91, b!"bracketleft"), (93, b!"bracketright"), (166, b!"brokenbar"), (149, b!"bullet"),
   (99, b!"c"), (231, b!"ccedilla"), (184, b!"cedilla"), (162, b!"cent"), (136, b!"circumflex"), (58, b!"colon"),
   (44, b!"comma"), (169, b!"copyright"), (164, b!"currency1"), (100, b!"d"), (134, b!"dagger"), (135, b!"daggerdbl"),
   (176, b!"degree"), (168, b!"dieresis"), (247, b!"divide"), (36, b!"dollar"), (101, b!"e"), (233, b!"eacute"),
   (234, b!"ecircumflex"), (235, b!"edieresis"), (232, b!"egrave"), (56, b!"eight"), (133, b!"ellipsis"), (151, b!"emdash"),
   (150, b!"endash"), (61, b!"equal"), (240, b!"eth"), (33, b!"exclam"), (161, b!"exclamdown"), (102, b!"f"),
   (53, b!"five"), (131, b!"florin"), (52, b!"four"), (103, b!"g"), (223, b!"germandbls"), (96, b!"grave"),
   (62, b!"greater"), (171, b!"guillemotleft"), (187, b!"guillemotright"), (139, b!"guilsinglleft"), (155, b!"guilsinglright"), (104, b!"h"),
   (45, b!"hyphen"), (105, b!"i"), (237, b!"iacute"), (238, b!"icircumflex"), (239, b!"idieresis"), (236, b!"igrave"),
   (106, b!"j"), (107, b!"k"), (108, b!"l"), (60, b!"less"), (172, b!"logicalnot"), (109, b!"m"),
   (175, b!"macron"), (181, b!"mu"), (215, b!"multiply"), (110, b!"n"), (57, b!"nine"), (241, b!"ntilde"),
   (35, b!"numbersign"), (111, b!"o"), (243, b!"oacute"), (244, b!"ocircumflex"), (246, b!"odieresis"), (156, b!"oe"),
   (242, b!"ograve"), (49, b!"one"), (189, b!"onehalf"), (188, b!"onequarter"), (185, b!"onesuperior"), (170, b!"ordfeminine"),
   (186, b!"ordmasculine"), (248, b!"oslash"), (245, b!"otilde"), (112, b!"p"), (182, b!"paragraph"), (40, b!"parenleft"),
   (41, b!"parenright"), (37, b!"percent"), (46, b!"period"), (183, b!"periodcentered"), (137, b!"perthousand"), (43, b!"plus"),
   (177, b!"plusminus"), (113, b!"q"), (63, b!"question"), (191, b!"questiondown"), (34, b!"quotedbl"), (132, b!"quotedblbase"),
   (147, b!"quotedblleft"), (148, b!"quotedblright"), (145, b!"quoteleft"), (146, b!"quoteright"), (130, b!"quotesinglbase"), (39, b!"quotesingle"),
   (114, b!"r"), (174, b!"registered"), (115, b!"s"), (154, b!"scaron"), (167, b!"section"), (59, b!"semicolon"),
   (55, b!"seven"), (54, b!"six"), (47, b!"slash"), (32, b!"space"), (163, b!"sterling"), (116, b!"t"),
   (254, b!"thorn"), (51, b!"three"), (190, b!"threequarters"), (179, b!"threesuperior"), (152, b!"tilde"), (153, b!"trademark"),
   (50, b!"two"), (178, b!"twosuperior"), (117, b!"u"), (250, b!"uacute"), (251, b!"ucircumflex"), (252, b!"udieresis"),
   (249, b!"ugrave"), (95, b!"underscore"), (118, b!"v"), (119, b!"w"), (120, b!"x"), (121, b!"y"),
   (253, b!"yacute"), (255, b!"ydieresis"), (165, b!"yen"), (122, b!"z"), (158, b!"zcaron"), (48, b!"zero"),
   (160, b!"nbspace")]

/-- `encode_table`, codecs/standard.py: code points and bytes. -/
def standardEncode : List (Nat × Byte) :=
  [(0x0041, 65), (0x00C6, 225), (0x0042, 66), (0x0043, 67), (0x0044, 68), (0x0045, 69), (0x0046, 70), (0x0047, 71),
   (0x0048, 72), (0x0049, 73), (0x004A, 74), (0x004B, 75), (0x004C, 76), (0x0141, 232), (0x004D, 77), (0x004E, 78),
   (0x004F, 79), (0x0152, 234), (0x00D8, 233), (0x0050, 80), (0x0051, 81), (0x0052, 82), (0x0053, 83), (0x0054, 84),
   (0x0055, 85), (0x0056, 86), (0x0057, 87), (0x0058, 88), (0x0059, 89), (0x005A, 90), (0x0061, 97), (0x00B4, 194),
   (0x00E6, 241), (0x0026, 38), (0x005E, 94), (0x007E, 126), (0x002A, 42), (0x0040, 64), (0x0062, 98), (0x005C, 92),
   (0x007C, 124), (0x007B, 123), (0x007D, 125), (0x005B, 91), (0x005D, 93), (0x02D8, 198), (0x2022, 183), (0x0063, 99),
   (0x02C7, 207), (0x00B8, 203), (0x00A2, 162), (0x02C6, 195), (0x003A, 58), (0x002C, 44), (0x00A4, 168), (0x0064, 100),
   (0x2020, 178), (0x2021, 179), (0x00A8, 200), (0x0024, 36), (0x02D9, 199), (0x0131, 245), (0x0065, 101), (0x0038, 56),
   (0x2026, 188), (0x2014, 208), (0x2013, 177), (0x003D, 61), (0x0021, 33), (0x00A1, 161), (0x0066, 102), (0xFB01, 174),
   (0x0035, 53), (0xFB02, 175), (0x0192, 166), (0x0034, 52), (0x2044, 164), (0x0067, 103), (0x00DF, 251), (0x0060, 193),
   (0x003E, 62), (0x00AB, 171), (0x00BB, 187), (0x2039, 172), (0x203A, 173), (0x0068, 104), (0x02DD, 205), (0x002D, 45),
   (0x0069, 105), (0x006A, 106), (0x006B, 107), (0x006C, 108), (0x003C, 60), (0x0142, 248), (0x006D, 109), (0x00AF, 197),
   (0x006E, 110), (0x0039, 57), (0x0023, 35), (0x006F, 111), (0x0153, 250), (0x02DB, 206), (0x0031, 49), (0x00AA, 227),
   (0x00BA, 235), (0x00F8, 249), (0x0070, 112), (0x00B6, 182), (0x0028, 40), (0x0029, 41), (0x0025, 37), (0x002E, 46),
   (0x00B7, 180), (0x2030, 189), (0x002B, 43), (0x0071, 113), (0x003F, 63), (0x00BF, 191), (0x0022, 34), (0x201E, 185),
   (0x201C, 170), (0x201D, 186), (0x2018, 96), (0x2019, 39), (0x201A, 184), (0x0027, 169), (0x0072, 114), (0x00B0, 202),
   (0x0073, 115), (0x00A7, 167), (0x003B, 59), (0x0037, 55), (0x0036, 54), (0x002F, 47), (0x00A0, 32), (0x00A3, 163),
   (0x0074, 116), (0x0033, 51), (0x02DC, 196), (0x0032, 50), (0x0075, 117), (0x005F, 95), (0x0076, 118), (0x0077, 119),
   (0x0078, 120), (0x0079, 121), (0x00A5, 165), (0x007A, 122), (0x0030, 48)]

/-- `decode_table`, codecs/standard.py. -/
def standardDecode : List (Nat × Bytes) :=
  [(65, b!"A"), (225, b!"AE"), (66, b!"B"), (67, b!"C"), (68, b!"D"), (69, b!"E"),
   (70, b!"F"), (71, b!"G"), (72, b!"H"), (73, b!"I"), (74, b!"J"), (75, b!"K"),
   (76, b!"L"), (232, b!"Lslash"), (77, b!"M"), (78, b!"N"), (79, b!"O"), (234, b!"OE"),
   (233, b!"Oslash"), (80, b!"P"), (81, b!"Q"), (82, b!"R"), (83, b!"S"), (84, b!"T"),
   (85, b!"U"), (86, b!"V"), (87, b!"W"), (88, b!"X"), (89, b!"Y"), (90, b!"Z"),
   (97, b!"a"), (194, b!"acute"), (241, b!"ae"), (38, b!"ampersand"), (94, b!"asciicircum"), (126, b!"asciitilde"),
   (42, b!"asterisk"), (64, b!"at"), (98, b!"b"), (92, b!"backslash"), (124, b!"bar"), (123, b!"braceleft"),
   (125, b!"braceright"), (91, b!"bracketleft"), (93, b!"bracketright"), (198, b!"breve"), (183, b!"bullet (3)"), (99, b!"c"),
   (207, b!"caron"), (203, b!"cedilla"), (162, b!"cent"), (195, b!"circumflex"), (58, b!"colon"), (44, b!"comma"),
   (168, b!"currency1"), (100, b!"d"), (178, b!"dagger"), (179, b!"daggerdbl"), (200, b!"dieresis"), (36, b!"dollar"),
   (199, b!"dotaccent"), (245, b!"dotlessi"), (101, b!"e"), (56, b!"eight"), (188, b!"ellipsis"), (208, b!"emdash"),
   (177, b!"endash"), (61, b!"equal"), (33, b!"exclam"), (161, b!"exclamdown"), (102, b!"f"), (174, b!"fi"),
   (53, b!"five"), (175, b!"fl"), (166, b!"florin"), (52, b!"four"), (164, b!"fraction"), (103, b!"g"),
   (251, b!"germandbls"), (193, b!"grave"), (62, b!"greater"), (171, b!"guillemotleft"), (187, b!"guillemotright"), (172, b!"guilsinglleft"),
   (173, b!"guilsinglright"), (104, b!"h"), (205, b!"hungarumlaut"), (45, b!"hyphen"), (105, b!"i"), (106, b!"j"),
   (107, b!"k"), (108, b!"l"), (60, b!"less"), (248, b!"lslash"), (109, b!"m"), (197, b!"macron"),
   (110, b!"n"), (57, b!"nine"), (35, b!"numbersign"), (111, b!"o"), (250, b!"oe"), (206, b!"ogonek"),
   (49, b!"one"), (227, b!"ordfeminine"), (235, b!"ordmasculine"), (249, b!"oslash"), (112, b!"p"), (182, b!"paragraph"),
   (40, b!"parenleft"), (41, b!"parenright"), (37, b!"percent"), (46, b!"period"), (180, b!"periodcentered"), (189, b!"perthousand"),
   (43, b!"plus"), (113, b!"q"), (63, b!"question"), (191, b!"questiondown"), (34, b!"quotedbl"), (185, b!"quotedblbase"),
   (170, b!"quotedblleft"), (186, b!"quotedblright"), (96, b!"quoteleft"), (39, b!"quoteright"), (184, b!"quotesinglbase"), (169, b!"quotesingle"),
   (114, b!"r"), (202, b!"ring"), (115, b!"s"), (167, b!"section"), (59, b!"semicolon"), (55, b!"seven"),
   (54, b!"six"), (47, b!"slash"), (32, b!"space"), (163, b!"sterling"), (116, b!"t"), (51, b!"three"),
   (196, b!"tilde"), (50, b!"two"), (117, b!"u"), (95, b!"underscore"), (118, b!"v"), (119, b!"w"),
   (120, b!"x"), (121, b!"y"), (165, b!"yen"), (122, b!"z"), (48, b!"zero")]

/-- `encode_table`, codecs/macroman.py: code points and bytes. -/
def macromanEncode : List (Nat × Byte) :=
  [(0x0041, 65), (0x00C6, 174), (0x00C1, 231), (0x00C2, 229), (0x00C4, 128), (0x00C0, 203), (0x00C5, 129), (0x00C3, 204),
   (0x0042, 66), (0x0043, 67), (0x00C7, 130), (0x0044, 68), (0x0045, 69), (0x00C9, 131), (0x00CA, 230), (0x00CB, 232),
   (0x00C8, 233), (0x0046, 70), (0x0047, 71), (0x0048, 72), (0x0049, 73), (0x00CD, 234), (0x00CE, 235), (0x00CF, 236),
   (0x00CC, 237), (0x004A, 74), (0x004B, 75), (0x004C, 76), (0x004D, 77), (0x004E, 78), (0x00D1, 132), (0x004F, 79),
   (0x0152, 206), (0x00D3, 238), (0x00D4, 239), (0x00D6, 133), (0x00D2, 241), (0x00D8, 175), (0x00D5, 205), (0x0050, 80),
   (0x0051, 81), (0x0052, 82), (0x0053, 83), (0x0054, 84), (0x0055, 85), (0x00DA, 242), (0x00DB, 243), (0x00DC, 134),
   (0x00D9, 244), (0x0056, 86), (0x0057, 87), (0x0058, 88), (0x0059, 89), (0x0178, 217), (0x005A, 90), (0x0061, 97),
   (0x00E1, 135), (0x00E2, 137), (0x00B4, 171), (0x00E4, 138), (0x00E6, 190), (0x00E0, 136), (0x0026, 38), (0x00E5, 140),
   (0x005E, 94), (0x007E, 126), (0x002A, 42), (0x0040, 64), (0x00E3, 139), (0x0062, 98), (0x005C, 92), (0x007C, 124),
   (0x007B, 123), (0x007D, 125), (0x005B, 91), (0x005D, 93), (0x02D8, 249), (0x2022, 165), (0x0063, 99), (0x02C7, 255),
   (0x00E7, 141), (0x00B8, 252), (0x00A2, 162), (0x02C6, 246), (0x003A, 58), (0x002C, 44), (0x00A9, 169), (0x00A4, 219),
   (0x0064, 100), (0x2020, 160), (0x2021, 224), (0x00B0, 251), (0x00A8, 172), (0x00F7, 214), (0x0024, 36), (0x02D9, 250),
   (0x0131, 245), (0x0065, 101), (0x00E9, 142), (0x00EA, 144), (0x00EB, 145), (0x00E8, 143), (0x0038, 56), (0x2026, 201),
   (0x2014, 209), (0x2013, 208), (0x003D, 61), (0x0021, 33), (0x00A1, 193), (0x0066, 102), (0xFB01, 222), (0x0035, 53),
   (0xFB02, 223), (0x0192, 196), (0x0034, 52), (0x2044, 218), (0x0067, 103), (0x00DF, 167), (0x0060, 96), (0x003E, 62),
   (0x00AB, 199), (0x00BB, 200), (0x2039, 220), (0x203A, 221), (0x0068, 104), (0x02DD, 253), (0x002D, 45), (0x0069, 105),
   (0x00ED, 146), (0x00EE, 148), (0x00EF, 149), (0x00EC, 147), (0x006A, 106), (0x006B, 107), (0x006C, 108), (0x003C, 60),
   (0x00AC, 194), (0x006D, 109), (0x00AF, 248), (0x03BC, 181), (0x006E, 110), (0x0039, 57), (0x00F1, 150), (0x0023, 35),
   (0x006F, 111), (0x00F3, 151), (0x00F4, 153), (0x00F6, 154), (0x0153, 207), (0x02DB, 254), (0x00F2, 152), (0x0031, 49),
   (0x00AA, 187), (0x00BA, 188), (0x00F8, 191), (0x00F5, 155), (0x0070, 112), (0x00B6, 166), (0x0028, 40), (0x0029, 41),
   (0x0025, 37), (0x002E, 46), (0x00B7, 225), (0x2030, 228), (0x002B, 43), (0x00B1, 177), (0x0071, 113), (0x003F, 63),
   (0x00BF, 192), (0x0022, 34), (0x201E, 227), (0x201C, 210), (0x201D, 211), (0x2018, 212), (0x2019, 213), (0x201A, 226),
   (0x0027, 39), (0x0072, 114), (0x00AE, 168), (0x0073, 115), (0x00A7, 164), (0x003B, 59), (0x0037, 55), (0x0036, 54),
   (0x002F, 47), (0x00A0, 32), (0x00A3, 163), (0x0074, 116), (0x0033, 51), (0x02DC, 247), (0x2122, 170), (0x0032, 50),
   (0x0075, 117), (0x00FA, 156), (0x00FB, 158), (0x00FC, 159), (0x00F9, 157), (0x005F, 95), (0x0076, 118), (0x0077, 119),
   (0x0078, 120), (0x0079, 121), (0x00FF, 216), (0x00A5, 180), (0x007A, 122), (0x0030, 48)]

/-- `decode_table`, codecs/macroman.py. -/
def macromanDecode : List (Nat × Bytes) :=
  [(65, b!"A"), (174, b!"AE"), (231, b!"Aacute"), (229, b!"Acircumflex"), (128, b!"Adieresis"), (203, b!"Agrave"),
   (129, b!"Aring"), (204, b!"Atilde"), (66, b!"B"), (67, b!"C"), (130, b!"Ccedilla"), (68, b!"D"),
   (69, b!"E"), (131, b!"Eacute"), (230, b!"Ecircumflex"), (232, b!"Edieresis"), (233, b!"Egrave"), (70, b!"F"),
   (71, b!"G"), (72, b!"H"), (73, b!"I"), (234, b!"Iacute"), (235, b!"Icircumflex"), (236, b!"Idieresis"),
   (237, b!"Igrave"), (74, b!"J"), (75, b!"K"), (76, b!"L"), (77, b!"M"), (78, b!"N"),
   (132, b!"Ntilde"), (79, b!"O"), (206, b!"OE"), (238, b!"Oacute"), (239, b!"Ocircumflex"), (133, b!"Odieresis"),
   (241, b!"Ograve"), (175, b!"Oslash"), (205, b!"Otilde"), (80, b!"P"), (81, b!"Q"), (82, b!"R"),
   (83, b!"S"), (84, b!"T"), (85, b!"U"), (242, b!"Uacute"), (243, b!"Ucircumflex"), (134, b!"Udieresis"),
   (244, b!"Ugrave"), (86, b!"V"), (87, b!"W"), (88, b!"X"), (89, b!"Y"), (217, b!"Ydieresis"),
   (90, b!"Z"), (97, b!"a"), (135, b!"aacute"), (137, b!"acircumflex"), (171, b!"acute"), (138, b!"adieresis"),
   (190, b!"ae"), (136, b!"agrave"), (38, b!"ampersand"), (140, b!"aring"), (94, b!"asciicircum"), (126, b!"asciitilde"),
   (42, b!"asterisk"), (64, b!"at"), (139, b!"atilde"), (98, b!"b"), (92, b!"backslash"), (124, b!"bar"),
   (123, b!"braceleft"), (125, b!"braceright"), (91, b!"bracketleft"), (93, b!"bracketright"), (249, b!"breve"), (165, b!"bullet"),
   (99, b!"c"), (255, b!"caron"), (141, b!"ccedilla"), (252, b!"cedilla"), (162, b!"cent"), (246, b!"circumflex"),
   (58, b!"colon"), (44, b!"comma"), (169, b!"copyright"), (219, b!"currency1"), (100, b!"d"), (160, b!"dagger"),
   (224, b!"daggerdbl"), (161, b!"degree"), (172, b!"dieresis"), (214, b!"divide"), (36, b!"dollar"), (250, b!"dotaccent"),
   (245, b!"dotlessi"), (101, b!"e"), (142, b!"eacute"), (144, b!"ecircumflex"), (145, b!"edieresis"), (143, b!"egrave"),
   (56, b!"eight"), (201, b!"ellipsis"), (209, b!"emdash"), (208, b!"endash"), (61, b!"equal"), (33, b!"exclam"),
   (193, b!"exclamdown"), (102, b!"f"), (222, b!"fi"), (53, b!"five"), (223, b!"fl"), (196, b!"florin"),
   (52, b!"four"), (218, b!"fraction"), (103, b!"g"), (167, b!"germandbls"), (96, b!"grave"), (62, b!"greater"),
   (199, b!"guillemotleft"), (200, b!"guillemotright"), (220, b!"guilsinglleft"), (221, b!"guilsinglright"), (104, b!"h"), (253, b!"hungarumlaut"),
   (45, b!"hyphen"), (105, b!"i"), (146, b!"iacute"), (148, b!"icircumflex"), (149, b!"idieresis"), (147, b!"igrave"),
   (106, b!"j"), (107, b!"k"), (108, b!"l"), (60, b!"less"), (194, b!"logicalnot"), (109, b!"m"),
   (248, b!"macron"), (181, b!"mu"), (110, b!"n"), (57, b!"nine"), (150, b!"ntilde"), (35, b!"numbersign"),
   (111, b!"o"), (151, b!"oacute"), (153, b!"ocircumflex"), (154, b!"odieresis"), (207, b!"oe"), (254, b!"ogonek"),
   (152, b!"ograve"), (49, b!"one"), (187, b!"ordfeminine"), (188, b!"ordmasculine"), (191, b!"oslash"), (155, b!"otilde"),
   (112, b!"p"), (166, b!"paragraph"), (40, b!"parenleft"), (41, b!"parenright"), (37, b!"percent"), (46, b!"period"),
   (225, b!"periodcentered"), (228, b!"perthousand"), (43, b!"plus"), (177, b!"plusminus"), (113, b!"q"), (63, b!"question"),
   (192, b!"questiondown"), (34, b!"quotedbl"), (227, b!"quotedblbase"), (210, b!"quotedblleft"), (211, b!"quotedblright"), (212, b!"quoteleft"),
   (213, b!"quoteright"), (226, b!"quotesinglbase"), (39, b!"quotesingle"), (114, b!"r"), (168, b!"registered"), (251, b!"ring"),
   (115, b!"s"), (164, b!"section"), (59, b!"semicolon"), (55, b!"seven"), (54, b!"six"), (47, b!"slash"),
   (32, b!"space"), (163, b!"sterling"), (116, b!"t"), (51, b!"three"), (247, b!"tilde"), (170, b!"trademark"),
   (50, b!"two"), (117, b!"u"), (156, b!"uacute"), (158, b!"ucircumflex"), (159, b!"udieresis"), (157, b!"ugrave"),
   (95, b!"underscore"), (118, b!"v"), (119, b!"w"), (120, b!"x"), (121, b!"y"), (216, b!"ydieresis"),
   (180, b!"yen"), (122, b!"z"), (48, b!"zero"), (202, b!"nbspace")]

/-- `encode_table`, codecs/pdfdoc.py: code points and bytes. -/
def pdfdocEncode : List (Nat × Byte) :=
  [(0x0041, 65), (0x00C6, 198), (0x00C1, 193), (0x00C2, 194), (0x00C4, 196), (0x00C0, 192), (0x00C5, 197), (0x00C3, 195),
   (0x0042, 66), (0x0043, 67), (0x00C7, 199), (0x0044, 68), (0x0045, 69), (0x00C9, 201), (0x00CA, 202), (0x00CB, 203),
   (0x00C8, 200), (0x00D0, 208), (0x20AC, 160), (0x0046, 70), (0x0047, 71), (0x0048, 72), (0x0049, 73), (0x00CD, 205),
   (0x00CE, 206), (0x00CF, 207), (0x00CC, 204), (0x004A, 74), (0x004B, 75), (0x004C, 76), (0x0141, 149), (0x004D, 77),
   (0x004E, 78), (0x00D1, 209), (0x004F, 79), (0x0152, 150), (0x00D3, 211), (0x00D4, 212), (0x00D6, 214), (0x00D2, 210),
   (0x00D8, 216), (0x00D5, 213), (0x0050, 80), (0x0051, 81), (0x0052, 82), (0x0053, 83), (0x0160, 151), (0x0054, 84),
   (0x00DE, 222), (0x0055, 85), (0x00DA, 218), (0x00DB, 219), (0x00DC, 220), (0x00D9, 217), (0x0056, 86), (0x0057, 87),
   (0x0058, 88), (0x0059, 89), (0x00DD, 221), (0x0178, 152), (0x005A, 90), (0x017D, 153), (0x0061, 97), (0x00E1, 225),
   (0x00E2, 226), (0x00B4, 180), (0x00E4, 228), (0x00E6, 230), (0x00E0, 224), (0x0026, 38), (0x00E5, 229), (0x005E, 94),
   (0x007E, 126), (0x002A, 42), (0x0040, 64), (0x00E3, 227), (0x0062, 98), (0x005C, 92), (0x007C, 124), (0x007B, 123),
   (0x007D, 125), (0x005B, 91), (0x005D, 93), (0x02D8, 24), (0x00A6, 166), (0x2022, 128), (0x0063, 99), (0x02C7, 25),
   (0x00E7, 231), (0x00B8, 184), (0x00A2, 162), (0x02C6, 26), (0x003A, 58), (0x002C, 44), (0x00A9, 169), (0x00A4, 164),
   (0x0064, 100), (0x2020, 129), (0x2021, 130), (0x00B0, 30), (0x00A8, 168), (0x00F7, 247), (0x0024, 36), (0x02D9, 27),
   (0x0131, 154), (0x0065, 101), (0x00E9, 233), (0x00EA, 234), (0x00EB, 235), (0x00E8, 232), (0x0038, 56), (0x2026, 131),
   (0x2014, 132), (0x2013, 133), (0x003D, 61), (0x00F0, 240), (0x0021, 33), (0x00A1, 161), (0x0066, 102), (0xFB01, 147),
   (0x0035, 53), (0xFB02, 148), (0x0192, 134), (0x0034, 52), (0x2044, 135), (0x0067, 103), (0x00DF, 223), (0x0060, 96),
   (0x003E, 62), (0x00AB, 171), (0x00BB, 187), (0x2039, 136), (0x203A, 137), (0x0068, 104), (0x02DD, 28), (0x002D, 45),
   (0x0069, 105), (0x00ED, 237), (0x00EE, 238), (0x00EF, 239), (0x00EC, 236), (0x006A, 106), (0x006B, 107), (0x006C, 108),
   (0x003C, 60), (0x00AC, 172), (0x0142, 155), (0x006D, 109), (0x00AF, 175), (0x2212, 138), (0x03BC, 181), (0x00D7, 215),
   (0x006E, 110), (0x0039, 57), (0x00F1, 241), (0x0023, 35), (0x006F, 111), (0x00F3, 243), (0x00F4, 244), (0x00F6, 246),
   (0x0153, 156), (0x02DB, 29), (0x00F2, 242), (0x0031, 49), (0x00BD, 189), (0x00BC, 188), (0x00B9, 185), (0x00AA, 170),
   (0x00BA, 186), (0x00F8, 248), (0x00F5, 245), (0x0070, 112), (0x00B6, 182), (0x0028, 40), (0x0029, 41), (0x0025, 37),
   (0x002E, 46), (0x00B7, 183), (0x2030, 139), (0x002B, 43), (0x00B1, 177), (0x0071, 113), (0x003F, 63), (0x00BF, 191),
   (0x0022, 34), (0x201E, 140), (0x201C, 141), (0x201D, 142), (0x2018, 143), (0x2019, 144), (0x201A, 145), (0x0027, 39),
   (0x0072, 114), (0x00AE, 174), (0x0073, 115), (0x0161, 157), (0x00A7, 167), (0x003B, 59), (0x0037, 55), (0x0036, 54),
   (0x002F, 47), (0x00A0, 32), (0x00A3, 163), (0x0074, 116), (0x00FE, 254), (0x0033, 51), (0x00BE, 190), (0x00B3, 179),
   (0x02DC, 31), (0x2122, 146), (0x0032, 50), (0x00B2, 178), (0x0075, 117), (0x00FA, 250), (0x00FB, 251), (0x00FC, 252),
   (0x00F9, 249), (0x005F, 95), (0x0076, 118), (0x0077, 119), (0x0078, 120), (0x0079, 121), (0x00FD, 253), (0x00FF, 255),
   (0x00A5, 165), (0x007A, 122), (0x017E, 158), (0x0030, 48)]

/-- `decode_table`, codecs/pdfdoc.py. -/
def pdfdocDecode : List (Nat × Bytes) :=
  [(65, b!"A"), (198, b!"AE"), (193, b!"Aacute"), (194, b!"Acircumflex"), (196, b!"Adieresis"), (192, b!"Agrave"),
   (197, b!"Aring"), (195, b!"Atilde"), (66, b!"B"), (67, b!"C"), (199, b!"Ccedilla"), (68, b!"D"),
   (69, b!"E"), (201, b!"Eacute"), (202, b!"Ecircumflex"), (203, b!"Edieresis"), (200, b!"Egrave"), (208, b!"Eth"),
   (160, b!"Euro"), (70, b!"F"), (71, b!"G"), (72, b!"H"), (73, b!"I"), (205, b!"Iacute"),
   (206, b!"Icircumflex"), (207, b!"Idieresis"), (204, b!"Igrave"), (74, b!"J"), (75, b!"K"), (76, b!"L"),
   (149, b!"Lslash"), (77, b!"M"), (78, b!"N"), (209, b!"Ntilde"), (79, b!"O"), (150, b!"OE"),
   (211, b!"Oacute"), (212, b!"Ocircumflex"), (214, b!"Odieresis"), (210, b!"Ograve"), (216, b!"Oslash"), (213, b!"Otilde"),
   (80, b!"P"), (81, b!"Q"), (82, b!"R"), (83, b!"S"), (151, b!"Scaron"), (84, b!"T"),
   (222, b!"Thorn"), (85, b!"U"), (218, b!"Uacute"), (219, b!"Ucircumflex"), (220, b!"Udieresis"), (217, b!"Ugrave"),
   (86, b!"V"), (87, b!"W"), (88, b!"X"), (89, b!"Y"), (221, b!"Yacute"), (152, b!"Ydieresis"),
   (90, b!"Z"), (153, b!"Zcaron"), (97, b!"a"), (225, b!"aacute"), (226, b!"acircumflex"), (180, b!"acute"),
   (228, b!"adieresis"), (230, b!"ae"), (224, b!"agrave"), (38, b!"ampersand"), (229, b!"aring"), (94, b!"asciicircum"),
   (126, b!"asciitilde"), (42, b!"asterisk"), (64, b!"at"), (227, b!"atilde"), (98, b!"b"), (92, b!"backslash"),
   (124, b!"bar"), (123, b!"braceleft"), (125, b!"braceright"), (91, b!"bracketleft"), (93, b!"bracketright"), (24, b!"breve"),
   (166, b!"brokenbar"), (128, b!"bullet"), (99, b!"c"), (25, b!"caron"), (231, b!"ccedilla"), (184, b!"cedilla"),
   (162, b!"cent"), (26, b!"circumflex"), (58, b!"colon"), (44, b!"comma"), (169, b!"copyright"), (164, b!"currency1"),
   (100, b!"d"), (129, b!"dagger"), (130, b!"daggerdbl"), (176, b!"degree"), (168, b!"dieresis"), (247, b!"divide"),
   (36, b!"dollar"), (27, b!"dotaccent"), (154, b!"dotlessi"), (101, b!"e"), (233, b!"eacute"), (234, b!"ecircumflex"),
   (235, b!"edieresis"), (232, b!"egrave"), (56, b!"eight"), (131, b!"ellipsis"), (132, b!"emdash"), (133, b!"endash"),
   (61, b!"equal"), (240, b!"eth"), (33, b!"exclam"), (161, b!"exclamdown"), (102, b!"f"), (147, b!"fi"),
   (53, b!"five"), (148, b!"fl"), (134, b!"florin"), (52, b!"four"), (135, b!"fraction"), (103, b!"g"),
   (223, b!"germandbls"), (96, b!"grave"), (62, b!"greater"), (171, b!"guillemotleft"), (187, b!"guillemotright"), (136, b!"guilsinglleft"),
   (137, b!"guilsinglright"), (104, b!"h"), (28, b!"hungarumlaut"), (45, b!"hyphen"), (105, b!"i"), (237, b!"iacute"),
   (238, b!"icircumflex"), (239, b!"idieresis"), (236, b!"igrave"), (106, b!"j"), (107, b!"k"), (108, b!"l"),
   (60, b!"less"), (172, b!"logicalnot"), (155, b!"lslash"), (109, b!"m"), (175, b!"macron"), (138, b!"minus"),
   (181, b!"mu"), (215, b!"multiply"), (110, b!"n"), (57, b!"nine"), (241, b!"ntilde"), (35, b!"numbersign"),
   (111, b!"o"), (243, b!"oacute"), (244, b!"ocircumflex"), (246, b!"odieresis"), (156, b!"oe"), (29, b!"ogonek"),
   (242, b!"ograve"), (49, b!"one"), (189, b!"onehalf"), (188, b!"onequarter"), (185, b!"onesuperior"), (170, b!"ordfeminine"),
   (186, b!"ordmasculine"), (248, b!"oslash"), (245, b!"otilde"), (112, b!"p"), (182, b!"paragraph"), (40, b!"parenleft"),
   (41, b!"parenright"), (37, b!"percent"), (46, b!"period"), (183, b!"periodcentered"), (139, b!"perthousand"), (43, b!"plus"),
   (177, b!"plusminus"), (113, b!"q"), (63, b!"question"), (191, b!"questiondown"), (34, b!"quotedbl"), (140, b!"quotedblbase"),
   (141, b!"quotedblleft"), (142, b!"quotedblright"), (143, b!"quoteleft"), (144, b!"quoteright"), (145, b!"quotesinglbase"), (39, b!"quotesingle"),
   (114, b!"r"), (174, b!"registered"), (30, b!"ring"), (115, b!"s"), (157, b!"scaron"), (167, b!"section"),
   (59, b!"semicolon"), (55, b!"seven"), (54, b!"six"), (47, b!"slash"), (32, b!"space"), (163, b!"sterling"),
   (116, b!"t"), (254, b!"thorn"), (51, b!"three"), (190, b!"threequarters"), (179, b!"threesuperior"), (31, b!"tilde"),
   (146, b!"trademark"), (50, b!"two"), (178, b!"twosuperior"), (117, b!"u"), (250, b!"uacute"), (251, b!"ucircumflex"),
   (252, b!"udieresis"), (249, b!"ugrave"), (95, b!"underscore"), (118, b!"v"), (119, b!"w"), (120, b!"x"),
   (121, b!"y"), (253, b!"yacute"), (255, b!"ydieresis"), (165, b!"yen"), (122, b!"z"), (158, b!"zcaron"),
   (48, b!"zero")]

end PdfReader
