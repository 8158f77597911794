import Verif.Go.Lang

/-!
# The body of `func (m *machine) Parse(input []byte)` in `rfc3164/machine.go` (lines 97-7263), statement by statement

GENERATED by `tools/goast.py` from the Go source; do not edit by hand.
-/

namespace Verif.Gen.GoRfc3164
open Verif.Go

/-- Statements of `rfc3164/machine.go`. -/
inductive A where
  /-- `m.pb = 0` -/
  | pbZero
  /-- `m.err = nil` -/
  | errNil
  /-- `output := &syslogMessage{}` -/
  | outputNew
  /-- `m.pb = m.p` -/
  | pbP
  /-- `output.priority = uint8(common.UnsafeUTF8DecimalCodePointsToInt(m.text()))` -/
  | priority
  /-- `output.prioritySet = true` -/
  | prioritySet
  /-- `output.timestamp = t` -/
  | timestamp
  /-- `output.timestampSet = true` -/
  | timestampSet
  /-- `m.err = fmt.Errorf("%s [col %d]", e, m.p)` -/
  | errTime
  /-- `output.hostname = string(m.text())` -/
  | hostname
  /-- `output.message = string(m.text())` -/
  | message
  /-- `t, e := time.Parse(time.Stamp, string(m.text()))` -/
  | stampParse
  /-- `t, e := time.Parse(time.RFC3339, string(m.text()))` -/
  | rfc3339Parse
  /-- `t, _ = time.ParseInLocation(time.Stamp, string(m.text()), m.timezone)` -/
  | parseInLocation
  /-- `output.timestamp = t.AddDate(m.yyyy, 0, 0)` -/
  | timestampAddDate
  /-- `output.timestamp = output.timestamp.In(m.loc)` -/
  | timestampIn
  /-- `output.tag = string(m.text())` -/
  | tag
  /-- `output.content = string(m.text())` -/
  | content
  /-- `m.err = fmt.Errorf(errPrival, m.p)` -/
  | errPrival
  /-- `m.err = fmt.Errorf(errPri, m.p)` -/
  | errPri
  /-- `m.err = fmt.Errorf(errTimestamp, m.p)` -/
  | errTimestamp
  /-- `m.err = fmt.Errorf(errRFC3339, m.p)` -/
  | errRFC3339
  /-- `m.err = fmt.Errorf(errHostname, m.p)` -/
  | errHostname
  /-- `m.err = fmt.Errorf(errTag, m.p)` -/
  | errTag
  deriving DecidableEq, Repr

/-- Conditions of `rfc3164/machine.go`. -/
inductive C where
  /-- `e != nil` -/
  | eNotNil
  /-- `m.rfc3339` -/
  | rfc3339
  /-- `m.timezone != nil` -/
  | hasTimezone
  /-- `m.loc != nil` -/
  | hasLoc
  /-- `m.bestEffort && output.minimal()` -/
  | bestEffortMinimal
  deriving DecidableEq, Repr

/-- Return statements of `rfc3164/machine.go`. -/
inductive R where
  /-- `return output.export(), m.err` -/
  | partialOutput
  /-- `return nil, m.err` -/
  | failed
  /-- `return output.export(), nil` -/
  | complete
  deriving DecidableEq, Repr

/-- Code of this function. -/
abbrev K := Code A C R

/-- `switch cs`: the state and the label -/
def jumps : List (Nat × Lbl) := [(1, .stCase 1), (0, .stCase 0), (2, .stCase 2), (3, .stCase 3), (4, .stCase 4), (5, .stCase 5), (6, .stCase 6), (7, .stCase 7), (8, .stCase 8), (9, .stCase 9), (10, .stCase 10), (11, .stCase 11), (12, .stCase 12), (13, .stCase 13), (14, .stCase 14), (15, .stCase 15), (16, .stCase 16), (17, .stCase 17), (18, .stCase 18), (19, .stCase 19), (20, .stCase 20), (21, .stCase 21), (22, .stCase 22), (333, .stCase 333), (334, .stCase 334), (335, .stCase 335), (336, .stCase 336), (337, .stCase 337), (338, .stCase 338), (339, .stCase 339), (340, .stCase 340), (341, .stCase 341), (342, .stCase 342), (343, .stCase 343), (344, .stCase 344), (345, .stCase 345), (346, .stCase 346), (347, .stCase 347), (348, .stCase 348), (349, .stCase 349), (350, .stCase 350), (351, .stCase 351), (352, .stCase 352), (353, .stCase 353), (354, .stCase 354), (355, .stCase 355), (356, .stCase 356), (357, .stCase 357), (358, .stCase 358), (359, .stCase 359), (360, .stCase 360), (361, .stCase 361), (362, .stCase 362), (363, .stCase 363), (364, .stCase 364), (365, .stCase 365), (366, .stCase 366), (367, .stCase 367), (368, .stCase 368), (23, .stCase 23), (24, .stCase 24), (25, .stCase 25), (26, .stCase 26), (369, .stCase 369), (370, .stCase 370), (371, .stCase 371), (372, .stCase 372), (27, .stCase 27), (28, .stCase 28), (29, .stCase 29), (30, .stCase 30), (31, .stCase 31), (32, .stCase 32), (33, .stCase 33), (34, .stCase 34), (35, .stCase 35), (36, .stCase 36), (37, .stCase 37), (38, .stCase 38), (39, .stCase 39), (40, .stCase 40), (41, .stCase 41), (42, .stCase 42), (43, .stCase 43), (44, .stCase 44), (45, .stCase 45), (46, .stCase 46), (47, .stCase 47), (48, .stCase 48), (49, .stCase 49), (50, .stCase 50), (51, .stCase 51), (52, .stCase 52), (53, .stCase 53), (54, .stCase 54), (55, .stCase 55), (56, .stCase 56), (57, .stCase 57), (58, .stCase 58), (59, .stCase 59), (60, .stCase 60), (61, .stCase 61), (62, .stCase 62), (63, .stCase 63), (64, .stCase 64), (65, .stCase 65), (66, .stCase 66), (67, .stCase 67), (68, .stCase 68), (69, .stCase 69), (70, .stCase 70), (71, .stCase 71), (72, .stCase 72), (73, .stCase 73), (74, .stCase 74), (75, .stCase 75), (76, .stCase 76), (77, .stCase 77), (78, .stCase 78), (79, .stCase 79), (80, .stCase 80), (81, .stCase 81), (82, .stCase 82), (83, .stCase 83), (84, .stCase 84), (85, .stCase 85), (86, .stCase 86), (87, .stCase 87), (88, .stCase 88), (89, .stCase 89), (90, .stCase 90), (91, .stCase 91), (92, .stCase 92), (93, .stCase 93), (94, .stCase 94), (95, .stCase 95), (96, .stCase 96), (97, .stCase 97), (98, .stCase 98), (99, .stCase 99), (100, .stCase 100), (101, .stCase 101), (102, .stCase 102), (103, .stCase 103), (104, .stCase 104), (105, .stCase 105), (106, .stCase 106), (107, .stCase 107), (108, .stCase 108), (109, .stCase 109), (110, .stCase 110), (111, .stCase 111), (112, .stCase 112), (113, .stCase 113), (114, .stCase 114), (115, .stCase 115), (116, .stCase 116), (117, .stCase 117), (118, .stCase 118), (119, .stCase 119), (120, .stCase 120), (121, .stCase 121), (122, .stCase 122), (123, .stCase 123), (124, .stCase 124), (125, .stCase 125), (126, .stCase 126), (127, .stCase 127), (128, .stCase 128), (129, .stCase 129), (130, .stCase 130), (131, .stCase 131), (132, .stCase 132), (133, .stCase 133), (134, .stCase 134), (135, .stCase 135), (136, .stCase 136), (137, .stCase 137), (138, .stCase 138), (139, .stCase 139), (140, .stCase 140), (141, .stCase 141), (142, .stCase 142), (143, .stCase 143), (144, .stCase 144), (145, .stCase 145), (146, .stCase 146), (147, .stCase 147), (148, .stCase 148), (149, .stCase 149), (150, .stCase 150), (151, .stCase 151), (152, .stCase 152), (153, .stCase 153), (154, .stCase 154), (155, .stCase 155), (156, .stCase 156), (157, .stCase 157), (158, .stCase 158), (159, .stCase 159), (160, .stCase 160), (161, .stCase 161), (162, .stCase 162), (163, .stCase 163), (164, .stCase 164), (165, .stCase 165), (166, .stCase 166), (167, .stCase 167), (168, .stCase 168), (169, .stCase 169), (170, .stCase 170), (171, .stCase 171), (172, .stCase 172), (173, .stCase 173), (174, .stCase 174), (175, .stCase 175), (176, .stCase 176), (177, .stCase 177), (178, .stCase 178), (179, .stCase 179), (180, .stCase 180), (181, .stCase 181), (182, .stCase 182), (183, .stCase 183), (184, .stCase 184), (185, .stCase 185), (186, .stCase 186), (187, .stCase 187), (188, .stCase 188), (189, .stCase 189), (190, .stCase 190), (191, .stCase 191), (192, .stCase 192), (193, .stCase 193), (194, .stCase 194), (195, .stCase 195), (196, .stCase 196), (197, .stCase 197), (198, .stCase 198), (199, .stCase 199), (200, .stCase 200), (201, .stCase 201), (202, .stCase 202), (203, .stCase 203), (204, .stCase 204), (205, .stCase 205), (206, .stCase 206), (207, .stCase 207), (208, .stCase 208), (209, .stCase 209), (210, .stCase 210), (211, .stCase 211), (212, .stCase 212), (213, .stCase 213), (214, .stCase 214), (215, .stCase 215), (216, .stCase 216), (217, .stCase 217), (218, .stCase 218), (219, .stCase 219), (220, .stCase 220), (221, .stCase 221), (222, .stCase 222), (223, .stCase 223), (224, .stCase 224), (225, .stCase 225), (226, .stCase 226), (227, .stCase 227), (228, .stCase 228), (229, .stCase 229), (230, .stCase 230), (231, .stCase 231), (232, .stCase 232), (233, .stCase 233), (234, .stCase 234), (235, .stCase 235), (236, .stCase 236), (237, .stCase 237), (238, .stCase 238), (239, .stCase 239), (240, .stCase 240), (241, .stCase 241), (242, .stCase 242), (243, .stCase 243), (244, .stCase 244), (245, .stCase 245), (246, .stCase 246), (247, .stCase 247), (248, .stCase 248), (249, .stCase 249), (250, .stCase 250), (251, .stCase 251), (252, .stCase 252), (253, .stCase 253), (254, .stCase 254), (255, .stCase 255), (256, .stCase 256), (257, .stCase 257), (258, .stCase 258), (259, .stCase 259), (260, .stCase 260), (261, .stCase 261), (262, .stCase 262), (263, .stCase 263), (264, .stCase 264), (265, .stCase 265), (266, .stCase 266), (267, .stCase 267), (268, .stCase 268), (269, .stCase 269), (270, .stCase 270), (271, .stCase 271), (272, .stCase 272), (273, .stCase 273), (274, .stCase 274), (275, .stCase 275), (276, .stCase 276), (277, .stCase 277), (278, .stCase 278), (279, .stCase 279), (280, .stCase 280), (281, .stCase 281), (282, .stCase 282), (283, .stCase 283), (284, .stCase 284), (285, .stCase 285), (286, .stCase 286), (287, .stCase 287), (288, .stCase 288), (289, .stCase 289), (290, .stCase 290), (291, .stCase 291), (292, .stCase 292), (293, .stCase 293), (294, .stCase 294), (295, .stCase 295), (296, .stCase 296), (297, .stCase 297), (298, .stCase 298), (299, .stCase 299), (300, .stCase 300), (301, .stCase 301), (302, .stCase 302), (303, .stCase 303), (304, .stCase 304), (305, .stCase 305), (306, .stCase 306), (307, .stCase 307), (308, .stCase 308), (309, .stCase 309), (310, .stCase 310), (311, .stCase 311), (312, .stCase 312), (313, .stCase 313), (314, .stCase 314), (315, .stCase 315), (316, .stCase 316), (317, .stCase 317), (318, .stCase 318), (319, .stCase 319), (320, .stCase 320), (321, .stCase 321), (322, .stCase 322), (323, .stCase 323), (324, .stCase 324), (325, .stCase 325), (326, .stCase 326), (327, .stCase 327), (328, .stCase 328), (329, .stCase 329), (330, .stCase 330), (331, .stCase 331), (332, .stCase 332), (373, .stCase 373)]

/-- rfc3164/machine.go:97 -/
def entry : K × Lbl := ⟨.stmt .dataInput (.stmt .pZero (.stmt (.prim .pbZero) (.stmt .peLen (.stmt .eofLen (.stmt (.prim .errNil) (.stmt (.prim .outputNew) (.stmt (.setCs 1) (.stmt .widecZero (.ifElse .pEqPe (.goto .testEof .done) .done (.jumpCs jumps (.goto .stOut .done))))))))))), .stCase 1⟩
/-- rfc3164/machine.go:866 -/
def stCase1 : K × Lbl := ⟨.ifElse (.cmp .eq .byte (.lit 60)) (.goto (.st 2) .done) .done (.goto (.tr 0) .done), .tr 0⟩
/-- rfc3164/machine.go:871 -/
def tr0 : K × Lbl := ⟨.stmt (.prim .errPri) (.stmt .decP (.goto (.st 373) (.goto (.st 0) .done))), .tr 2⟩
/-- rfc3164/machine.go:881 -/
def tr2 : K × Lbl := ⟨.stmt (.prim .errPrival) (.stmt .decP (.goto (.st 373) (.stmt (.prim .errPri) (.stmt .decP (.goto (.st 373) (.goto (.st 0) .done)))))), .tr 7⟩
/-- rfc3164/machine.go:898 -/
def tr7 : K × Lbl := ⟨.stmt (.prim .errTimestamp) (.stmt .decP (.goto (.st 373) (.goto (.st 0) .done))), .tr 37⟩
/-- rfc3164/machine.go:908 -/
def tr37 : K × Lbl := ⟨.stmt (.prim .errHostname) (.stmt .decP (.goto (.st 373) (.goto (.st 0) .done))), .tr 41⟩
/-- rfc3164/machine.go:918 -/
def tr41 : K × Lbl := ⟨.stmt (.prim .errTag) (.stmt .decP (.goto (.st 373) (.goto (.st 0) .done))), .tr 333⟩
/-- rfc3164/machine.go:928 -/
def tr333 : K × Lbl := ⟨.stmt (.prim .errRFC3339) (.stmt .decP (.goto (.st 373) (.goto (.st 0) .done))), .stCase 0⟩
/-- rfc3164/machine.go:938 -/
def stCase0 : K × Lbl := ⟨.done, .st 0⟩
/-- rfc3164/machine.go:939 -/
def st0 : K × Lbl := ⟨.stmt (.setCs 0) (.goto .out .done), .st 2⟩
/-- rfc3164/machine.go:942 -/
def st2 : K × Lbl := ⟨.stmt .incP (.ifElse .pEqPe (.goto (.testEofN 2) .done) .done .done), .stCase 2⟩
/-- rfc3164/machine.go:946 -/
def stCase2 : K × Lbl := ⟨.ifElse (.cmp .eq .byte (.lit 48)) (.goto (.tr 3) .done) (.ifElse (.cmp .eq .byte (.lit 49)) (.goto (.tr 4) .done) .done .done) (.ifElse (.and (.cmp .le (.lit 50) .byte) (.cmp .le .byte (.lit 57))) (.goto (.tr 5) .done) .done (.goto (.tr 2) .done)), .tr 3⟩
/-- rfc3164/machine.go:957 -/
def tr3 : K × Lbl := ⟨.stmt (.prim .pbP) (.goto (.st 3) .done), .st 3⟩
/-- rfc3164/machine.go:962 -/
def st3 : K × Lbl := ⟨.stmt .incP (.ifElse .pEqPe (.goto (.testEofN 3) .done) .done .done), .stCase 3⟩
/-- rfc3164/machine.go:966 -/
def stCase3 : K × Lbl := ⟨.stmt (.prim .priority) (.stmt (.prim .prioritySet) (.ifElse (.cmp .eq .byte (.lit 62)) (.goto (.st 4) .done) .done (.goto (.tr 2) .done))), .st 4⟩
/-- rfc3164/machine.go:975 -/
def st4 : K × Lbl := ⟨.stmt .incP (.ifElse .pEqPe (.goto (.testEofN 4) .done) .done .done), .stCase 4⟩
/-- rfc3164/machine.go:979 -/
def stCase4 : K × Lbl := ⟨.stmt .widecByte (.ifElse (.and (.cmp .le (.lit 48) .byte) (.cmp .le .byte (.lit 57))) (.stmt (.widecBase 256 0) (.ifElse (.prim .rfc3339) (.stmt (.widecAdd 256) .done) .done .done)) .done (.ifElse (.cmp .eq .widec (.lit 65)) (.goto (.tr 8) .done) (.ifElse (.cmp .eq .widec (.lit 68)) (.goto (.tr 9) .done) (.ifElse (.cmp .eq .widec (.lit 70)) (.goto (.tr 10) .done) (.ifElse (.cmp .eq .widec (.lit 74)) (.goto (.tr 11) .done) (.ifElse (.cmp .eq .widec (.lit 77)) (.goto (.tr 12) .done) (.ifElse (.cmp .eq .widec (.lit 78)) (.goto (.tr 13) .done) (.ifElse (.cmp .eq .widec (.lit 79)) (.goto (.tr 14) .done) (.ifElse (.cmp .eq .widec (.lit 83)) (.goto (.tr 15) .done) .done .done) .done) .done) .done) .done) .done) .done) (.ifElse (.and (.cmp .le (.lit 560) .widec) (.cmp .le .widec (.lit 569))) (.goto (.tr 16) .done) .done (.goto (.tr 7) .done)))), .tr 8⟩
/-- rfc3164/machine.go:1009 -/
def tr8 : K × Lbl := ⟨.stmt (.prim .pbP) (.goto (.st 5) .done), .st 5⟩
/-- rfc3164/machine.go:1014 -/
def st5 : K × Lbl := ⟨.stmt .incP (.ifElse .pEqPe (.goto (.testEofN 5) .done) .done .done), .stCase 5⟩
/-- rfc3164/machine.go:1018 -/
def stCase5 : K × Lbl := ⟨.ifElse (.cmp .eq .byte (.lit 112)) (.goto (.st 6) .done) (.ifElse (.cmp .eq .byte (.lit 117)) (.goto (.st 284) .done) .done .done) (.goto (.tr 7) .done), .st 6⟩
/-- rfc3164/machine.go:1026 -/
def st6 : K × Lbl := ⟨.stmt .incP (.ifElse .pEqPe (.goto (.testEofN 6) .done) .done .done), .stCase 6⟩
/-- rfc3164/machine.go:1030 -/
def stCase6 : K × Lbl := ⟨.ifElse (.cmp .eq .byte (.lit 114)) (.goto (.st 7) .done) .done (.goto (.tr 7) .done), .st 7⟩
/-- rfc3164/machine.go:1035 -/
def st7 : K × Lbl := ⟨.stmt .incP (.ifElse .pEqPe (.goto (.testEofN 7) .done) .done .done), .stCase 7⟩
/-- rfc3164/machine.go:1039 -/
def stCase7 : K × Lbl := ⟨.ifElse (.cmp .eq .byte (.lit 32)) (.goto (.st 8) .done) .done (.goto (.tr 7) .done), .st 8⟩
/-- rfc3164/machine.go:1044 -/
def st8 : K × Lbl := ⟨.stmt .incP (.ifElse .pEqPe (.goto (.testEofN 8) .done) .done .done), .stCase 8⟩
/-- rfc3164/machine.go:1048 -/
def stCase8 : K × Lbl := ⟨.ifElse (.cmp .eq .byte (.lit 32)) (.goto (.st 9) .done) (.ifElse (.cmp .eq .byte (.lit 51)) (.goto (.st 283) .done) .done .done) (.ifElse (.and (.cmp .le (.lit 49) .byte) (.cmp .le .byte (.lit 50))) (.goto (.st 282) .done) .done (.goto (.tr 7) .done)), .st 9⟩
/-- rfc3164/machine.go:1059 -/
def st9 : K × Lbl := ⟨.stmt .incP (.ifElse .pEqPe (.goto (.testEofN 9) .done) .done .done), .stCase 9⟩
/-- rfc3164/machine.go:1063 -/
def stCase9 : K × Lbl := ⟨.ifElse (.and (.cmp .le (.lit 49) .byte) (.cmp .le .byte (.lit 57))) (.goto (.st 10) .done) .done (.goto (.tr 7) .done), .st 10⟩
/-- rfc3164/machine.go:1068 -/
def st10 : K × Lbl := ⟨.stmt .incP (.ifElse .pEqPe (.goto (.testEofN 10) .done) .done .done), .stCase 10⟩
/-- rfc3164/machine.go:1072 -/
def stCase10 : K × Lbl := ⟨.ifElse (.cmp .eq .byte (.lit 32)) (.goto (.st 11) .done) .done (.goto (.tr 7) .done), .st 11⟩
/-- rfc3164/machine.go:1077 -/
def st11 : K × Lbl := ⟨.stmt .incP (.ifElse .pEqPe (.goto (.testEofN 11) .done) .done .done), .stCase 11⟩
/-- rfc3164/machine.go:1081 -/
def stCase11 : K × Lbl := ⟨.ifElse (.cmp .eq .byte (.lit 50)) (.goto (.st 281) .done) .done (.ifElse (.and (.cmp .le (.lit 48) .byte) (.cmp .le .byte (.lit 49))) (.goto (.st 12) .done) .done (.goto (.tr 7) .done)), .st 12⟩
/-- rfc3164/machine.go:1089 -/
def st12 : K × Lbl := ⟨.stmt .incP (.ifElse .pEqPe (.goto (.testEofN 12) .done) .done .done), .stCase 12⟩
/-- rfc3164/machine.go:1093 -/
def stCase12 : K × Lbl := ⟨.ifElse (.and (.cmp .le (.lit 48) .byte) (.cmp .le .byte (.lit 57))) (.goto (.st 13) .done) .done (.goto (.tr 7) .done), .st 13⟩
/-- rfc3164/machine.go:1098 -/
def st13 : K × Lbl := ⟨.stmt .incP (.ifElse .pEqPe (.goto (.testEofN 13) .done) .done .done), .stCase 13⟩
/-- rfc3164/machine.go:1102 -/
def stCase13 : K × Lbl := ⟨.ifElse (.cmp .eq .byte (.lit 58)) (.goto (.st 14) .done) .done (.goto (.tr 7) .done), .st 14⟩
/-- rfc3164/machine.go:1107 -/
def st14 : K × Lbl := ⟨.stmt .incP (.ifElse .pEqPe (.goto (.testEofN 14) .done) .done .done), .stCase 14⟩
/-- rfc3164/machine.go:1111 -/
def stCase14 : K × Lbl := ⟨.ifElse (.and (.cmp .le (.lit 48) .byte) (.cmp .le .byte (.lit 53))) (.goto (.st 15) .done) .done (.goto (.tr 7) .done), .st 15⟩
/-- rfc3164/machine.go:1116 -/
def st15 : K × Lbl := ⟨.stmt .incP (.ifElse .pEqPe (.goto (.testEofN 15) .done) .done .done), .stCase 15⟩
/-- rfc3164/machine.go:1120 -/
def stCase15 : K × Lbl := ⟨.ifElse (.and (.cmp .le (.lit 48) .byte) (.cmp .le .byte (.lit 57))) (.goto (.st 16) .done) .done (.goto (.tr 7) .done), .st 16⟩
/-- rfc3164/machine.go:1125 -/
def st16 : K × Lbl := ⟨.stmt .incP (.ifElse .pEqPe (.goto (.testEofN 16) .done) .done .done), .stCase 16⟩
/-- rfc3164/machine.go:1129 -/
def stCase16 : K × Lbl := ⟨.ifElse (.cmp .eq .byte (.lit 58)) (.goto (.st 17) .done) .done (.goto (.tr 7) .done), .st 17⟩
/-- rfc3164/machine.go:1134 -/
def st17 : K × Lbl := ⟨.stmt .incP (.ifElse .pEqPe (.goto (.testEofN 17) .done) .done .done), .stCase 17⟩
/-- rfc3164/machine.go:1138 -/
def stCase17 : K × Lbl := ⟨.ifElse (.and (.cmp .le (.lit 48) .byte) (.cmp .le .byte (.lit 53))) (.goto (.st 18) .done) .done (.goto (.tr 7) .done), .st 18⟩
/-- rfc3164/machine.go:1143 -/
def st18 : K × Lbl := ⟨.stmt .incP (.ifElse .pEqPe (.goto (.testEofN 18) .done) .done .done), .stCase 18⟩
/-- rfc3164/machine.go:1147 -/
def stCase18 : K × Lbl := ⟨.ifElse (.and (.cmp .le (.lit 48) .byte) (.cmp .le .byte (.lit 57))) (.goto (.st 19) .done) .done (.goto (.tr 7) .done), .st 19⟩
/-- rfc3164/machine.go:1152 -/
def st19 : K × Lbl := ⟨.stmt .incP (.ifElse .pEqPe (.goto (.testEofN 19) .done) .done .done), .stCase 19⟩
/-- rfc3164/machine.go:1156 -/
def stCase19 : K × Lbl := ⟨.ifElse (.cmp .eq .byte (.lit 32)) (.goto (.tr 35) .done) .done (.goto (.st 0) .done), .tr 35⟩
/-- rfc3164/machine.go:1161 -/
def tr35 : K × Lbl := ⟨.stmt (.prim .stampParse) (.ifElse (.prim .eNotNil) (.stmt (.prim .errTime) (.stmt .decP (.goto (.st 373) .done))) (.ifElse (.prim .hasTimezone) (.stmt (.prim .parseInLocation) .done) .done (.stmt (.prim .timestampAddDate) (.ifElse (.prim .hasLoc) (.stmt (.prim .timestampIn) .done) .done (.stmt (.prim .timestampSet) .done)))) (.goto (.st 20) .done)), .tr 341⟩
/-- rfc3164/machine.go:1182 -/
def tr341 : K × Lbl := ⟨.stmt (.prim .rfc3339Parse) (.ifElse (.prim .eNotNil) (.stmt (.prim .errTime) (.stmt .decP (.goto (.st 373) .done))) (.stmt (.prim .timestamp) (.stmt (.prim .timestampSet) .done)) (.goto (.st 20) .done)), .st 20⟩
/-- rfc3164/machine.go:1197 -/
def st20 : K × Lbl := ⟨.stmt .incP (.ifElse .pEqPe (.goto (.testEofN 20) .done) .done .done), .stCase 20⟩
/-- rfc3164/machine.go:1201 -/
def stCase20 : K × Lbl := ⟨.ifElse (.and (.cmp .le (.lit 33) .byte) (.cmp .le .byte (.lit 126))) (.goto (.tr 38) .done) .done (.goto (.tr 37) .done), .tr 38⟩
/-- rfc3164/machine.go:1206 -/
def tr38 : K × Lbl := ⟨.stmt (.prim .pbP) (.goto (.st 21) .done), .st 21⟩
/-- rfc3164/machine.go:1211 -/
def st21 : K × Lbl := ⟨.stmt .incP (.ifElse .pEqPe (.goto (.testEofN 21) .done) .done .done), .stCase 21⟩
/-- rfc3164/machine.go:1215 -/
def stCase21 : K × Lbl := ⟨.ifElse (.cmp .eq .byte (.lit 32)) (.goto (.tr 39) .done) .done (.ifElse (.and (.cmp .le (.lit 33) .byte) (.cmp .le .byte (.lit 126))) (.goto (.st 27) .done) .done (.goto (.tr 37) .done)), .tr 39⟩
/-- rfc3164/machine.go:1223 -/
def tr39 : K × Lbl := ⟨.stmt (.prim .hostname) (.goto (.st 22) .done), .st 22⟩
/-- rfc3164/machine.go:1228 -/
def st22 : K × Lbl := ⟨.stmt .incP (.ifElse .pEqPe (.goto (.testEofN 22) .done) .done .done), .stCase 22⟩
/-- rfc3164/machine.go:1232 -/
def stCase22 : K × Lbl := ⟨.ifElse (.cmp .eq .byte (.lit 127)) (.goto (.tr 41) .done) .done (.ifElse (.cmp .lt .byte (.lit 33)) (.ifElse (.cmp .le .byte (.lit 31)) (.goto (.tr 41) .done) .done .done) (.ifElse (.cmp .gt .byte (.lit 57)) (.ifElse (.cmp .gt .byte (.lit 90)) (.ifElse (.and (.cmp .le (.lit 92) .byte) (.cmp .le .byte (.lit 126))) (.goto (.tr 43) .done) .done .done) (.ifElse (.cmp .ge .byte (.lit 59)) (.goto (.tr 43) .done) .done .done) .done) (.goto (.tr 43) .done) .done) (.goto (.tr 42) .done)), .tr 42⟩
/-- rfc3164/machine.go:1254 -/
def tr42 : K × Lbl := ⟨.stmt (.prim .pbP) (.goto (.st 333) .done), .st 333⟩
/-- rfc3164/machine.go:1259 -/
def st333 : K × Lbl := ⟨.stmt .incP (.ifElse .pEqPe (.goto (.testEofN 333) .done) .done .done), .stCase 333⟩
/-- rfc3164/machine.go:1263 -/
def stCase333 : K × Lbl := ⟨.ifElse (.cmp .eq .byte (.lit 127)) (.goto (.st 0) .done) .done (.ifElse (.cmp .le .byte (.lit 31)) (.goto (.st 0) .done) .done (.goto (.st 333) .done)), .tr 43⟩
/-- rfc3164/machine.go:1271 -/
def tr43 : K × Lbl := ⟨.stmt (.prim .pbP) (.goto (.st 334) .done), .st 334⟩
/-- rfc3164/machine.go:1276 -/
def st334 : K × Lbl := ⟨.stmt .incP (.ifElse .pEqPe (.goto (.testEofN 334) .done) .done .done), .stCase 334⟩
/-- rfc3164/machine.go:1280 -/
def stCase334 : K × Lbl := ⟨.ifElse (.cmp .eq .byte (.lit 58)) (.goto (.tr 347) .done) (.ifElse (.cmp .eq .byte (.lit 91)) (.goto (.tr 348) .done) (.ifElse (.cmp .eq .byte (.lit 127)) (.goto (.st 0) .done) .done .done) .done) (.ifElse (.cmp .gt .byte (.lit 31)) (.ifElse (.and (.cmp .le (.lit 33) .byte) (.cmp .le .byte (.lit 126))) (.goto (.st 335) .done) .done .done) (.goto (.st 0) .done) (.goto (.st 333) .done)), .st 335⟩
/-- rfc3164/machine.go:1298 -/
def st335 : K × Lbl := ⟨.stmt .incP (.ifElse .pEqPe (.goto (.testEofN 335) .done) .done .done), .stCase 335⟩
/-- rfc3164/machine.go:1302 -/
def stCase335 : K × Lbl := ⟨.ifElse (.cmp .eq .byte (.lit 58)) (.goto (.tr 347) .done) (.ifElse (.cmp .eq .byte (.lit 91)) (.goto (.tr 348) .done) (.ifElse (.cmp .eq .byte (.lit 127)) (.goto (.st 0) .done) .done .done) .done) (.ifElse (.cmp .gt .byte (.lit 31)) (.ifElse (.and (.cmp .le (.lit 33) .byte) (.cmp .le .byte (.lit 126))) (.goto (.st 336) .done) .done .done) (.goto (.st 0) .done) (.goto (.st 333) .done)), .st 336⟩
/-- rfc3164/machine.go:1320 -/
def st336 : K × Lbl := ⟨.stmt .incP (.ifElse .pEqPe (.goto (.testEofN 336) .done) .done .done), .stCase 336⟩
/-- rfc3164/machine.go:1324 -/
def stCase336 : K × Lbl := ⟨.ifElse (.cmp .eq .byte (.lit 58)) (.goto (.tr 347) .done) (.ifElse (.cmp .eq .byte (.lit 91)) (.goto (.tr 348) .done) (.ifElse (.cmp .eq .byte (.lit 127)) (.goto (.st 0) .done) .done .done) .done) (.ifElse (.cmp .gt .byte (.lit 31)) (.ifElse (.and (.cmp .le (.lit 33) .byte) (.cmp .le .byte (.lit 126))) (.goto (.st 337) .done) .done .done) (.goto (.st 0) .done) (.goto (.st 333) .done)), .st 337⟩
/-- rfc3164/machine.go:1342 -/
def st337 : K × Lbl := ⟨.stmt .incP (.ifElse .pEqPe (.goto (.testEofN 337) .done) .done .done), .stCase 337⟩
/-- rfc3164/machine.go:1346 -/
def stCase337 : K × Lbl := ⟨.ifElse (.cmp .eq .byte (.lit 58)) (.goto (.tr 347) .done) (.ifElse (.cmp .eq .byte (.lit 91)) (.goto (.tr 348) .done) (.ifElse (.cmp .eq .byte (.lit 127)) (.goto (.st 0) .done) .done .done) .done) (.ifElse (.cmp .gt .byte (.lit 31)) (.ifElse (.and (.cmp .le (.lit 33) .byte) (.cmp .le .byte (.lit 126))) (.goto (.st 338) .done) .done .done) (.goto (.st 0) .done) (.goto (.st 333) .done)), .st 338⟩
/-- rfc3164/machine.go:1364 -/
def st338 : K × Lbl := ⟨.stmt .incP (.ifElse .pEqPe (.goto (.testEofN 338) .done) .done .done), .stCase 338⟩
/-- rfc3164/machine.go:1368 -/
def stCase338 : K × Lbl := ⟨.ifElse (.cmp .eq .byte (.lit 58)) (.goto (.tr 347) .done) (.ifElse (.cmp .eq .byte (.lit 91)) (.goto (.tr 348) .done) (.ifElse (.cmp .eq .byte (.lit 127)) (.goto (.st 0) .done) .done .done) .done) (.ifElse (.cmp .gt .byte (.lit 31)) (.ifElse (.and (.cmp .le (.lit 33) .byte) (.cmp .le .byte (.lit 126))) (.goto (.st 339) .done) .done .done) (.goto (.st 0) .done) (.goto (.st 333) .done)), .st 339⟩
/-- rfc3164/machine.go:1386 -/
def st339 : K × Lbl := ⟨.stmt .incP (.ifElse .pEqPe (.goto (.testEofN 339) .done) .done .done), .stCase 339⟩
/-- rfc3164/machine.go:1390 -/
def stCase339 : K × Lbl := ⟨.ifElse (.cmp .eq .byte (.lit 58)) (.goto (.tr 347) .done) (.ifElse (.cmp .eq .byte (.lit 91)) (.goto (.tr 348) .done) (.ifElse (.cmp .eq .byte (.lit 127)) (.goto (.st 0) .done) .done .done) .done) (.ifElse (.cmp .gt .byte (.lit 31)) (.ifElse (.and (.cmp .le (.lit 33) .byte) (.cmp .le .byte (.lit 126))) (.goto (.st 340) .done) .done .done) (.goto (.st 0) .done) (.goto (.st 333) .done)), .st 340⟩
/-- rfc3164/machine.go:1408 -/
def st340 : K × Lbl := ⟨.stmt .incP (.ifElse .pEqPe (.goto (.testEofN 340) .done) .done .done), .stCase 340⟩
/-- rfc3164/machine.go:1412 -/
def stCase340 : K × Lbl := ⟨.ifElse (.cmp .eq .byte (.lit 58)) (.goto (.tr 347) .done) (.ifElse (.cmp .eq .byte (.lit 91)) (.goto (.tr 348) .done) (.ifElse (.cmp .eq .byte (.lit 127)) (.goto (.st 0) .done) .done .done) .done) (.ifElse (.cmp .gt .byte (.lit 31)) (.ifElse (.and (.cmp .le (.lit 33) .byte) (.cmp .le .byte (.lit 126))) (.goto (.st 341) .done) .done .done) (.goto (.st 0) .done) (.goto (.st 333) .done)), .st 341⟩
/-- rfc3164/machine.go:1430 -/
def st341 : K × Lbl := ⟨.stmt .incP (.ifElse .pEqPe (.goto (.testEofN 341) .done) .done .done), .stCase 341⟩
/-- rfc3164/machine.go:1434 -/
def stCase341 : K × Lbl := ⟨.ifElse (.cmp .eq .byte (.lit 58)) (.goto (.tr 347) .done) (.ifElse (.cmp .eq .byte (.lit 91)) (.goto (.tr 348) .done) (.ifElse (.cmp .eq .byte (.lit 127)) (.goto (.st 0) .done) .done .done) .done) (.ifElse (.cmp .gt .byte (.lit 31)) (.ifElse (.and (.cmp .le (.lit 33) .byte) (.cmp .le .byte (.lit 126))) (.goto (.st 342) .done) .done .done) (.goto (.st 0) .done) (.goto (.st 333) .done)), .st 342⟩
/-- rfc3164/machine.go:1452 -/
def st342 : K × Lbl := ⟨.stmt .incP (.ifElse .pEqPe (.goto (.testEofN 342) .done) .done .done), .stCase 342⟩
/-- rfc3164/machine.go:1456 -/
def stCase342 : K × Lbl := ⟨.ifElse (.cmp .eq .byte (.lit 58)) (.goto (.tr 347) .done) (.ifElse (.cmp .eq .byte (.lit 91)) (.goto (.tr 348) .done) (.ifElse (.cmp .eq .byte (.lit 127)) (.goto (.st 0) .done) .done .done) .done) (.ifElse (.cmp .gt .byte (.lit 31)) (.ifElse (.and (.cmp .le (.lit 33) .byte) (.cmp .le .byte (.lit 126))) (.goto (.st 343) .done) .done .done) (.goto (.st 0) .done) (.goto (.st 333) .done)), .st 343⟩
/-- rfc3164/machine.go:1474 -/
def st343 : K × Lbl := ⟨.stmt .incP (.ifElse .pEqPe (.goto (.testEofN 343) .done) .done .done), .stCase 343⟩
/-- rfc3164/machine.go:1478 -/
def stCase343 : K × Lbl := ⟨.ifElse (.cmp .eq .byte (.lit 58)) (.goto (.tr 347) .done) (.ifElse (.cmp .eq .byte (.lit 91)) (.goto (.tr 348) .done) (.ifElse (.cmp .eq .byte (.lit 127)) (.goto (.st 0) .done) .done .done) .done) (.ifElse (.cmp .gt .byte (.lit 31)) (.ifElse (.and (.cmp .le (.lit 33) .byte) (.cmp .le .byte (.lit 126))) (.goto (.st 344) .done) .done .done) (.goto (.st 0) .done) (.goto (.st 333) .done)), .st 344⟩
/-- rfc3164/machine.go:1496 -/
def st344 : K × Lbl := ⟨.stmt .incP (.ifElse .pEqPe (.goto (.testEofN 344) .done) .done .done), .stCase 344⟩
/-- rfc3164/machine.go:1500 -/
def stCase344 : K × Lbl := ⟨.ifElse (.cmp .eq .byte (.lit 58)) (.goto (.tr 347) .done) (.ifElse (.cmp .eq .byte (.lit 91)) (.goto (.tr 348) .done) (.ifElse (.cmp .eq .byte (.lit 127)) (.goto (.st 0) .done) .done .done) .done) (.ifElse (.cmp .gt .byte (.lit 31)) (.ifElse (.and (.cmp .le (.lit 33) .byte) (.cmp .le .byte (.lit 126))) (.goto (.st 345) .done) .done .done) (.goto (.st 0) .done) (.goto (.st 333) .done)), .st 345⟩
/-- rfc3164/machine.go:1518 -/
def st345 : K × Lbl := ⟨.stmt .incP (.ifElse .pEqPe (.goto (.testEofN 345) .done) .done .done), .stCase 345⟩
/-- rfc3164/machine.go:1522 -/
def stCase345 : K × Lbl := ⟨.ifElse (.cmp .eq .byte (.lit 58)) (.goto (.tr 347) .done) (.ifElse (.cmp .eq .byte (.lit 91)) (.goto (.tr 348) .done) (.ifElse (.cmp .eq .byte (.lit 127)) (.goto (.st 0) .done) .done .done) .done) (.ifElse (.cmp .gt .byte (.lit 31)) (.ifElse (.and (.cmp .le (.lit 33) .byte) (.cmp .le .byte (.lit 126))) (.goto (.st 346) .done) .done .done) (.goto (.st 0) .done) (.goto (.st 333) .done)), .st 346⟩
/-- rfc3164/machine.go:1540 -/
def st346 : K × Lbl := ⟨.stmt .incP (.ifElse .pEqPe (.goto (.testEofN 346) .done) .done .done), .stCase 346⟩
/-- rfc3164/machine.go:1544 -/
def stCase346 : K × Lbl := ⟨.ifElse (.cmp .eq .byte (.lit 58)) (.goto (.tr 347) .done) (.ifElse (.cmp .eq .byte (.lit 91)) (.goto (.tr 348) .done) (.ifElse (.cmp .eq .byte (.lit 127)) (.goto (.st 0) .done) .done .done) .done) (.ifElse (.cmp .gt .byte (.lit 31)) (.ifElse (.and (.cmp .le (.lit 33) .byte) (.cmp .le .byte (.lit 126))) (.goto (.st 347) .done) .done .done) (.goto (.st 0) .done) (.goto (.st 333) .done)), .st 347⟩
/-- rfc3164/machine.go:1562 -/
def st347 : K × Lbl := ⟨.stmt .incP (.ifElse .pEqPe (.goto (.testEofN 347) .done) .done .done), .stCase 347⟩
/-- rfc3164/machine.go:1566 -/
def stCase347 : K × Lbl := ⟨.ifElse (.cmp .eq .byte (.lit 58)) (.goto (.tr 347) .done) (.ifElse (.cmp .eq .byte (.lit 91)) (.goto (.tr 348) .done) (.ifElse (.cmp .eq .byte (.lit 127)) (.goto (.st 0) .done) .done .done) .done) (.ifElse (.cmp .gt .byte (.lit 31)) (.ifElse (.and (.cmp .le (.lit 33) .byte) (.cmp .le .byte (.lit 126))) (.goto (.st 348) .done) .done .done) (.goto (.st 0) .done) (.goto (.st 333) .done)), .st 348⟩
/-- rfc3164/machine.go:1584 -/
def st348 : K × Lbl := ⟨.stmt .incP (.ifElse .pEqPe (.goto (.testEofN 348) .done) .done .done), .stCase 348⟩
/-- rfc3164/machine.go:1588 -/
def stCase348 : K × Lbl := ⟨.ifElse (.cmp .eq .byte (.lit 58)) (.goto (.tr 347) .done) (.ifElse (.cmp .eq .byte (.lit 91)) (.goto (.tr 348) .done) (.ifElse (.cmp .eq .byte (.lit 127)) (.goto (.st 0) .done) .done .done) .done) (.ifElse (.cmp .gt .byte (.lit 31)) (.ifElse (.and (.cmp .le (.lit 33) .byte) (.cmp .le .byte (.lit 126))) (.goto (.st 349) .done) .done .done) (.goto (.st 0) .done) (.goto (.st 333) .done)), .st 349⟩
/-- rfc3164/machine.go:1606 -/
def st349 : K × Lbl := ⟨.stmt .incP (.ifElse .pEqPe (.goto (.testEofN 349) .done) .done .done), .stCase 349⟩
/-- rfc3164/machine.go:1610 -/
def stCase349 : K × Lbl := ⟨.ifElse (.cmp .eq .byte (.lit 58)) (.goto (.tr 347) .done) (.ifElse (.cmp .eq .byte (.lit 91)) (.goto (.tr 348) .done) (.ifElse (.cmp .eq .byte (.lit 127)) (.goto (.st 0) .done) .done .done) .done) (.ifElse (.cmp .gt .byte (.lit 31)) (.ifElse (.and (.cmp .le (.lit 33) .byte) (.cmp .le .byte (.lit 126))) (.goto (.st 350) .done) .done .done) (.goto (.st 0) .done) (.goto (.st 333) .done)), .st 350⟩
/-- rfc3164/machine.go:1628 -/
def st350 : K × Lbl := ⟨.stmt .incP (.ifElse .pEqPe (.goto (.testEofN 350) .done) .done .done), .stCase 350⟩
/-- rfc3164/machine.go:1632 -/
def stCase350 : K × Lbl := ⟨.ifElse (.cmp .eq .byte (.lit 58)) (.goto (.tr 347) .done) (.ifElse (.cmp .eq .byte (.lit 91)) (.goto (.tr 348) .done) (.ifElse (.cmp .eq .byte (.lit 127)) (.goto (.st 0) .done) .done .done) .done) (.ifElse (.cmp .gt .byte (.lit 31)) (.ifElse (.and (.cmp .le (.lit 33) .byte) (.cmp .le .byte (.lit 126))) (.goto (.st 351) .done) .done .done) (.goto (.st 0) .done) (.goto (.st 333) .done)), .st 351⟩
/-- rfc3164/machine.go:1650 -/
def st351 : K × Lbl := ⟨.stmt .incP (.ifElse .pEqPe (.goto (.testEofN 351) .done) .done .done), .stCase 351⟩
/-- rfc3164/machine.go:1654 -/
def stCase351 : K × Lbl := ⟨.ifElse (.cmp .eq .byte (.lit 58)) (.goto (.tr 347) .done) (.ifElse (.cmp .eq .byte (.lit 91)) (.goto (.tr 348) .done) (.ifElse (.cmp .eq .byte (.lit 127)) (.goto (.st 0) .done) .done .done) .done) (.ifElse (.cmp .gt .byte (.lit 31)) (.ifElse (.and (.cmp .le (.lit 33) .byte) (.cmp .le .byte (.lit 126))) (.goto (.st 352) .done) .done .done) (.goto (.st 0) .done) (.goto (.st 333) .done)), .st 352⟩
/-- rfc3164/machine.go:1672 -/
def st352 : K × Lbl := ⟨.stmt .incP (.ifElse .pEqPe (.goto (.testEofN 352) .done) .done .done), .stCase 352⟩
/-- rfc3164/machine.go:1676 -/
def stCase352 : K × Lbl := ⟨.ifElse (.cmp .eq .byte (.lit 58)) (.goto (.tr 347) .done) (.ifElse (.cmp .eq .byte (.lit 91)) (.goto (.tr 348) .done) (.ifElse (.cmp .eq .byte (.lit 127)) (.goto (.st 0) .done) .done .done) .done) (.ifElse (.cmp .gt .byte (.lit 31)) (.ifElse (.and (.cmp .le (.lit 33) .byte) (.cmp .le .byte (.lit 126))) (.goto (.st 353) .done) .done .done) (.goto (.st 0) .done) (.goto (.st 333) .done)), .st 353⟩
/-- rfc3164/machine.go:1694 -/
def st353 : K × Lbl := ⟨.stmt .incP (.ifElse .pEqPe (.goto (.testEofN 353) .done) .done .done), .stCase 353⟩
/-- rfc3164/machine.go:1698 -/
def stCase353 : K × Lbl := ⟨.ifElse (.cmp .eq .byte (.lit 58)) (.goto (.tr 347) .done) (.ifElse (.cmp .eq .byte (.lit 91)) (.goto (.tr 348) .done) (.ifElse (.cmp .eq .byte (.lit 127)) (.goto (.st 0) .done) .done .done) .done) (.ifElse (.cmp .gt .byte (.lit 31)) (.ifElse (.and (.cmp .le (.lit 33) .byte) (.cmp .le .byte (.lit 126))) (.goto (.st 354) .done) .done .done) (.goto (.st 0) .done) (.goto (.st 333) .done)), .st 354⟩
/-- rfc3164/machine.go:1716 -/
def st354 : K × Lbl := ⟨.stmt .incP (.ifElse .pEqPe (.goto (.testEofN 354) .done) .done .done), .stCase 354⟩
/-- rfc3164/machine.go:1720 -/
def stCase354 : K × Lbl := ⟨.ifElse (.cmp .eq .byte (.lit 58)) (.goto (.tr 347) .done) (.ifElse (.cmp .eq .byte (.lit 91)) (.goto (.tr 348) .done) (.ifElse (.cmp .eq .byte (.lit 127)) (.goto (.st 0) .done) .done .done) .done) (.ifElse (.cmp .gt .byte (.lit 31)) (.ifElse (.and (.cmp .le (.lit 33) .byte) (.cmp .le .byte (.lit 126))) (.goto (.st 355) .done) .done .done) (.goto (.st 0) .done) (.goto (.st 333) .done)), .st 355⟩
/-- rfc3164/machine.go:1738 -/
def st355 : K × Lbl := ⟨.stmt .incP (.ifElse .pEqPe (.goto (.testEofN 355) .done) .done .done), .stCase 355⟩
/-- rfc3164/machine.go:1742 -/
def stCase355 : K × Lbl := ⟨.ifElse (.cmp .eq .byte (.lit 58)) (.goto (.tr 347) .done) (.ifElse (.cmp .eq .byte (.lit 91)) (.goto (.tr 348) .done) (.ifElse (.cmp .eq .byte (.lit 127)) (.goto (.st 0) .done) .done .done) .done) (.ifElse (.cmp .gt .byte (.lit 31)) (.ifElse (.and (.cmp .le (.lit 33) .byte) (.cmp .le .byte (.lit 126))) (.goto (.st 356) .done) .done .done) (.goto (.st 0) .done) (.goto (.st 333) .done)), .st 356⟩
/-- rfc3164/machine.go:1760 -/
def st356 : K × Lbl := ⟨.stmt .incP (.ifElse .pEqPe (.goto (.testEofN 356) .done) .done .done), .stCase 356⟩
/-- rfc3164/machine.go:1764 -/
def stCase356 : K × Lbl := ⟨.ifElse (.cmp .eq .byte (.lit 58)) (.goto (.tr 347) .done) (.ifElse (.cmp .eq .byte (.lit 91)) (.goto (.tr 348) .done) (.ifElse (.cmp .eq .byte (.lit 127)) (.goto (.st 0) .done) .done .done) .done) (.ifElse (.cmp .gt .byte (.lit 31)) (.ifElse (.and (.cmp .le (.lit 33) .byte) (.cmp .le .byte (.lit 126))) (.goto (.st 357) .done) .done .done) (.goto (.st 0) .done) (.goto (.st 333) .done)), .st 357⟩
/-- rfc3164/machine.go:1782 -/
def st357 : K × Lbl := ⟨.stmt .incP (.ifElse .pEqPe (.goto (.testEofN 357) .done) .done .done), .stCase 357⟩
/-- rfc3164/machine.go:1786 -/
def stCase357 : K × Lbl := ⟨.ifElse (.cmp .eq .byte (.lit 58)) (.goto (.tr 347) .done) (.ifElse (.cmp .eq .byte (.lit 91)) (.goto (.tr 348) .done) (.ifElse (.cmp .eq .byte (.lit 127)) (.goto (.st 0) .done) .done .done) .done) (.ifElse (.cmp .gt .byte (.lit 31)) (.ifElse (.and (.cmp .le (.lit 33) .byte) (.cmp .le .byte (.lit 126))) (.goto (.st 358) .done) .done .done) (.goto (.st 0) .done) (.goto (.st 333) .done)), .st 358⟩
/-- rfc3164/machine.go:1804 -/
def st358 : K × Lbl := ⟨.stmt .incP (.ifElse .pEqPe (.goto (.testEofN 358) .done) .done .done), .stCase 358⟩
/-- rfc3164/machine.go:1808 -/
def stCase358 : K × Lbl := ⟨.ifElse (.cmp .eq .byte (.lit 58)) (.goto (.tr 347) .done) (.ifElse (.cmp .eq .byte (.lit 91)) (.goto (.tr 348) .done) (.ifElse (.cmp .eq .byte (.lit 127)) (.goto (.st 0) .done) .done .done) .done) (.ifElse (.cmp .gt .byte (.lit 31)) (.ifElse (.and (.cmp .le (.lit 33) .byte) (.cmp .le .byte (.lit 126))) (.goto (.st 359) .done) .done .done) (.goto (.st 0) .done) (.goto (.st 333) .done)), .st 359⟩
/-- rfc3164/machine.go:1826 -/
def st359 : K × Lbl := ⟨.stmt .incP (.ifElse .pEqPe (.goto (.testEofN 359) .done) .done .done), .stCase 359⟩
/-- rfc3164/machine.go:1830 -/
def stCase359 : K × Lbl := ⟨.ifElse (.cmp .eq .byte (.lit 58)) (.goto (.tr 347) .done) (.ifElse (.cmp .eq .byte (.lit 91)) (.goto (.tr 348) .done) (.ifElse (.cmp .eq .byte (.lit 127)) (.goto (.st 0) .done) .done .done) .done) (.ifElse (.cmp .gt .byte (.lit 31)) (.ifElse (.and (.cmp .le (.lit 33) .byte) (.cmp .le .byte (.lit 126))) (.goto (.st 360) .done) .done .done) (.goto (.st 0) .done) (.goto (.st 333) .done)), .st 360⟩
/-- rfc3164/machine.go:1848 -/
def st360 : K × Lbl := ⟨.stmt .incP (.ifElse .pEqPe (.goto (.testEofN 360) .done) .done .done), .stCase 360⟩
/-- rfc3164/machine.go:1852 -/
def stCase360 : K × Lbl := ⟨.ifElse (.cmp .eq .byte (.lit 58)) (.goto (.tr 347) .done) (.ifElse (.cmp .eq .byte (.lit 91)) (.goto (.tr 348) .done) (.ifElse (.cmp .eq .byte (.lit 127)) (.goto (.st 0) .done) .done .done) .done) (.ifElse (.cmp .gt .byte (.lit 31)) (.ifElse (.and (.cmp .le (.lit 33) .byte) (.cmp .le .byte (.lit 126))) (.goto (.st 361) .done) .done .done) (.goto (.st 0) .done) (.goto (.st 333) .done)), .st 361⟩
/-- rfc3164/machine.go:1870 -/
def st361 : K × Lbl := ⟨.stmt .incP (.ifElse .pEqPe (.goto (.testEofN 361) .done) .done .done), .stCase 361⟩
/-- rfc3164/machine.go:1874 -/
def stCase361 : K × Lbl := ⟨.ifElse (.cmp .eq .byte (.lit 58)) (.goto (.tr 347) .done) (.ifElse (.cmp .eq .byte (.lit 91)) (.goto (.tr 348) .done) (.ifElse (.cmp .eq .byte (.lit 127)) (.goto (.st 0) .done) .done .done) .done) (.ifElse (.cmp .gt .byte (.lit 31)) (.ifElse (.and (.cmp .le (.lit 33) .byte) (.cmp .le .byte (.lit 126))) (.goto (.st 362) .done) .done .done) (.goto (.st 0) .done) (.goto (.st 333) .done)), .st 362⟩
/-- rfc3164/machine.go:1892 -/
def st362 : K × Lbl := ⟨.stmt .incP (.ifElse .pEqPe (.goto (.testEofN 362) .done) .done .done), .stCase 362⟩
/-- rfc3164/machine.go:1896 -/
def stCase362 : K × Lbl := ⟨.ifElse (.cmp .eq .byte (.lit 58)) (.goto (.tr 347) .done) (.ifElse (.cmp .eq .byte (.lit 91)) (.goto (.tr 348) .done) (.ifElse (.cmp .eq .byte (.lit 127)) (.goto (.st 0) .done) .done .done) .done) (.ifElse (.cmp .gt .byte (.lit 31)) (.ifElse (.and (.cmp .le (.lit 33) .byte) (.cmp .le .byte (.lit 126))) (.goto (.st 363) .done) .done .done) (.goto (.st 0) .done) (.goto (.st 333) .done)), .st 363⟩
/-- rfc3164/machine.go:1914 -/
def st363 : K × Lbl := ⟨.stmt .incP (.ifElse .pEqPe (.goto (.testEofN 363) .done) .done .done), .stCase 363⟩
/-- rfc3164/machine.go:1918 -/
def stCase363 : K × Lbl := ⟨.ifElse (.cmp .eq .byte (.lit 58)) (.goto (.tr 347) .done) (.ifElse (.cmp .eq .byte (.lit 91)) (.goto (.tr 348) .done) (.ifElse (.cmp .eq .byte (.lit 127)) (.goto (.st 0) .done) .done .done) .done) (.ifElse (.cmp .gt .byte (.lit 31)) (.ifElse (.and (.cmp .le (.lit 33) .byte) (.cmp .le .byte (.lit 126))) (.goto (.st 364) .done) .done .done) (.goto (.st 0) .done) (.goto (.st 333) .done)), .st 364⟩
/-- rfc3164/machine.go:1936 -/
def st364 : K × Lbl := ⟨.stmt .incP (.ifElse .pEqPe (.goto (.testEofN 364) .done) .done .done), .stCase 364⟩
/-- rfc3164/machine.go:1940 -/
def stCase364 : K × Lbl := ⟨.ifElse (.cmp .eq .byte (.lit 58)) (.goto (.tr 347) .done) (.ifElse (.cmp .eq .byte (.lit 91)) (.goto (.tr 348) .done) (.ifElse (.cmp .eq .byte (.lit 127)) (.goto (.st 0) .done) .done .done) .done) (.ifElse (.cmp .gt .byte (.lit 31)) (.ifElse (.and (.cmp .le (.lit 33) .byte) (.cmp .le .byte (.lit 126))) (.goto (.st 365) .done) .done .done) (.goto (.st 0) .done) (.goto (.st 333) .done)), .st 365⟩
/-- rfc3164/machine.go:1958 -/
def st365 : K × Lbl := ⟨.stmt .incP (.ifElse .pEqPe (.goto (.testEofN 365) .done) .done .done), .stCase 365⟩
/-- rfc3164/machine.go:1962 -/
def stCase365 : K × Lbl := ⟨.ifElse (.cmp .eq .byte (.lit 58)) (.goto (.tr 347) .done) (.ifElse (.cmp .eq .byte (.lit 91)) (.goto (.tr 348) .done) (.ifElse (.cmp .eq .byte (.lit 127)) (.goto (.st 0) .done) .done .done) .done) (.ifElse (.cmp .le .byte (.lit 31)) (.goto (.st 0) .done) .done (.goto (.st 333) .done)), .tr 347⟩
/-- rfc3164/machine.go:1975 -/
def tr347 : K × Lbl := ⟨.stmt (.prim .tag) (.goto (.st 366) .done), .st 366⟩
/-- rfc3164/machine.go:1980 -/
def st366 : K × Lbl := ⟨.stmt .incP (.ifElse .pEqPe (.goto (.testEofN 366) .done) .done .done), .stCase 366⟩
/-- rfc3164/machine.go:1984 -/
def stCase366 : K × Lbl := ⟨.ifElse (.cmp .eq .byte (.lit 32)) (.goto (.st 367) .done) (.ifElse (.cmp .eq .byte (.lit 127)) (.goto (.st 0) .done) .done .done) (.ifElse (.cmp .le .byte (.lit 31)) (.goto (.st 0) .done) .done (.goto (.st 333) .done)), .st 367⟩
/-- rfc3164/machine.go:1995 -/
def st367 : K × Lbl := ⟨.stmt .incP (.ifElse .pEqPe (.goto (.testEofN 367) .done) .done .done), .stCase 367⟩
/-- rfc3164/machine.go:1999 -/
def stCase367 : K × Lbl := ⟨.ifElse (.cmp .eq .byte (.lit 127)) (.goto (.st 0) .done) .done (.ifElse (.cmp .le .byte (.lit 31)) (.goto (.st 0) .done) .done (.goto (.tr 42) .done)), .tr 348⟩
/-- rfc3164/machine.go:2007 -/
def tr348 : K × Lbl := ⟨.stmt (.prim .tag) (.goto (.st 368) .done), .st 368⟩
/-- rfc3164/machine.go:2012 -/
def st368 : K × Lbl := ⟨.stmt .incP (.ifElse .pEqPe (.goto (.testEofN 368) .done) .done .done), .stCase 368⟩
/-- rfc3164/machine.go:2016 -/
def stCase368 : K × Lbl := ⟨.ifElse (.cmp .eq .byte (.lit 93)) (.goto (.tr 381) .done) (.ifElse (.cmp .eq .byte (.lit 127)) (.goto (.tr 380) .done) .done .done) (.ifElse (.cmp .le .byte (.lit 31)) (.goto (.tr 380) .done) .done (.goto (.tr 48) .done)), .tr 380⟩
/-- rfc3164/machine.go:2027 -/
def tr380 : K × Lbl := ⟨.stmt (.prim .pbP) (.goto (.st 23) .done), .st 23⟩
/-- rfc3164/machine.go:2032 -/
def st23 : K × Lbl := ⟨.stmt .incP (.ifElse .pEqPe (.goto (.testEofN 23) .done) .done .done), .stCase 23⟩
/-- rfc3164/machine.go:2036 -/
def stCase23 : K × Lbl := ⟨.ifElse (.cmp .eq .byte (.lit 93)) (.goto (.tr 45) .done) .done (.goto (.st 23) .done), .tr 45⟩
/-- rfc3164/machine.go:2041 -/
def tr45 : K × Lbl := ⟨.stmt (.prim .content) (.goto (.st 24) .done), .st 24⟩
/-- rfc3164/machine.go:2046 -/
def st24 : K × Lbl := ⟨.stmt .incP (.ifElse .pEqPe (.goto (.testEofN 24) .done) .done .done), .stCase 24⟩
/-- rfc3164/machine.go:2050 -/
def stCase24 : K × Lbl := ⟨.ifElse (.cmp .eq .byte (.lit 58)) (.goto (.st 25) .done) (.ifElse (.cmp .eq .byte (.lit 93)) (.goto (.tr 45) .done) .done .done) (.goto (.st 23) .done), .st 25⟩
/-- rfc3164/machine.go:2058 -/
def st25 : K × Lbl := ⟨.stmt .incP (.ifElse .pEqPe (.goto (.testEofN 25) .done) .done .done), .stCase 25⟩
/-- rfc3164/machine.go:2062 -/
def stCase25 : K × Lbl := ⟨.ifElse (.cmp .eq .byte (.lit 32)) (.goto (.st 26) .done) (.ifElse (.cmp .eq .byte (.lit 93)) (.goto (.tr 45) .done) .done .done) (.goto (.st 23) .done), .st 26⟩
/-- rfc3164/machine.go:2070 -/
def st26 : K × Lbl := ⟨.stmt .incP (.ifElse .pEqPe (.goto (.testEofN 26) .done) .done .done), .stCase 26⟩
/-- rfc3164/machine.go:2074 -/
def stCase26 : K × Lbl := ⟨.ifElse (.cmp .eq .byte (.lit 93)) (.goto (.tr 49) .done) (.ifElse (.cmp .eq .byte (.lit 127)) (.goto (.st 23) .done) .done .done) (.ifElse (.cmp .le .byte (.lit 31)) (.goto (.st 23) .done) .done (.goto (.tr 48) .done)), .tr 48⟩
/-- rfc3164/machine.go:2085 -/
def tr48 : K × Lbl := ⟨.stmt (.prim .pbP) (.goto (.st 369) .done), .st 369⟩
/-- rfc3164/machine.go:2090 -/
def st369 : K × Lbl := ⟨.stmt .incP (.ifElse .pEqPe (.goto (.testEofN 369) .done) .done .done), .stCase 369⟩
/-- rfc3164/machine.go:2094 -/
def stCase369 : K × Lbl := ⟨.ifElse (.cmp .eq .byte (.lit 93)) (.goto (.tr 383) .done) (.ifElse (.cmp .eq .byte (.lit 127)) (.goto (.st 23) .done) .done .done) (.ifElse (.cmp .le .byte (.lit 31)) (.goto (.st 23) .done) .done (.goto (.st 369) .done)), .tr 383⟩
/-- rfc3164/machine.go:2105 -/
def tr383 : K × Lbl := ⟨.stmt (.prim .content) (.goto (.st 370) .done), .tr 49⟩
/-- rfc3164/machine.go:2110 -/
def tr49 : K × Lbl := ⟨.stmt (.prim .content) (.stmt (.prim .pbP) (.goto (.st 370) .done)), .tr 381⟩
/-- rfc3164/machine.go:2117 -/
def tr381 : K × Lbl := ⟨.stmt (.prim .pbP) (.stmt (.prim .content) (.goto (.st 370) .done)), .st 370⟩
/-- rfc3164/machine.go:2124 -/
def st370 : K × Lbl := ⟨.stmt .incP (.ifElse .pEqPe (.goto (.testEofN 370) .done) .done .done), .stCase 370⟩
/-- rfc3164/machine.go:2128 -/
def stCase370 : K × Lbl := ⟨.ifElse (.cmp .eq .byte (.lit 58)) (.goto (.st 371) .done) (.ifElse (.cmp .eq .byte (.lit 93)) (.goto (.tr 383) .done) (.ifElse (.cmp .eq .byte (.lit 127)) (.goto (.st 23) .done) .done .done) .done) (.ifElse (.cmp .le .byte (.lit 31)) (.goto (.st 23) .done) .done (.goto (.st 369) .done)), .st 371⟩
/-- rfc3164/machine.go:2141 -/
def st371 : K × Lbl := ⟨.stmt .incP (.ifElse .pEqPe (.goto (.testEofN 371) .done) .done .done), .stCase 371⟩
/-- rfc3164/machine.go:2145 -/
def stCase371 : K × Lbl := ⟨.ifElse (.cmp .eq .byte (.lit 32)) (.goto (.st 372) .done) (.ifElse (.cmp .eq .byte (.lit 93)) (.goto (.tr 383) .done) (.ifElse (.cmp .eq .byte (.lit 127)) (.goto (.st 23) .done) .done .done) .done) (.ifElse (.cmp .le .byte (.lit 31)) (.goto (.st 23) .done) .done (.goto (.st 369) .done)), .st 372⟩
/-- rfc3164/machine.go:2158 -/
def st372 : K × Lbl := ⟨.stmt .incP (.ifElse .pEqPe (.goto (.testEofN 372) .done) .done .done), .stCase 372⟩
/-- rfc3164/machine.go:2162 -/
def stCase372 : K × Lbl := ⟨.ifElse (.cmp .eq .byte (.lit 93)) (.goto (.tr 49) .done) (.ifElse (.cmp .eq .byte (.lit 127)) (.goto (.st 23) .done) .done .done) (.ifElse (.cmp .le .byte (.lit 31)) (.goto (.st 23) .done) .done (.goto (.tr 48) .done)), .st 27⟩
/-- rfc3164/machine.go:2173 -/
def st27 : K × Lbl := ⟨.stmt .incP (.ifElse .pEqPe (.goto (.testEofN 27) .done) .done .done), .stCase 27⟩
/-- rfc3164/machine.go:2177 -/
def stCase27 : K × Lbl := ⟨.ifElse (.cmp .eq .byte (.lit 32)) (.goto (.tr 39) .done) .done (.ifElse (.and (.cmp .le (.lit 33) .byte) (.cmp .le .byte (.lit 126))) (.goto (.st 28) .done) .done (.goto (.tr 37) .done)), .st 28⟩
/-- rfc3164/machine.go:2185 -/
def st28 : K × Lbl := ⟨.stmt .incP (.ifElse .pEqPe (.goto (.testEofN 28) .done) .done .done), .stCase 28⟩
/-- rfc3164/machine.go:2189 -/
def stCase28 : K × Lbl := ⟨.ifElse (.cmp .eq .byte (.lit 32)) (.goto (.tr 39) .done) .done (.ifElse (.and (.cmp .le (.lit 33) .byte) (.cmp .le .byte (.lit 126))) (.goto (.st 29) .done) .done (.goto (.tr 37) .done)), .st 29⟩
/-- rfc3164/machine.go:2197 -/
def st29 : K × Lbl := ⟨.stmt .incP (.ifElse .pEqPe (.goto (.testEofN 29) .done) .done .done), .stCase 29⟩
/-- rfc3164/machine.go:2201 -/
def stCase29 : K × Lbl := ⟨.ifElse (.cmp .eq .byte (.lit 32)) (.goto (.tr 39) .done) .done (.ifElse (.and (.cmp .le (.lit 33) .byte) (.cmp .le .byte (.lit 126))) (.goto (.st 30) .done) .done (.goto (.tr 37) .done)), .st 30⟩
/-- rfc3164/machine.go:2209 -/
def st30 : K × Lbl := ⟨.stmt .incP (.ifElse .pEqPe (.goto (.testEofN 30) .done) .done .done), .stCase 30⟩
/-- rfc3164/machine.go:2213 -/
def stCase30 : K × Lbl := ⟨.ifElse (.cmp .eq .byte (.lit 32)) (.goto (.tr 39) .done) .done (.ifElse (.and (.cmp .le (.lit 33) .byte) (.cmp .le .byte (.lit 126))) (.goto (.st 31) .done) .done (.goto (.tr 37) .done)), .st 31⟩
/-- rfc3164/machine.go:2221 -/
def st31 : K × Lbl := ⟨.stmt .incP (.ifElse .pEqPe (.goto (.testEofN 31) .done) .done .done), .stCase 31⟩
/-- rfc3164/machine.go:2225 -/
def stCase31 : K × Lbl := ⟨.ifElse (.cmp .eq .byte (.lit 32)) (.goto (.tr 39) .done) .done (.ifElse (.and (.cmp .le (.lit 33) .byte) (.cmp .le .byte (.lit 126))) (.goto (.st 32) .done) .done (.goto (.tr 37) .done)), .st 32⟩
/-- rfc3164/machine.go:2233 -/
def st32 : K × Lbl := ⟨.stmt .incP (.ifElse .pEqPe (.goto (.testEofN 32) .done) .done .done), .stCase 32⟩
/-- rfc3164/machine.go:2237 -/
def stCase32 : K × Lbl := ⟨.ifElse (.cmp .eq .byte (.lit 32)) (.goto (.tr 39) .done) .done (.ifElse (.and (.cmp .le (.lit 33) .byte) (.cmp .le .byte (.lit 126))) (.goto (.st 33) .done) .done (.goto (.tr 37) .done)), .st 33⟩
/-- rfc3164/machine.go:2245 -/
def st33 : K × Lbl := ⟨.stmt .incP (.ifElse .pEqPe (.goto (.testEofN 33) .done) .done .done), .stCase 33⟩
/-- rfc3164/machine.go:2249 -/
def stCase33 : K × Lbl := ⟨.ifElse (.cmp .eq .byte (.lit 32)) (.goto (.tr 39) .done) .done (.ifElse (.and (.cmp .le (.lit 33) .byte) (.cmp .le .byte (.lit 126))) (.goto (.st 34) .done) .done (.goto (.tr 37) .done)), .st 34⟩
/-- rfc3164/machine.go:2257 -/
def st34 : K × Lbl := ⟨.stmt .incP (.ifElse .pEqPe (.goto (.testEofN 34) .done) .done .done), .stCase 34⟩
/-- rfc3164/machine.go:2261 -/
def stCase34 : K × Lbl := ⟨.ifElse (.cmp .eq .byte (.lit 32)) (.goto (.tr 39) .done) .done (.ifElse (.and (.cmp .le (.lit 33) .byte) (.cmp .le .byte (.lit 126))) (.goto (.st 35) .done) .done (.goto (.tr 37) .done)), .st 35⟩
/-- rfc3164/machine.go:2269 -/
def st35 : K × Lbl := ⟨.stmt .incP (.ifElse .pEqPe (.goto (.testEofN 35) .done) .done .done), .stCase 35⟩
/-- rfc3164/machine.go:2273 -/
def stCase35 : K × Lbl := ⟨.ifElse (.cmp .eq .byte (.lit 32)) (.goto (.tr 39) .done) .done (.ifElse (.and (.cmp .le (.lit 33) .byte) (.cmp .le .byte (.lit 126))) (.goto (.st 36) .done) .done (.goto (.tr 37) .done)), .st 36⟩
/-- rfc3164/machine.go:2281 -/
def st36 : K × Lbl := ⟨.stmt .incP (.ifElse .pEqPe (.goto (.testEofN 36) .done) .done .done), .stCase 36⟩
/-- rfc3164/machine.go:2285 -/
def stCase36 : K × Lbl := ⟨.ifElse (.cmp .eq .byte (.lit 32)) (.goto (.tr 39) .done) .done (.ifElse (.and (.cmp .le (.lit 33) .byte) (.cmp .le .byte (.lit 126))) (.goto (.st 37) .done) .done (.goto (.tr 37) .done)), .st 37⟩
/-- rfc3164/machine.go:2293 -/
def st37 : K × Lbl := ⟨.stmt .incP (.ifElse .pEqPe (.goto (.testEofN 37) .done) .done .done), .stCase 37⟩
/-- rfc3164/machine.go:2297 -/
def stCase37 : K × Lbl := ⟨.ifElse (.cmp .eq .byte (.lit 32)) (.goto (.tr 39) .done) .done (.ifElse (.and (.cmp .le (.lit 33) .byte) (.cmp .le .byte (.lit 126))) (.goto (.st 38) .done) .done (.goto (.tr 37) .done)), .st 38⟩
/-- rfc3164/machine.go:2305 -/
def st38 : K × Lbl := ⟨.stmt .incP (.ifElse .pEqPe (.goto (.testEofN 38) .done) .done .done), .stCase 38⟩
/-- rfc3164/machine.go:2309 -/
def stCase38 : K × Lbl := ⟨.ifElse (.cmp .eq .byte (.lit 32)) (.goto (.tr 39) .done) .done (.ifElse (.and (.cmp .le (.lit 33) .byte) (.cmp .le .byte (.lit 126))) (.goto (.st 39) .done) .done (.goto (.tr 37) .done)), .st 39⟩
/-- rfc3164/machine.go:2317 -/
def st39 : K × Lbl := ⟨.stmt .incP (.ifElse .pEqPe (.goto (.testEofN 39) .done) .done .done), .stCase 39⟩
/-- rfc3164/machine.go:2321 -/
def stCase39 : K × Lbl := ⟨.ifElse (.cmp .eq .byte (.lit 32)) (.goto (.tr 39) .done) .done (.ifElse (.and (.cmp .le (.lit 33) .byte) (.cmp .le .byte (.lit 126))) (.goto (.st 40) .done) .done (.goto (.tr 37) .done)), .st 40⟩
/-- rfc3164/machine.go:2329 -/
def st40 : K × Lbl := ⟨.stmt .incP (.ifElse .pEqPe (.goto (.testEofN 40) .done) .done .done), .stCase 40⟩
/-- rfc3164/machine.go:2333 -/
def stCase40 : K × Lbl := ⟨.ifElse (.cmp .eq .byte (.lit 32)) (.goto (.tr 39) .done) .done (.ifElse (.and (.cmp .le (.lit 33) .byte) (.cmp .le .byte (.lit 126))) (.goto (.st 41) .done) .done (.goto (.tr 37) .done)), .st 41⟩
/-- rfc3164/machine.go:2341 -/
def st41 : K × Lbl := ⟨.stmt .incP (.ifElse .pEqPe (.goto (.testEofN 41) .done) .done .done), .stCase 41⟩
/-- rfc3164/machine.go:2345 -/
def stCase41 : K × Lbl := ⟨.ifElse (.cmp .eq .byte (.lit 32)) (.goto (.tr 39) .done) .done (.ifElse (.and (.cmp .le (.lit 33) .byte) (.cmp .le .byte (.lit 126))) (.goto (.st 42) .done) .done (.goto (.tr 37) .done)), .st 42⟩
/-- rfc3164/machine.go:2353 -/
def st42 : K × Lbl := ⟨.stmt .incP (.ifElse .pEqPe (.goto (.testEofN 42) .done) .done .done), .stCase 42⟩
/-- rfc3164/machine.go:2357 -/
def stCase42 : K × Lbl := ⟨.ifElse (.cmp .eq .byte (.lit 32)) (.goto (.tr 39) .done) .done (.ifElse (.and (.cmp .le (.lit 33) .byte) (.cmp .le .byte (.lit 126))) (.goto (.st 43) .done) .done (.goto (.tr 37) .done)), .st 43⟩
/-- rfc3164/machine.go:2365 -/
def st43 : K × Lbl := ⟨.stmt .incP (.ifElse .pEqPe (.goto (.testEofN 43) .done) .done .done), .stCase 43⟩
/-- rfc3164/machine.go:2369 -/
def stCase43 : K × Lbl := ⟨.ifElse (.cmp .eq .byte (.lit 32)) (.goto (.tr 39) .done) .done (.ifElse (.and (.cmp .le (.lit 33) .byte) (.cmp .le .byte (.lit 126))) (.goto (.st 44) .done) .done (.goto (.tr 37) .done)), .st 44⟩
/-- rfc3164/machine.go:2377 -/
def st44 : K × Lbl := ⟨.stmt .incP (.ifElse .pEqPe (.goto (.testEofN 44) .done) .done .done), .stCase 44⟩
/-- rfc3164/machine.go:2381 -/
def stCase44 : K × Lbl := ⟨.ifElse (.cmp .eq .byte (.lit 32)) (.goto (.tr 39) .done) .done (.ifElse (.and (.cmp .le (.lit 33) .byte) (.cmp .le .byte (.lit 126))) (.goto (.st 45) .done) .done (.goto (.tr 37) .done)), .st 45⟩
/-- rfc3164/machine.go:2389 -/
def st45 : K × Lbl := ⟨.stmt .incP (.ifElse .pEqPe (.goto (.testEofN 45) .done) .done .done), .stCase 45⟩
/-- rfc3164/machine.go:2393 -/
def stCase45 : K × Lbl := ⟨.ifElse (.cmp .eq .byte (.lit 32)) (.goto (.tr 39) .done) .done (.ifElse (.and (.cmp .le (.lit 33) .byte) (.cmp .le .byte (.lit 126))) (.goto (.st 46) .done) .done (.goto (.tr 37) .done)), .st 46⟩
/-- rfc3164/machine.go:2401 -/
def st46 : K × Lbl := ⟨.stmt .incP (.ifElse .pEqPe (.goto (.testEofN 46) .done) .done .done), .stCase 46⟩
/-- rfc3164/machine.go:2405 -/
def stCase46 : K × Lbl := ⟨.ifElse (.cmp .eq .byte (.lit 32)) (.goto (.tr 39) .done) .done (.ifElse (.and (.cmp .le (.lit 33) .byte) (.cmp .le .byte (.lit 126))) (.goto (.st 47) .done) .done (.goto (.tr 37) .done)), .st 47⟩
/-- rfc3164/machine.go:2413 -/
def st47 : K × Lbl := ⟨.stmt .incP (.ifElse .pEqPe (.goto (.testEofN 47) .done) .done .done), .stCase 47⟩
/-- rfc3164/machine.go:2417 -/
def stCase47 : K × Lbl := ⟨.ifElse (.cmp .eq .byte (.lit 32)) (.goto (.tr 39) .done) .done (.ifElse (.and (.cmp .le (.lit 33) .byte) (.cmp .le .byte (.lit 126))) (.goto (.st 48) .done) .done (.goto (.tr 37) .done)), .st 48⟩
/-- rfc3164/machine.go:2425 -/
def st48 : K × Lbl := ⟨.stmt .incP (.ifElse .pEqPe (.goto (.testEofN 48) .done) .done .done), .stCase 48⟩
/-- rfc3164/machine.go:2429 -/
def stCase48 : K × Lbl := ⟨.ifElse (.cmp .eq .byte (.lit 32)) (.goto (.tr 39) .done) .done (.ifElse (.and (.cmp .le (.lit 33) .byte) (.cmp .le .byte (.lit 126))) (.goto (.st 49) .done) .done (.goto (.tr 37) .done)), .st 49⟩
/-- rfc3164/machine.go:2437 -/
def st49 : K × Lbl := ⟨.stmt .incP (.ifElse .pEqPe (.goto (.testEofN 49) .done) .done .done), .stCase 49⟩
/-- rfc3164/machine.go:2441 -/
def stCase49 : K × Lbl := ⟨.ifElse (.cmp .eq .byte (.lit 32)) (.goto (.tr 39) .done) .done (.ifElse (.and (.cmp .le (.lit 33) .byte) (.cmp .le .byte (.lit 126))) (.goto (.st 50) .done) .done (.goto (.tr 37) .done)), .st 50⟩
/-- rfc3164/machine.go:2449 -/
def st50 : K × Lbl := ⟨.stmt .incP (.ifElse .pEqPe (.goto (.testEofN 50) .done) .done .done), .stCase 50⟩
/-- rfc3164/machine.go:2453 -/
def stCase50 : K × Lbl := ⟨.ifElse (.cmp .eq .byte (.lit 32)) (.goto (.tr 39) .done) .done (.ifElse (.and (.cmp .le (.lit 33) .byte) (.cmp .le .byte (.lit 126))) (.goto (.st 51) .done) .done (.goto (.tr 37) .done)), .st 51⟩
/-- rfc3164/machine.go:2461 -/
def st51 : K × Lbl := ⟨.stmt .incP (.ifElse .pEqPe (.goto (.testEofN 51) .done) .done .done), .stCase 51⟩
/-- rfc3164/machine.go:2465 -/
def stCase51 : K × Lbl := ⟨.ifElse (.cmp .eq .byte (.lit 32)) (.goto (.tr 39) .done) .done (.ifElse (.and (.cmp .le (.lit 33) .byte) (.cmp .le .byte (.lit 126))) (.goto (.st 52) .done) .done (.goto (.tr 37) .done)), .st 52⟩
/-- rfc3164/machine.go:2473 -/
def st52 : K × Lbl := ⟨.stmt .incP (.ifElse .pEqPe (.goto (.testEofN 52) .done) .done .done), .stCase 52⟩
/-- rfc3164/machine.go:2477 -/
def stCase52 : K × Lbl := ⟨.ifElse (.cmp .eq .byte (.lit 32)) (.goto (.tr 39) .done) .done (.ifElse (.and (.cmp .le (.lit 33) .byte) (.cmp .le .byte (.lit 126))) (.goto (.st 53) .done) .done (.goto (.tr 37) .done)), .st 53⟩
/-- rfc3164/machine.go:2485 -/
def st53 : K × Lbl := ⟨.stmt .incP (.ifElse .pEqPe (.goto (.testEofN 53) .done) .done .done), .stCase 53⟩
/-- rfc3164/machine.go:2489 -/
def stCase53 : K × Lbl := ⟨.ifElse (.cmp .eq .byte (.lit 32)) (.goto (.tr 39) .done) .done (.ifElse (.and (.cmp .le (.lit 33) .byte) (.cmp .le .byte (.lit 126))) (.goto (.st 54) .done) .done (.goto (.tr 37) .done)), .st 54⟩
/-- rfc3164/machine.go:2497 -/
def st54 : K × Lbl := ⟨.stmt .incP (.ifElse .pEqPe (.goto (.testEofN 54) .done) .done .done), .stCase 54⟩
/-- rfc3164/machine.go:2501 -/
def stCase54 : K × Lbl := ⟨.ifElse (.cmp .eq .byte (.lit 32)) (.goto (.tr 39) .done) .done (.ifElse (.and (.cmp .le (.lit 33) .byte) (.cmp .le .byte (.lit 126))) (.goto (.st 55) .done) .done (.goto (.tr 37) .done)), .st 55⟩
/-- rfc3164/machine.go:2509 -/
def st55 : K × Lbl := ⟨.stmt .incP (.ifElse .pEqPe (.goto (.testEofN 55) .done) .done .done), .stCase 55⟩
/-- rfc3164/machine.go:2513 -/
def stCase55 : K × Lbl := ⟨.ifElse (.cmp .eq .byte (.lit 32)) (.goto (.tr 39) .done) .done (.ifElse (.and (.cmp .le (.lit 33) .byte) (.cmp .le .byte (.lit 126))) (.goto (.st 56) .done) .done (.goto (.tr 37) .done)), .st 56⟩
/-- rfc3164/machine.go:2521 -/
def st56 : K × Lbl := ⟨.stmt .incP (.ifElse .pEqPe (.goto (.testEofN 56) .done) .done .done), .stCase 56⟩
/-- rfc3164/machine.go:2525 -/
def stCase56 : K × Lbl := ⟨.ifElse (.cmp .eq .byte (.lit 32)) (.goto (.tr 39) .done) .done (.ifElse (.and (.cmp .le (.lit 33) .byte) (.cmp .le .byte (.lit 126))) (.goto (.st 57) .done) .done (.goto (.tr 37) .done)), .st 57⟩
/-- rfc3164/machine.go:2533 -/
def st57 : K × Lbl := ⟨.stmt .incP (.ifElse .pEqPe (.goto (.testEofN 57) .done) .done .done), .stCase 57⟩
/-- rfc3164/machine.go:2537 -/
def stCase57 : K × Lbl := ⟨.ifElse (.cmp .eq .byte (.lit 32)) (.goto (.tr 39) .done) .done (.ifElse (.and (.cmp .le (.lit 33) .byte) (.cmp .le .byte (.lit 126))) (.goto (.st 58) .done) .done (.goto (.tr 37) .done)), .st 58⟩
/-- rfc3164/machine.go:2545 -/
def st58 : K × Lbl := ⟨.stmt .incP (.ifElse .pEqPe (.goto (.testEofN 58) .done) .done .done), .stCase 58⟩
/-- rfc3164/machine.go:2549 -/
def stCase58 : K × Lbl := ⟨.ifElse (.cmp .eq .byte (.lit 32)) (.goto (.tr 39) .done) .done (.ifElse (.and (.cmp .le (.lit 33) .byte) (.cmp .le .byte (.lit 126))) (.goto (.st 59) .done) .done (.goto (.tr 37) .done)), .st 59⟩
/-- rfc3164/machine.go:2557 -/
def st59 : K × Lbl := ⟨.stmt .incP (.ifElse .pEqPe (.goto (.testEofN 59) .done) .done .done), .stCase 59⟩
/-- rfc3164/machine.go:2561 -/
def stCase59 : K × Lbl := ⟨.ifElse (.cmp .eq .byte (.lit 32)) (.goto (.tr 39) .done) .done (.ifElse (.and (.cmp .le (.lit 33) .byte) (.cmp .le .byte (.lit 126))) (.goto (.st 60) .done) .done (.goto (.tr 37) .done)), .st 60⟩
/-- rfc3164/machine.go:2569 -/
def st60 : K × Lbl := ⟨.stmt .incP (.ifElse .pEqPe (.goto (.testEofN 60) .done) .done .done), .stCase 60⟩
/-- rfc3164/machine.go:2573 -/
def stCase60 : K × Lbl := ⟨.ifElse (.cmp .eq .byte (.lit 32)) (.goto (.tr 39) .done) .done (.ifElse (.and (.cmp .le (.lit 33) .byte) (.cmp .le .byte (.lit 126))) (.goto (.st 61) .done) .done (.goto (.tr 37) .done)), .st 61⟩
/-- rfc3164/machine.go:2581 -/
def st61 : K × Lbl := ⟨.stmt .incP (.ifElse .pEqPe (.goto (.testEofN 61) .done) .done .done), .stCase 61⟩
/-- rfc3164/machine.go:2585 -/
def stCase61 : K × Lbl := ⟨.ifElse (.cmp .eq .byte (.lit 32)) (.goto (.tr 39) .done) .done (.ifElse (.and (.cmp .le (.lit 33) .byte) (.cmp .le .byte (.lit 126))) (.goto (.st 62) .done) .done (.goto (.tr 37) .done)), .st 62⟩
/-- rfc3164/machine.go:2593 -/
def st62 : K × Lbl := ⟨.stmt .incP (.ifElse .pEqPe (.goto (.testEofN 62) .done) .done .done), .stCase 62⟩
/-- rfc3164/machine.go:2597 -/
def stCase62 : K × Lbl := ⟨.ifElse (.cmp .eq .byte (.lit 32)) (.goto (.tr 39) .done) .done (.ifElse (.and (.cmp .le (.lit 33) .byte) (.cmp .le .byte (.lit 126))) (.goto (.st 63) .done) .done (.goto (.tr 37) .done)), .st 63⟩
/-- rfc3164/machine.go:2605 -/
def st63 : K × Lbl := ⟨.stmt .incP (.ifElse .pEqPe (.goto (.testEofN 63) .done) .done .done), .stCase 63⟩
/-- rfc3164/machine.go:2609 -/
def stCase63 : K × Lbl := ⟨.ifElse (.cmp .eq .byte (.lit 32)) (.goto (.tr 39) .done) .done (.ifElse (.and (.cmp .le (.lit 33) .byte) (.cmp .le .byte (.lit 126))) (.goto (.st 64) .done) .done (.goto (.tr 37) .done)), .st 64⟩
/-- rfc3164/machine.go:2617 -/
def st64 : K × Lbl := ⟨.stmt .incP (.ifElse .pEqPe (.goto (.testEofN 64) .done) .done .done), .stCase 64⟩
/-- rfc3164/machine.go:2621 -/
def stCase64 : K × Lbl := ⟨.ifElse (.cmp .eq .byte (.lit 32)) (.goto (.tr 39) .done) .done (.ifElse (.and (.cmp .le (.lit 33) .byte) (.cmp .le .byte (.lit 126))) (.goto (.st 65) .done) .done (.goto (.tr 37) .done)), .st 65⟩
/-- rfc3164/machine.go:2629 -/
def st65 : K × Lbl := ⟨.stmt .incP (.ifElse .pEqPe (.goto (.testEofN 65) .done) .done .done), .stCase 65⟩
/-- rfc3164/machine.go:2633 -/
def stCase65 : K × Lbl := ⟨.ifElse (.cmp .eq .byte (.lit 32)) (.goto (.tr 39) .done) .done (.ifElse (.and (.cmp .le (.lit 33) .byte) (.cmp .le .byte (.lit 126))) (.goto (.st 66) .done) .done (.goto (.tr 37) .done)), .st 66⟩
/-- rfc3164/machine.go:2641 -/
def st66 : K × Lbl := ⟨.stmt .incP (.ifElse .pEqPe (.goto (.testEofN 66) .done) .done .done), .stCase 66⟩
/-- rfc3164/machine.go:2645 -/
def stCase66 : K × Lbl := ⟨.ifElse (.cmp .eq .byte (.lit 32)) (.goto (.tr 39) .done) .done (.ifElse (.and (.cmp .le (.lit 33) .byte) (.cmp .le .byte (.lit 126))) (.goto (.st 67) .done) .done (.goto (.tr 37) .done)), .st 67⟩
/-- rfc3164/machine.go:2653 -/
def st67 : K × Lbl := ⟨.stmt .incP (.ifElse .pEqPe (.goto (.testEofN 67) .done) .done .done), .stCase 67⟩
/-- rfc3164/machine.go:2657 -/
def stCase67 : K × Lbl := ⟨.ifElse (.cmp .eq .byte (.lit 32)) (.goto (.tr 39) .done) .done (.ifElse (.and (.cmp .le (.lit 33) .byte) (.cmp .le .byte (.lit 126))) (.goto (.st 68) .done) .done (.goto (.tr 37) .done)), .st 68⟩
/-- rfc3164/machine.go:2665 -/
def st68 : K × Lbl := ⟨.stmt .incP (.ifElse .pEqPe (.goto (.testEofN 68) .done) .done .done), .stCase 68⟩
/-- rfc3164/machine.go:2669 -/
def stCase68 : K × Lbl := ⟨.ifElse (.cmp .eq .byte (.lit 32)) (.goto (.tr 39) .done) .done (.ifElse (.and (.cmp .le (.lit 33) .byte) (.cmp .le .byte (.lit 126))) (.goto (.st 69) .done) .done (.goto (.tr 37) .done)), .st 69⟩
/-- rfc3164/machine.go:2677 -/
def st69 : K × Lbl := ⟨.stmt .incP (.ifElse .pEqPe (.goto (.testEofN 69) .done) .done .done), .stCase 69⟩
/-- rfc3164/machine.go:2681 -/
def stCase69 : K × Lbl := ⟨.ifElse (.cmp .eq .byte (.lit 32)) (.goto (.tr 39) .done) .done (.ifElse (.and (.cmp .le (.lit 33) .byte) (.cmp .le .byte (.lit 126))) (.goto (.st 70) .done) .done (.goto (.tr 37) .done)), .st 70⟩
/-- rfc3164/machine.go:2689 -/
def st70 : K × Lbl := ⟨.stmt .incP (.ifElse .pEqPe (.goto (.testEofN 70) .done) .done .done), .stCase 70⟩
/-- rfc3164/machine.go:2693 -/
def stCase70 : K × Lbl := ⟨.ifElse (.cmp .eq .byte (.lit 32)) (.goto (.tr 39) .done) .done (.ifElse (.and (.cmp .le (.lit 33) .byte) (.cmp .le .byte (.lit 126))) (.goto (.st 71) .done) .done (.goto (.tr 37) .done)), .st 71⟩
/-- rfc3164/machine.go:2701 -/
def st71 : K × Lbl := ⟨.stmt .incP (.ifElse .pEqPe (.goto (.testEofN 71) .done) .done .done), .stCase 71⟩
/-- rfc3164/machine.go:2705 -/
def stCase71 : K × Lbl := ⟨.ifElse (.cmp .eq .byte (.lit 32)) (.goto (.tr 39) .done) .done (.ifElse (.and (.cmp .le (.lit 33) .byte) (.cmp .le .byte (.lit 126))) (.goto (.st 72) .done) .done (.goto (.tr 37) .done)), .st 72⟩
/-- rfc3164/machine.go:2713 -/
def st72 : K × Lbl := ⟨.stmt .incP (.ifElse .pEqPe (.goto (.testEofN 72) .done) .done .done), .stCase 72⟩
/-- rfc3164/machine.go:2717 -/
def stCase72 : K × Lbl := ⟨.ifElse (.cmp .eq .byte (.lit 32)) (.goto (.tr 39) .done) .done (.ifElse (.and (.cmp .le (.lit 33) .byte) (.cmp .le .byte (.lit 126))) (.goto (.st 73) .done) .done (.goto (.tr 37) .done)), .st 73⟩
/-- rfc3164/machine.go:2725 -/
def st73 : K × Lbl := ⟨.stmt .incP (.ifElse .pEqPe (.goto (.testEofN 73) .done) .done .done), .stCase 73⟩
/-- rfc3164/machine.go:2729 -/
def stCase73 : K × Lbl := ⟨.ifElse (.cmp .eq .byte (.lit 32)) (.goto (.tr 39) .done) .done (.ifElse (.and (.cmp .le (.lit 33) .byte) (.cmp .le .byte (.lit 126))) (.goto (.st 74) .done) .done (.goto (.tr 37) .done)), .st 74⟩
/-- rfc3164/machine.go:2737 -/
def st74 : K × Lbl := ⟨.stmt .incP (.ifElse .pEqPe (.goto (.testEofN 74) .done) .done .done), .stCase 74⟩
/-- rfc3164/machine.go:2741 -/
def stCase74 : K × Lbl := ⟨.ifElse (.cmp .eq .byte (.lit 32)) (.goto (.tr 39) .done) .done (.ifElse (.and (.cmp .le (.lit 33) .byte) (.cmp .le .byte (.lit 126))) (.goto (.st 75) .done) .done (.goto (.tr 37) .done)), .st 75⟩
/-- rfc3164/machine.go:2749 -/
def st75 : K × Lbl := ⟨.stmt .incP (.ifElse .pEqPe (.goto (.testEofN 75) .done) .done .done), .stCase 75⟩
/-- rfc3164/machine.go:2753 -/
def stCase75 : K × Lbl := ⟨.ifElse (.cmp .eq .byte (.lit 32)) (.goto (.tr 39) .done) .done (.ifElse (.and (.cmp .le (.lit 33) .byte) (.cmp .le .byte (.lit 126))) (.goto (.st 76) .done) .done (.goto (.tr 37) .done)), .st 76⟩
/-- rfc3164/machine.go:2761 -/
def st76 : K × Lbl := ⟨.stmt .incP (.ifElse .pEqPe (.goto (.testEofN 76) .done) .done .done), .stCase 76⟩
/-- rfc3164/machine.go:2765 -/
def stCase76 : K × Lbl := ⟨.ifElse (.cmp .eq .byte (.lit 32)) (.goto (.tr 39) .done) .done (.ifElse (.and (.cmp .le (.lit 33) .byte) (.cmp .le .byte (.lit 126))) (.goto (.st 77) .done) .done (.goto (.tr 37) .done)), .st 77⟩
/-- rfc3164/machine.go:2773 -/
def st77 : K × Lbl := ⟨.stmt .incP (.ifElse .pEqPe (.goto (.testEofN 77) .done) .done .done), .stCase 77⟩
/-- rfc3164/machine.go:2777 -/
def stCase77 : K × Lbl := ⟨.ifElse (.cmp .eq .byte (.lit 32)) (.goto (.tr 39) .done) .done (.ifElse (.and (.cmp .le (.lit 33) .byte) (.cmp .le .byte (.lit 126))) (.goto (.st 78) .done) .done (.goto (.tr 37) .done)), .st 78⟩
/-- rfc3164/machine.go:2785 -/
def st78 : K × Lbl := ⟨.stmt .incP (.ifElse .pEqPe (.goto (.testEofN 78) .done) .done .done), .stCase 78⟩
/-- rfc3164/machine.go:2789 -/
def stCase78 : K × Lbl := ⟨.ifElse (.cmp .eq .byte (.lit 32)) (.goto (.tr 39) .done) .done (.ifElse (.and (.cmp .le (.lit 33) .byte) (.cmp .le .byte (.lit 126))) (.goto (.st 79) .done) .done (.goto (.tr 37) .done)), .st 79⟩
/-- rfc3164/machine.go:2797 -/
def st79 : K × Lbl := ⟨.stmt .incP (.ifElse .pEqPe (.goto (.testEofN 79) .done) .done .done), .stCase 79⟩
/-- rfc3164/machine.go:2801 -/
def stCase79 : K × Lbl := ⟨.ifElse (.cmp .eq .byte (.lit 32)) (.goto (.tr 39) .done) .done (.ifElse (.and (.cmp .le (.lit 33) .byte) (.cmp .le .byte (.lit 126))) (.goto (.st 80) .done) .done (.goto (.tr 37) .done)), .st 80⟩
/-- rfc3164/machine.go:2809 -/
def st80 : K × Lbl := ⟨.stmt .incP (.ifElse .pEqPe (.goto (.testEofN 80) .done) .done .done), .stCase 80⟩
/-- rfc3164/machine.go:2813 -/
def stCase80 : K × Lbl := ⟨.ifElse (.cmp .eq .byte (.lit 32)) (.goto (.tr 39) .done) .done (.ifElse (.and (.cmp .le (.lit 33) .byte) (.cmp .le .byte (.lit 126))) (.goto (.st 81) .done) .done (.goto (.tr 37) .done)), .st 81⟩
/-- rfc3164/machine.go:2821 -/
def st81 : K × Lbl := ⟨.stmt .incP (.ifElse .pEqPe (.goto (.testEofN 81) .done) .done .done), .stCase 81⟩
/-- rfc3164/machine.go:2825 -/
def stCase81 : K × Lbl := ⟨.ifElse (.cmp .eq .byte (.lit 32)) (.goto (.tr 39) .done) .done (.ifElse (.and (.cmp .le (.lit 33) .byte) (.cmp .le .byte (.lit 126))) (.goto (.st 82) .done) .done (.goto (.tr 37) .done)), .st 82⟩
/-- rfc3164/machine.go:2833 -/
def st82 : K × Lbl := ⟨.stmt .incP (.ifElse .pEqPe (.goto (.testEofN 82) .done) .done .done), .stCase 82⟩
/-- rfc3164/machine.go:2837 -/
def stCase82 : K × Lbl := ⟨.ifElse (.cmp .eq .byte (.lit 32)) (.goto (.tr 39) .done) .done (.ifElse (.and (.cmp .le (.lit 33) .byte) (.cmp .le .byte (.lit 126))) (.goto (.st 83) .done) .done (.goto (.tr 37) .done)), .st 83⟩
/-- rfc3164/machine.go:2845 -/
def st83 : K × Lbl := ⟨.stmt .incP (.ifElse .pEqPe (.goto (.testEofN 83) .done) .done .done), .stCase 83⟩
/-- rfc3164/machine.go:2849 -/
def stCase83 : K × Lbl := ⟨.ifElse (.cmp .eq .byte (.lit 32)) (.goto (.tr 39) .done) .done (.ifElse (.and (.cmp .le (.lit 33) .byte) (.cmp .le .byte (.lit 126))) (.goto (.st 84) .done) .done (.goto (.tr 37) .done)), .st 84⟩
/-- rfc3164/machine.go:2857 -/
def st84 : K × Lbl := ⟨.stmt .incP (.ifElse .pEqPe (.goto (.testEofN 84) .done) .done .done), .stCase 84⟩
/-- rfc3164/machine.go:2861 -/
def stCase84 : K × Lbl := ⟨.ifElse (.cmp .eq .byte (.lit 32)) (.goto (.tr 39) .done) .done (.ifElse (.and (.cmp .le (.lit 33) .byte) (.cmp .le .byte (.lit 126))) (.goto (.st 85) .done) .done (.goto (.tr 37) .done)), .st 85⟩
/-- rfc3164/machine.go:2869 -/
def st85 : K × Lbl := ⟨.stmt .incP (.ifElse .pEqPe (.goto (.testEofN 85) .done) .done .done), .stCase 85⟩
/-- rfc3164/machine.go:2873 -/
def stCase85 : K × Lbl := ⟨.ifElse (.cmp .eq .byte (.lit 32)) (.goto (.tr 39) .done) .done (.ifElse (.and (.cmp .le (.lit 33) .byte) (.cmp .le .byte (.lit 126))) (.goto (.st 86) .done) .done (.goto (.tr 37) .done)), .st 86⟩
/-- rfc3164/machine.go:2881 -/
def st86 : K × Lbl := ⟨.stmt .incP (.ifElse .pEqPe (.goto (.testEofN 86) .done) .done .done), .stCase 86⟩
/-- rfc3164/machine.go:2885 -/
def stCase86 : K × Lbl := ⟨.ifElse (.cmp .eq .byte (.lit 32)) (.goto (.tr 39) .done) .done (.ifElse (.and (.cmp .le (.lit 33) .byte) (.cmp .le .byte (.lit 126))) (.goto (.st 87) .done) .done (.goto (.tr 37) .done)), .st 87⟩
/-- rfc3164/machine.go:2893 -/
def st87 : K × Lbl := ⟨.stmt .incP (.ifElse .pEqPe (.goto (.testEofN 87) .done) .done .done), .stCase 87⟩
/-- rfc3164/machine.go:2897 -/
def stCase87 : K × Lbl := ⟨.ifElse (.cmp .eq .byte (.lit 32)) (.goto (.tr 39) .done) .done (.ifElse (.and (.cmp .le (.lit 33) .byte) (.cmp .le .byte (.lit 126))) (.goto (.st 88) .done) .done (.goto (.tr 37) .done)), .st 88⟩
/-- rfc3164/machine.go:2905 -/
def st88 : K × Lbl := ⟨.stmt .incP (.ifElse .pEqPe (.goto (.testEofN 88) .done) .done .done), .stCase 88⟩
/-- rfc3164/machine.go:2909 -/
def stCase88 : K × Lbl := ⟨.ifElse (.cmp .eq .byte (.lit 32)) (.goto (.tr 39) .done) .done (.ifElse (.and (.cmp .le (.lit 33) .byte) (.cmp .le .byte (.lit 126))) (.goto (.st 89) .done) .done (.goto (.tr 37) .done)), .st 89⟩
/-- rfc3164/machine.go:2917 -/
def st89 : K × Lbl := ⟨.stmt .incP (.ifElse .pEqPe (.goto (.testEofN 89) .done) .done .done), .stCase 89⟩
/-- rfc3164/machine.go:2921 -/
def stCase89 : K × Lbl := ⟨.ifElse (.cmp .eq .byte (.lit 32)) (.goto (.tr 39) .done) .done (.ifElse (.and (.cmp .le (.lit 33) .byte) (.cmp .le .byte (.lit 126))) (.goto (.st 90) .done) .done (.goto (.tr 37) .done)), .st 90⟩
/-- rfc3164/machine.go:2929 -/
def st90 : K × Lbl := ⟨.stmt .incP (.ifElse .pEqPe (.goto (.testEofN 90) .done) .done .done), .stCase 90⟩
/-- rfc3164/machine.go:2933 -/
def stCase90 : K × Lbl := ⟨.ifElse (.cmp .eq .byte (.lit 32)) (.goto (.tr 39) .done) .done (.ifElse (.and (.cmp .le (.lit 33) .byte) (.cmp .le .byte (.lit 126))) (.goto (.st 91) .done) .done (.goto (.tr 37) .done)), .st 91⟩
/-- rfc3164/machine.go:2941 -/
def st91 : K × Lbl := ⟨.stmt .incP (.ifElse .pEqPe (.goto (.testEofN 91) .done) .done .done), .stCase 91⟩
/-- rfc3164/machine.go:2945 -/
def stCase91 : K × Lbl := ⟨.ifElse (.cmp .eq .byte (.lit 32)) (.goto (.tr 39) .done) .done (.ifElse (.and (.cmp .le (.lit 33) .byte) (.cmp .le .byte (.lit 126))) (.goto (.st 92) .done) .done (.goto (.tr 37) .done)), .st 92⟩
/-- rfc3164/machine.go:2953 -/
def st92 : K × Lbl := ⟨.stmt .incP (.ifElse .pEqPe (.goto (.testEofN 92) .done) .done .done), .stCase 92⟩
/-- rfc3164/machine.go:2957 -/
def stCase92 : K × Lbl := ⟨.ifElse (.cmp .eq .byte (.lit 32)) (.goto (.tr 39) .done) .done (.ifElse (.and (.cmp .le (.lit 33) .byte) (.cmp .le .byte (.lit 126))) (.goto (.st 93) .done) .done (.goto (.tr 37) .done)), .st 93⟩
/-- rfc3164/machine.go:2965 -/
def st93 : K × Lbl := ⟨.stmt .incP (.ifElse .pEqPe (.goto (.testEofN 93) .done) .done .done), .stCase 93⟩
/-- rfc3164/machine.go:2969 -/
def stCase93 : K × Lbl := ⟨.ifElse (.cmp .eq .byte (.lit 32)) (.goto (.tr 39) .done) .done (.ifElse (.and (.cmp .le (.lit 33) .byte) (.cmp .le .byte (.lit 126))) (.goto (.st 94) .done) .done (.goto (.tr 37) .done)), .st 94⟩
/-- rfc3164/machine.go:2977 -/
def st94 : K × Lbl := ⟨.stmt .incP (.ifElse .pEqPe (.goto (.testEofN 94) .done) .done .done), .stCase 94⟩
/-- rfc3164/machine.go:2981 -/
def stCase94 : K × Lbl := ⟨.ifElse (.cmp .eq .byte (.lit 32)) (.goto (.tr 39) .done) .done (.ifElse (.and (.cmp .le (.lit 33) .byte) (.cmp .le .byte (.lit 126))) (.goto (.st 95) .done) .done (.goto (.tr 37) .done)), .st 95⟩
/-- rfc3164/machine.go:2989 -/
def st95 : K × Lbl := ⟨.stmt .incP (.ifElse .pEqPe (.goto (.testEofN 95) .done) .done .done), .stCase 95⟩
/-- rfc3164/machine.go:2993 -/
def stCase95 : K × Lbl := ⟨.ifElse (.cmp .eq .byte (.lit 32)) (.goto (.tr 39) .done) .done (.ifElse (.and (.cmp .le (.lit 33) .byte) (.cmp .le .byte (.lit 126))) (.goto (.st 96) .done) .done (.goto (.tr 37) .done)), .st 96⟩
/-- rfc3164/machine.go:3001 -/
def st96 : K × Lbl := ⟨.stmt .incP (.ifElse .pEqPe (.goto (.testEofN 96) .done) .done .done), .stCase 96⟩
/-- rfc3164/machine.go:3005 -/
def stCase96 : K × Lbl := ⟨.ifElse (.cmp .eq .byte (.lit 32)) (.goto (.tr 39) .done) .done (.ifElse (.and (.cmp .le (.lit 33) .byte) (.cmp .le .byte (.lit 126))) (.goto (.st 97) .done) .done (.goto (.tr 37) .done)), .st 97⟩
/-- rfc3164/machine.go:3013 -/
def st97 : K × Lbl := ⟨.stmt .incP (.ifElse .pEqPe (.goto (.testEofN 97) .done) .done .done), .stCase 97⟩
/-- rfc3164/machine.go:3017 -/
def stCase97 : K × Lbl := ⟨.ifElse (.cmp .eq .byte (.lit 32)) (.goto (.tr 39) .done) .done (.ifElse (.and (.cmp .le (.lit 33) .byte) (.cmp .le .byte (.lit 126))) (.goto (.st 98) .done) .done (.goto (.tr 37) .done)), .st 98⟩
/-- rfc3164/machine.go:3025 -/
def st98 : K × Lbl := ⟨.stmt .incP (.ifElse .pEqPe (.goto (.testEofN 98) .done) .done .done), .stCase 98⟩
/-- rfc3164/machine.go:3029 -/
def stCase98 : K × Lbl := ⟨.ifElse (.cmp .eq .byte (.lit 32)) (.goto (.tr 39) .done) .done (.ifElse (.and (.cmp .le (.lit 33) .byte) (.cmp .le .byte (.lit 126))) (.goto (.st 99) .done) .done (.goto (.tr 37) .done)), .st 99⟩
/-- rfc3164/machine.go:3037 -/
def st99 : K × Lbl := ⟨.stmt .incP (.ifElse .pEqPe (.goto (.testEofN 99) .done) .done .done), .stCase 99⟩
/-- rfc3164/machine.go:3041 -/
def stCase99 : K × Lbl := ⟨.ifElse (.cmp .eq .byte (.lit 32)) (.goto (.tr 39) .done) .done (.ifElse (.and (.cmp .le (.lit 33) .byte) (.cmp .le .byte (.lit 126))) (.goto (.st 100) .done) .done (.goto (.tr 37) .done)), .st 100⟩
/-- rfc3164/machine.go:3049 -/
def st100 : K × Lbl := ⟨.stmt .incP (.ifElse .pEqPe (.goto (.testEofN 100) .done) .done .done), .stCase 100⟩
/-- rfc3164/machine.go:3053 -/
def stCase100 : K × Lbl := ⟨.ifElse (.cmp .eq .byte (.lit 32)) (.goto (.tr 39) .done) .done (.ifElse (.and (.cmp .le (.lit 33) .byte) (.cmp .le .byte (.lit 126))) (.goto (.st 101) .done) .done (.goto (.tr 37) .done)), .st 101⟩
/-- rfc3164/machine.go:3061 -/
def st101 : K × Lbl := ⟨.stmt .incP (.ifElse .pEqPe (.goto (.testEofN 101) .done) .done .done), .stCase 101⟩
/-- rfc3164/machine.go:3065 -/
def stCase101 : K × Lbl := ⟨.ifElse (.cmp .eq .byte (.lit 32)) (.goto (.tr 39) .done) .done (.ifElse (.and (.cmp .le (.lit 33) .byte) (.cmp .le .byte (.lit 126))) (.goto (.st 102) .done) .done (.goto (.tr 37) .done)), .st 102⟩
/-- rfc3164/machine.go:3073 -/
def st102 : K × Lbl := ⟨.stmt .incP (.ifElse .pEqPe (.goto (.testEofN 102) .done) .done .done), .stCase 102⟩
/-- rfc3164/machine.go:3077 -/
def stCase102 : K × Lbl := ⟨.ifElse (.cmp .eq .byte (.lit 32)) (.goto (.tr 39) .done) .done (.ifElse (.and (.cmp .le (.lit 33) .byte) (.cmp .le .byte (.lit 126))) (.goto (.st 103) .done) .done (.goto (.tr 37) .done)), .st 103⟩
/-- rfc3164/machine.go:3085 -/
def st103 : K × Lbl := ⟨.stmt .incP (.ifElse .pEqPe (.goto (.testEofN 103) .done) .done .done), .stCase 103⟩
/-- rfc3164/machine.go:3089 -/
def stCase103 : K × Lbl := ⟨.ifElse (.cmp .eq .byte (.lit 32)) (.goto (.tr 39) .done) .done (.ifElse (.and (.cmp .le (.lit 33) .byte) (.cmp .le .byte (.lit 126))) (.goto (.st 104) .done) .done (.goto (.tr 37) .done)), .st 104⟩
/-- rfc3164/machine.go:3097 -/
def st104 : K × Lbl := ⟨.stmt .incP (.ifElse .pEqPe (.goto (.testEofN 104) .done) .done .done), .stCase 104⟩
/-- rfc3164/machine.go:3101 -/
def stCase104 : K × Lbl := ⟨.ifElse (.cmp .eq .byte (.lit 32)) (.goto (.tr 39) .done) .done (.ifElse (.and (.cmp .le (.lit 33) .byte) (.cmp .le .byte (.lit 126))) (.goto (.st 105) .done) .done (.goto (.tr 37) .done)), .st 105⟩
/-- rfc3164/machine.go:3109 -/
def st105 : K × Lbl := ⟨.stmt .incP (.ifElse .pEqPe (.goto (.testEofN 105) .done) .done .done), .stCase 105⟩
/-- rfc3164/machine.go:3113 -/
def stCase105 : K × Lbl := ⟨.ifElse (.cmp .eq .byte (.lit 32)) (.goto (.tr 39) .done) .done (.ifElse (.and (.cmp .le (.lit 33) .byte) (.cmp .le .byte (.lit 126))) (.goto (.st 106) .done) .done (.goto (.tr 37) .done)), .st 106⟩
/-- rfc3164/machine.go:3121 -/
def st106 : K × Lbl := ⟨.stmt .incP (.ifElse .pEqPe (.goto (.testEofN 106) .done) .done .done), .stCase 106⟩
/-- rfc3164/machine.go:3125 -/
def stCase106 : K × Lbl := ⟨.ifElse (.cmp .eq .byte (.lit 32)) (.goto (.tr 39) .done) .done (.ifElse (.and (.cmp .le (.lit 33) .byte) (.cmp .le .byte (.lit 126))) (.goto (.st 107) .done) .done (.goto (.tr 37) .done)), .st 107⟩
/-- rfc3164/machine.go:3133 -/
def st107 : K × Lbl := ⟨.stmt .incP (.ifElse .pEqPe (.goto (.testEofN 107) .done) .done .done), .stCase 107⟩
/-- rfc3164/machine.go:3137 -/
def stCase107 : K × Lbl := ⟨.ifElse (.cmp .eq .byte (.lit 32)) (.goto (.tr 39) .done) .done (.ifElse (.and (.cmp .le (.lit 33) .byte) (.cmp .le .byte (.lit 126))) (.goto (.st 108) .done) .done (.goto (.tr 37) .done)), .st 108⟩
/-- rfc3164/machine.go:3145 -/
def st108 : K × Lbl := ⟨.stmt .incP (.ifElse .pEqPe (.goto (.testEofN 108) .done) .done .done), .stCase 108⟩
/-- rfc3164/machine.go:3149 -/
def stCase108 : K × Lbl := ⟨.ifElse (.cmp .eq .byte (.lit 32)) (.goto (.tr 39) .done) .done (.ifElse (.and (.cmp .le (.lit 33) .byte) (.cmp .le .byte (.lit 126))) (.goto (.st 109) .done) .done (.goto (.tr 37) .done)), .st 109⟩
/-- rfc3164/machine.go:3157 -/
def st109 : K × Lbl := ⟨.stmt .incP (.ifElse .pEqPe (.goto (.testEofN 109) .done) .done .done), .stCase 109⟩
/-- rfc3164/machine.go:3161 -/
def stCase109 : K × Lbl := ⟨.ifElse (.cmp .eq .byte (.lit 32)) (.goto (.tr 39) .done) .done (.ifElse (.and (.cmp .le (.lit 33) .byte) (.cmp .le .byte (.lit 126))) (.goto (.st 110) .done) .done (.goto (.tr 37) .done)), .st 110⟩
/-- rfc3164/machine.go:3169 -/
def st110 : K × Lbl := ⟨.stmt .incP (.ifElse .pEqPe (.goto (.testEofN 110) .done) .done .done), .stCase 110⟩
/-- rfc3164/machine.go:3173 -/
def stCase110 : K × Lbl := ⟨.ifElse (.cmp .eq .byte (.lit 32)) (.goto (.tr 39) .done) .done (.ifElse (.and (.cmp .le (.lit 33) .byte) (.cmp .le .byte (.lit 126))) (.goto (.st 111) .done) .done (.goto (.tr 37) .done)), .st 111⟩
/-- rfc3164/machine.go:3181 -/
def st111 : K × Lbl := ⟨.stmt .incP (.ifElse .pEqPe (.goto (.testEofN 111) .done) .done .done), .stCase 111⟩
/-- rfc3164/machine.go:3185 -/
def stCase111 : K × Lbl := ⟨.ifElse (.cmp .eq .byte (.lit 32)) (.goto (.tr 39) .done) .done (.ifElse (.and (.cmp .le (.lit 33) .byte) (.cmp .le .byte (.lit 126))) (.goto (.st 112) .done) .done (.goto (.tr 37) .done)), .st 112⟩
/-- rfc3164/machine.go:3193 -/
def st112 : K × Lbl := ⟨.stmt .incP (.ifElse .pEqPe (.goto (.testEofN 112) .done) .done .done), .stCase 112⟩
/-- rfc3164/machine.go:3197 -/
def stCase112 : K × Lbl := ⟨.ifElse (.cmp .eq .byte (.lit 32)) (.goto (.tr 39) .done) .done (.ifElse (.and (.cmp .le (.lit 33) .byte) (.cmp .le .byte (.lit 126))) (.goto (.st 113) .done) .done (.goto (.tr 37) .done)), .st 113⟩
/-- rfc3164/machine.go:3205 -/
def st113 : K × Lbl := ⟨.stmt .incP (.ifElse .pEqPe (.goto (.testEofN 113) .done) .done .done), .stCase 113⟩
/-- rfc3164/machine.go:3209 -/
def stCase113 : K × Lbl := ⟨.ifElse (.cmp .eq .byte (.lit 32)) (.goto (.tr 39) .done) .done (.ifElse (.and (.cmp .le (.lit 33) .byte) (.cmp .le .byte (.lit 126))) (.goto (.st 114) .done) .done (.goto (.tr 37) .done)), .st 114⟩
/-- rfc3164/machine.go:3217 -/
def st114 : K × Lbl := ⟨.stmt .incP (.ifElse .pEqPe (.goto (.testEofN 114) .done) .done .done), .stCase 114⟩
/-- rfc3164/machine.go:3221 -/
def stCase114 : K × Lbl := ⟨.ifElse (.cmp .eq .byte (.lit 32)) (.goto (.tr 39) .done) .done (.ifElse (.and (.cmp .le (.lit 33) .byte) (.cmp .le .byte (.lit 126))) (.goto (.st 115) .done) .done (.goto (.tr 37) .done)), .st 115⟩
/-- rfc3164/machine.go:3229 -/
def st115 : K × Lbl := ⟨.stmt .incP (.ifElse .pEqPe (.goto (.testEofN 115) .done) .done .done), .stCase 115⟩
/-- rfc3164/machine.go:3233 -/
def stCase115 : K × Lbl := ⟨.ifElse (.cmp .eq .byte (.lit 32)) (.goto (.tr 39) .done) .done (.ifElse (.and (.cmp .le (.lit 33) .byte) (.cmp .le .byte (.lit 126))) (.goto (.st 116) .done) .done (.goto (.tr 37) .done)), .st 116⟩
/-- rfc3164/machine.go:3241 -/
def st116 : K × Lbl := ⟨.stmt .incP (.ifElse .pEqPe (.goto (.testEofN 116) .done) .done .done), .stCase 116⟩
/-- rfc3164/machine.go:3245 -/
def stCase116 : K × Lbl := ⟨.ifElse (.cmp .eq .byte (.lit 32)) (.goto (.tr 39) .done) .done (.ifElse (.and (.cmp .le (.lit 33) .byte) (.cmp .le .byte (.lit 126))) (.goto (.st 117) .done) .done (.goto (.tr 37) .done)), .st 117⟩
/-- rfc3164/machine.go:3253 -/
def st117 : K × Lbl := ⟨.stmt .incP (.ifElse .pEqPe (.goto (.testEofN 117) .done) .done .done), .stCase 117⟩
/-- rfc3164/machine.go:3257 -/
def stCase117 : K × Lbl := ⟨.ifElse (.cmp .eq .byte (.lit 32)) (.goto (.tr 39) .done) .done (.ifElse (.and (.cmp .le (.lit 33) .byte) (.cmp .le .byte (.lit 126))) (.goto (.st 118) .done) .done (.goto (.tr 37) .done)), .st 118⟩
/-- rfc3164/machine.go:3265 -/
def st118 : K × Lbl := ⟨.stmt .incP (.ifElse .pEqPe (.goto (.testEofN 118) .done) .done .done), .stCase 118⟩
/-- rfc3164/machine.go:3269 -/
def stCase118 : K × Lbl := ⟨.ifElse (.cmp .eq .byte (.lit 32)) (.goto (.tr 39) .done) .done (.ifElse (.and (.cmp .le (.lit 33) .byte) (.cmp .le .byte (.lit 126))) (.goto (.st 119) .done) .done (.goto (.tr 37) .done)), .st 119⟩
/-- rfc3164/machine.go:3277 -/
def st119 : K × Lbl := ⟨.stmt .incP (.ifElse .pEqPe (.goto (.testEofN 119) .done) .done .done), .stCase 119⟩
/-- rfc3164/machine.go:3281 -/
def stCase119 : K × Lbl := ⟨.ifElse (.cmp .eq .byte (.lit 32)) (.goto (.tr 39) .done) .done (.ifElse (.and (.cmp .le (.lit 33) .byte) (.cmp .le .byte (.lit 126))) (.goto (.st 120) .done) .done (.goto (.tr 37) .done)), .st 120⟩
/-- rfc3164/machine.go:3289 -/
def st120 : K × Lbl := ⟨.stmt .incP (.ifElse .pEqPe (.goto (.testEofN 120) .done) .done .done), .stCase 120⟩
/-- rfc3164/machine.go:3293 -/
def stCase120 : K × Lbl := ⟨.ifElse (.cmp .eq .byte (.lit 32)) (.goto (.tr 39) .done) .done (.ifElse (.and (.cmp .le (.lit 33) .byte) (.cmp .le .byte (.lit 126))) (.goto (.st 121) .done) .done (.goto (.tr 37) .done)), .st 121⟩
/-- rfc3164/machine.go:3301 -/
def st121 : K × Lbl := ⟨.stmt .incP (.ifElse .pEqPe (.goto (.testEofN 121) .done) .done .done), .stCase 121⟩
/-- rfc3164/machine.go:3305 -/
def stCase121 : K × Lbl := ⟨.ifElse (.cmp .eq .byte (.lit 32)) (.goto (.tr 39) .done) .done (.ifElse (.and (.cmp .le (.lit 33) .byte) (.cmp .le .byte (.lit 126))) (.goto (.st 122) .done) .done (.goto (.tr 37) .done)), .st 122⟩
/-- rfc3164/machine.go:3313 -/
def st122 : K × Lbl := ⟨.stmt .incP (.ifElse .pEqPe (.goto (.testEofN 122) .done) .done .done), .stCase 122⟩
/-- rfc3164/machine.go:3317 -/
def stCase122 : K × Lbl := ⟨.ifElse (.cmp .eq .byte (.lit 32)) (.goto (.tr 39) .done) .done (.ifElse (.and (.cmp .le (.lit 33) .byte) (.cmp .le .byte (.lit 126))) (.goto (.st 123) .done) .done (.goto (.tr 37) .done)), .st 123⟩
/-- rfc3164/machine.go:3325 -/
def st123 : K × Lbl := ⟨.stmt .incP (.ifElse .pEqPe (.goto (.testEofN 123) .done) .done .done), .stCase 123⟩
/-- rfc3164/machine.go:3329 -/
def stCase123 : K × Lbl := ⟨.ifElse (.cmp .eq .byte (.lit 32)) (.goto (.tr 39) .done) .done (.ifElse (.and (.cmp .le (.lit 33) .byte) (.cmp .le .byte (.lit 126))) (.goto (.st 124) .done) .done (.goto (.tr 37) .done)), .st 124⟩
/-- rfc3164/machine.go:3337 -/
def st124 : K × Lbl := ⟨.stmt .incP (.ifElse .pEqPe (.goto (.testEofN 124) .done) .done .done), .stCase 124⟩
/-- rfc3164/machine.go:3341 -/
def stCase124 : K × Lbl := ⟨.ifElse (.cmp .eq .byte (.lit 32)) (.goto (.tr 39) .done) .done (.ifElse (.and (.cmp .le (.lit 33) .byte) (.cmp .le .byte (.lit 126))) (.goto (.st 125) .done) .done (.goto (.tr 37) .done)), .st 125⟩
/-- rfc3164/machine.go:3349 -/
def st125 : K × Lbl := ⟨.stmt .incP (.ifElse .pEqPe (.goto (.testEofN 125) .done) .done .done), .stCase 125⟩
/-- rfc3164/machine.go:3353 -/
def stCase125 : K × Lbl := ⟨.ifElse (.cmp .eq .byte (.lit 32)) (.goto (.tr 39) .done) .done (.ifElse (.and (.cmp .le (.lit 33) .byte) (.cmp .le .byte (.lit 126))) (.goto (.st 126) .done) .done (.goto (.tr 37) .done)), .st 126⟩
/-- rfc3164/machine.go:3361 -/
def st126 : K × Lbl := ⟨.stmt .incP (.ifElse .pEqPe (.goto (.testEofN 126) .done) .done .done), .stCase 126⟩
/-- rfc3164/machine.go:3365 -/
def stCase126 : K × Lbl := ⟨.ifElse (.cmp .eq .byte (.lit 32)) (.goto (.tr 39) .done) .done (.ifElse (.and (.cmp .le (.lit 33) .byte) (.cmp .le .byte (.lit 126))) (.goto (.st 127) .done) .done (.goto (.tr 37) .done)), .st 127⟩
/-- rfc3164/machine.go:3373 -/
def st127 : K × Lbl := ⟨.stmt .incP (.ifElse .pEqPe (.goto (.testEofN 127) .done) .done .done), .stCase 127⟩
/-- rfc3164/machine.go:3377 -/
def stCase127 : K × Lbl := ⟨.ifElse (.cmp .eq .byte (.lit 32)) (.goto (.tr 39) .done) .done (.ifElse (.and (.cmp .le (.lit 33) .byte) (.cmp .le .byte (.lit 126))) (.goto (.st 128) .done) .done (.goto (.tr 37) .done)), .st 128⟩
/-- rfc3164/machine.go:3385 -/
def st128 : K × Lbl := ⟨.stmt .incP (.ifElse .pEqPe (.goto (.testEofN 128) .done) .done .done), .stCase 128⟩
/-- rfc3164/machine.go:3389 -/
def stCase128 : K × Lbl := ⟨.ifElse (.cmp .eq .byte (.lit 32)) (.goto (.tr 39) .done) .done (.ifElse (.and (.cmp .le (.lit 33) .byte) (.cmp .le .byte (.lit 126))) (.goto (.st 129) .done) .done (.goto (.tr 37) .done)), .st 129⟩
/-- rfc3164/machine.go:3397 -/
def st129 : K × Lbl := ⟨.stmt .incP (.ifElse .pEqPe (.goto (.testEofN 129) .done) .done .done), .stCase 129⟩
/-- rfc3164/machine.go:3401 -/
def stCase129 : K × Lbl := ⟨.ifElse (.cmp .eq .byte (.lit 32)) (.goto (.tr 39) .done) .done (.ifElse (.and (.cmp .le (.lit 33) .byte) (.cmp .le .byte (.lit 126))) (.goto (.st 130) .done) .done (.goto (.tr 37) .done)), .st 130⟩
/-- rfc3164/machine.go:3409 -/
def st130 : K × Lbl := ⟨.stmt .incP (.ifElse .pEqPe (.goto (.testEofN 130) .done) .done .done), .stCase 130⟩
/-- rfc3164/machine.go:3413 -/
def stCase130 : K × Lbl := ⟨.ifElse (.cmp .eq .byte (.lit 32)) (.goto (.tr 39) .done) .done (.ifElse (.and (.cmp .le (.lit 33) .byte) (.cmp .le .byte (.lit 126))) (.goto (.st 131) .done) .done (.goto (.tr 37) .done)), .st 131⟩
/-- rfc3164/machine.go:3421 -/
def st131 : K × Lbl := ⟨.stmt .incP (.ifElse .pEqPe (.goto (.testEofN 131) .done) .done .done), .stCase 131⟩
/-- rfc3164/machine.go:3425 -/
def stCase131 : K × Lbl := ⟨.ifElse (.cmp .eq .byte (.lit 32)) (.goto (.tr 39) .done) .done (.ifElse (.and (.cmp .le (.lit 33) .byte) (.cmp .le .byte (.lit 126))) (.goto (.st 132) .done) .done (.goto (.tr 37) .done)), .st 132⟩
/-- rfc3164/machine.go:3433 -/
def st132 : K × Lbl := ⟨.stmt .incP (.ifElse .pEqPe (.goto (.testEofN 132) .done) .done .done), .stCase 132⟩
/-- rfc3164/machine.go:3437 -/
def stCase132 : K × Lbl := ⟨.ifElse (.cmp .eq .byte (.lit 32)) (.goto (.tr 39) .done) .done (.ifElse (.and (.cmp .le (.lit 33) .byte) (.cmp .le .byte (.lit 126))) (.goto (.st 133) .done) .done (.goto (.tr 37) .done)), .st 133⟩
/-- rfc3164/machine.go:3445 -/
def st133 : K × Lbl := ⟨.stmt .incP (.ifElse .pEqPe (.goto (.testEofN 133) .done) .done .done), .stCase 133⟩
/-- rfc3164/machine.go:3449 -/
def stCase133 : K × Lbl := ⟨.ifElse (.cmp .eq .byte (.lit 32)) (.goto (.tr 39) .done) .done (.ifElse (.and (.cmp .le (.lit 33) .byte) (.cmp .le .byte (.lit 126))) (.goto (.st 134) .done) .done (.goto (.tr 37) .done)), .st 134⟩
/-- rfc3164/machine.go:3457 -/
def st134 : K × Lbl := ⟨.stmt .incP (.ifElse .pEqPe (.goto (.testEofN 134) .done) .done .done), .stCase 134⟩
/-- rfc3164/machine.go:3461 -/
def stCase134 : K × Lbl := ⟨.ifElse (.cmp .eq .byte (.lit 32)) (.goto (.tr 39) .done) .done (.ifElse (.and (.cmp .le (.lit 33) .byte) (.cmp .le .byte (.lit 126))) (.goto (.st 135) .done) .done (.goto (.tr 37) .done)), .st 135⟩
/-- rfc3164/machine.go:3469 -/
def st135 : K × Lbl := ⟨.stmt .incP (.ifElse .pEqPe (.goto (.testEofN 135) .done) .done .done), .stCase 135⟩
/-- rfc3164/machine.go:3473 -/
def stCase135 : K × Lbl := ⟨.ifElse (.cmp .eq .byte (.lit 32)) (.goto (.tr 39) .done) .done (.ifElse (.and (.cmp .le (.lit 33) .byte) (.cmp .le .byte (.lit 126))) (.goto (.st 136) .done) .done (.goto (.tr 37) .done)), .st 136⟩
/-- rfc3164/machine.go:3481 -/
def st136 : K × Lbl := ⟨.stmt .incP (.ifElse .pEqPe (.goto (.testEofN 136) .done) .done .done), .stCase 136⟩
/-- rfc3164/machine.go:3485 -/
def stCase136 : K × Lbl := ⟨.ifElse (.cmp .eq .byte (.lit 32)) (.goto (.tr 39) .done) .done (.ifElse (.and (.cmp .le (.lit 33) .byte) (.cmp .le .byte (.lit 126))) (.goto (.st 137) .done) .done (.goto (.tr 37) .done)), .st 137⟩
/-- rfc3164/machine.go:3493 -/
def st137 : K × Lbl := ⟨.stmt .incP (.ifElse .pEqPe (.goto (.testEofN 137) .done) .done .done), .stCase 137⟩
/-- rfc3164/machine.go:3497 -/
def stCase137 : K × Lbl := ⟨.ifElse (.cmp .eq .byte (.lit 32)) (.goto (.tr 39) .done) .done (.ifElse (.and (.cmp .le (.lit 33) .byte) (.cmp .le .byte (.lit 126))) (.goto (.st 138) .done) .done (.goto (.tr 37) .done)), .st 138⟩
/-- rfc3164/machine.go:3505 -/
def st138 : K × Lbl := ⟨.stmt .incP (.ifElse .pEqPe (.goto (.testEofN 138) .done) .done .done), .stCase 138⟩
/-- rfc3164/machine.go:3509 -/
def stCase138 : K × Lbl := ⟨.ifElse (.cmp .eq .byte (.lit 32)) (.goto (.tr 39) .done) .done (.ifElse (.and (.cmp .le (.lit 33) .byte) (.cmp .le .byte (.lit 126))) (.goto (.st 139) .done) .done (.goto (.tr 37) .done)), .st 139⟩
/-- rfc3164/machine.go:3517 -/
def st139 : K × Lbl := ⟨.stmt .incP (.ifElse .pEqPe (.goto (.testEofN 139) .done) .done .done), .stCase 139⟩
/-- rfc3164/machine.go:3521 -/
def stCase139 : K × Lbl := ⟨.ifElse (.cmp .eq .byte (.lit 32)) (.goto (.tr 39) .done) .done (.ifElse (.and (.cmp .le (.lit 33) .byte) (.cmp .le .byte (.lit 126))) (.goto (.st 140) .done) .done (.goto (.tr 37) .done)), .st 140⟩
/-- rfc3164/machine.go:3529 -/
def st140 : K × Lbl := ⟨.stmt .incP (.ifElse .pEqPe (.goto (.testEofN 140) .done) .done .done), .stCase 140⟩
/-- rfc3164/machine.go:3533 -/
def stCase140 : K × Lbl := ⟨.ifElse (.cmp .eq .byte (.lit 32)) (.goto (.tr 39) .done) .done (.ifElse (.and (.cmp .le (.lit 33) .byte) (.cmp .le .byte (.lit 126))) (.goto (.st 141) .done) .done (.goto (.tr 37) .done)), .st 141⟩
/-- rfc3164/machine.go:3541 -/
def st141 : K × Lbl := ⟨.stmt .incP (.ifElse .pEqPe (.goto (.testEofN 141) .done) .done .done), .stCase 141⟩
/-- rfc3164/machine.go:3545 -/
def stCase141 : K × Lbl := ⟨.ifElse (.cmp .eq .byte (.lit 32)) (.goto (.tr 39) .done) .done (.ifElse (.and (.cmp .le (.lit 33) .byte) (.cmp .le .byte (.lit 126))) (.goto (.st 142) .done) .done (.goto (.tr 37) .done)), .st 142⟩
/-- rfc3164/machine.go:3553 -/
def st142 : K × Lbl := ⟨.stmt .incP (.ifElse .pEqPe (.goto (.testEofN 142) .done) .done .done), .stCase 142⟩
/-- rfc3164/machine.go:3557 -/
def stCase142 : K × Lbl := ⟨.ifElse (.cmp .eq .byte (.lit 32)) (.goto (.tr 39) .done) .done (.ifElse (.and (.cmp .le (.lit 33) .byte) (.cmp .le .byte (.lit 126))) (.goto (.st 143) .done) .done (.goto (.tr 37) .done)), .st 143⟩
/-- rfc3164/machine.go:3565 -/
def st143 : K × Lbl := ⟨.stmt .incP (.ifElse .pEqPe (.goto (.testEofN 143) .done) .done .done), .stCase 143⟩
/-- rfc3164/machine.go:3569 -/
def stCase143 : K × Lbl := ⟨.ifElse (.cmp .eq .byte (.lit 32)) (.goto (.tr 39) .done) .done (.ifElse (.and (.cmp .le (.lit 33) .byte) (.cmp .le .byte (.lit 126))) (.goto (.st 144) .done) .done (.goto (.tr 37) .done)), .st 144⟩
/-- rfc3164/machine.go:3577 -/
def st144 : K × Lbl := ⟨.stmt .incP (.ifElse .pEqPe (.goto (.testEofN 144) .done) .done .done), .stCase 144⟩
/-- rfc3164/machine.go:3581 -/
def stCase144 : K × Lbl := ⟨.ifElse (.cmp .eq .byte (.lit 32)) (.goto (.tr 39) .done) .done (.ifElse (.and (.cmp .le (.lit 33) .byte) (.cmp .le .byte (.lit 126))) (.goto (.st 145) .done) .done (.goto (.tr 37) .done)), .st 145⟩
/-- rfc3164/machine.go:3589 -/
def st145 : K × Lbl := ⟨.stmt .incP (.ifElse .pEqPe (.goto (.testEofN 145) .done) .done .done), .stCase 145⟩
/-- rfc3164/machine.go:3593 -/
def stCase145 : K × Lbl := ⟨.ifElse (.cmp .eq .byte (.lit 32)) (.goto (.tr 39) .done) .done (.ifElse (.and (.cmp .le (.lit 33) .byte) (.cmp .le .byte (.lit 126))) (.goto (.st 146) .done) .done (.goto (.tr 37) .done)), .st 146⟩
/-- rfc3164/machine.go:3601 -/
def st146 : K × Lbl := ⟨.stmt .incP (.ifElse .pEqPe (.goto (.testEofN 146) .done) .done .done), .stCase 146⟩
/-- rfc3164/machine.go:3605 -/
def stCase146 : K × Lbl := ⟨.ifElse (.cmp .eq .byte (.lit 32)) (.goto (.tr 39) .done) .done (.ifElse (.and (.cmp .le (.lit 33) .byte) (.cmp .le .byte (.lit 126))) (.goto (.st 147) .done) .done (.goto (.tr 37) .done)), .st 147⟩
/-- rfc3164/machine.go:3613 -/
def st147 : K × Lbl := ⟨.stmt .incP (.ifElse .pEqPe (.goto (.testEofN 147) .done) .done .done), .stCase 147⟩
/-- rfc3164/machine.go:3617 -/
def stCase147 : K × Lbl := ⟨.ifElse (.cmp .eq .byte (.lit 32)) (.goto (.tr 39) .done) .done (.ifElse (.and (.cmp .le (.lit 33) .byte) (.cmp .le .byte (.lit 126))) (.goto (.st 148) .done) .done (.goto (.tr 37) .done)), .st 148⟩
/-- rfc3164/machine.go:3625 -/
def st148 : K × Lbl := ⟨.stmt .incP (.ifElse .pEqPe (.goto (.testEofN 148) .done) .done .done), .stCase 148⟩
/-- rfc3164/machine.go:3629 -/
def stCase148 : K × Lbl := ⟨.ifElse (.cmp .eq .byte (.lit 32)) (.goto (.tr 39) .done) .done (.ifElse (.and (.cmp .le (.lit 33) .byte) (.cmp .le .byte (.lit 126))) (.goto (.st 149) .done) .done (.goto (.tr 37) .done)), .st 149⟩
/-- rfc3164/machine.go:3637 -/
def st149 : K × Lbl := ⟨.stmt .incP (.ifElse .pEqPe (.goto (.testEofN 149) .done) .done .done), .stCase 149⟩
/-- rfc3164/machine.go:3641 -/
def stCase149 : K × Lbl := ⟨.ifElse (.cmp .eq .byte (.lit 32)) (.goto (.tr 39) .done) .done (.ifElse (.and (.cmp .le (.lit 33) .byte) (.cmp .le .byte (.lit 126))) (.goto (.st 150) .done) .done (.goto (.tr 37) .done)), .st 150⟩
/-- rfc3164/machine.go:3649 -/
def st150 : K × Lbl := ⟨.stmt .incP (.ifElse .pEqPe (.goto (.testEofN 150) .done) .done .done), .stCase 150⟩
/-- rfc3164/machine.go:3653 -/
def stCase150 : K × Lbl := ⟨.ifElse (.cmp .eq .byte (.lit 32)) (.goto (.tr 39) .done) .done (.ifElse (.and (.cmp .le (.lit 33) .byte) (.cmp .le .byte (.lit 126))) (.goto (.st 151) .done) .done (.goto (.tr 37) .done)), .st 151⟩
/-- rfc3164/machine.go:3661 -/
def st151 : K × Lbl := ⟨.stmt .incP (.ifElse .pEqPe (.goto (.testEofN 151) .done) .done .done), .stCase 151⟩
/-- rfc3164/machine.go:3665 -/
def stCase151 : K × Lbl := ⟨.ifElse (.cmp .eq .byte (.lit 32)) (.goto (.tr 39) .done) .done (.ifElse (.and (.cmp .le (.lit 33) .byte) (.cmp .le .byte (.lit 126))) (.goto (.st 152) .done) .done (.goto (.tr 37) .done)), .st 152⟩
/-- rfc3164/machine.go:3673 -/
def st152 : K × Lbl := ⟨.stmt .incP (.ifElse .pEqPe (.goto (.testEofN 152) .done) .done .done), .stCase 152⟩
/-- rfc3164/machine.go:3677 -/
def stCase152 : K × Lbl := ⟨.ifElse (.cmp .eq .byte (.lit 32)) (.goto (.tr 39) .done) .done (.ifElse (.and (.cmp .le (.lit 33) .byte) (.cmp .le .byte (.lit 126))) (.goto (.st 153) .done) .done (.goto (.tr 37) .done)), .st 153⟩
/-- rfc3164/machine.go:3685 -/
def st153 : K × Lbl := ⟨.stmt .incP (.ifElse .pEqPe (.goto (.testEofN 153) .done) .done .done), .stCase 153⟩
/-- rfc3164/machine.go:3689 -/
def stCase153 : K × Lbl := ⟨.ifElse (.cmp .eq .byte (.lit 32)) (.goto (.tr 39) .done) .done (.ifElse (.and (.cmp .le (.lit 33) .byte) (.cmp .le .byte (.lit 126))) (.goto (.st 154) .done) .done (.goto (.tr 37) .done)), .st 154⟩
/-- rfc3164/machine.go:3697 -/
def st154 : K × Lbl := ⟨.stmt .incP (.ifElse .pEqPe (.goto (.testEofN 154) .done) .done .done), .stCase 154⟩
/-- rfc3164/machine.go:3701 -/
def stCase154 : K × Lbl := ⟨.ifElse (.cmp .eq .byte (.lit 32)) (.goto (.tr 39) .done) .done (.ifElse (.and (.cmp .le (.lit 33) .byte) (.cmp .le .byte (.lit 126))) (.goto (.st 155) .done) .done (.goto (.tr 37) .done)), .st 155⟩
/-- rfc3164/machine.go:3709 -/
def st155 : K × Lbl := ⟨.stmt .incP (.ifElse .pEqPe (.goto (.testEofN 155) .done) .done .done), .stCase 155⟩
/-- rfc3164/machine.go:3713 -/
def stCase155 : K × Lbl := ⟨.ifElse (.cmp .eq .byte (.lit 32)) (.goto (.tr 39) .done) .done (.ifElse (.and (.cmp .le (.lit 33) .byte) (.cmp .le .byte (.lit 126))) (.goto (.st 156) .done) .done (.goto (.tr 37) .done)), .st 156⟩
/-- rfc3164/machine.go:3721 -/
def st156 : K × Lbl := ⟨.stmt .incP (.ifElse .pEqPe (.goto (.testEofN 156) .done) .done .done), .stCase 156⟩
/-- rfc3164/machine.go:3725 -/
def stCase156 : K × Lbl := ⟨.ifElse (.cmp .eq .byte (.lit 32)) (.goto (.tr 39) .done) .done (.ifElse (.and (.cmp .le (.lit 33) .byte) (.cmp .le .byte (.lit 126))) (.goto (.st 157) .done) .done (.goto (.tr 37) .done)), .st 157⟩
/-- rfc3164/machine.go:3733 -/
def st157 : K × Lbl := ⟨.stmt .incP (.ifElse .pEqPe (.goto (.testEofN 157) .done) .done .done), .stCase 157⟩
/-- rfc3164/machine.go:3737 -/
def stCase157 : K × Lbl := ⟨.ifElse (.cmp .eq .byte (.lit 32)) (.goto (.tr 39) .done) .done (.ifElse (.and (.cmp .le (.lit 33) .byte) (.cmp .le .byte (.lit 126))) (.goto (.st 158) .done) .done (.goto (.tr 37) .done)), .st 158⟩
/-- rfc3164/machine.go:3745 -/
def st158 : K × Lbl := ⟨.stmt .incP (.ifElse .pEqPe (.goto (.testEofN 158) .done) .done .done), .stCase 158⟩
/-- rfc3164/machine.go:3749 -/
def stCase158 : K × Lbl := ⟨.ifElse (.cmp .eq .byte (.lit 32)) (.goto (.tr 39) .done) .done (.ifElse (.and (.cmp .le (.lit 33) .byte) (.cmp .le .byte (.lit 126))) (.goto (.st 159) .done) .done (.goto (.tr 37) .done)), .st 159⟩
/-- rfc3164/machine.go:3757 -/
def st159 : K × Lbl := ⟨.stmt .incP (.ifElse .pEqPe (.goto (.testEofN 159) .done) .done .done), .stCase 159⟩
/-- rfc3164/machine.go:3761 -/
def stCase159 : K × Lbl := ⟨.ifElse (.cmp .eq .byte (.lit 32)) (.goto (.tr 39) .done) .done (.ifElse (.and (.cmp .le (.lit 33) .byte) (.cmp .le .byte (.lit 126))) (.goto (.st 160) .done) .done (.goto (.tr 37) .done)), .st 160⟩
/-- rfc3164/machine.go:3769 -/
def st160 : K × Lbl := ⟨.stmt .incP (.ifElse .pEqPe (.goto (.testEofN 160) .done) .done .done), .stCase 160⟩
/-- rfc3164/machine.go:3773 -/
def stCase160 : K × Lbl := ⟨.ifElse (.cmp .eq .byte (.lit 32)) (.goto (.tr 39) .done) .done (.ifElse (.and (.cmp .le (.lit 33) .byte) (.cmp .le .byte (.lit 126))) (.goto (.st 161) .done) .done (.goto (.tr 37) .done)), .st 161⟩
/-- rfc3164/machine.go:3781 -/
def st161 : K × Lbl := ⟨.stmt .incP (.ifElse .pEqPe (.goto (.testEofN 161) .done) .done .done), .stCase 161⟩
/-- rfc3164/machine.go:3785 -/
def stCase161 : K × Lbl := ⟨.ifElse (.cmp .eq .byte (.lit 32)) (.goto (.tr 39) .done) .done (.ifElse (.and (.cmp .le (.lit 33) .byte) (.cmp .le .byte (.lit 126))) (.goto (.st 162) .done) .done (.goto (.tr 37) .done)), .st 162⟩
/-- rfc3164/machine.go:3793 -/
def st162 : K × Lbl := ⟨.stmt .incP (.ifElse .pEqPe (.goto (.testEofN 162) .done) .done .done), .stCase 162⟩
/-- rfc3164/machine.go:3797 -/
def stCase162 : K × Lbl := ⟨.ifElse (.cmp .eq .byte (.lit 32)) (.goto (.tr 39) .done) .done (.ifElse (.and (.cmp .le (.lit 33) .byte) (.cmp .le .byte (.lit 126))) (.goto (.st 163) .done) .done (.goto (.tr 37) .done)), .st 163⟩
/-- rfc3164/machine.go:3805 -/
def st163 : K × Lbl := ⟨.stmt .incP (.ifElse .pEqPe (.goto (.testEofN 163) .done) .done .done), .stCase 163⟩
/-- rfc3164/machine.go:3809 -/
def stCase163 : K × Lbl := ⟨.ifElse (.cmp .eq .byte (.lit 32)) (.goto (.tr 39) .done) .done (.ifElse (.and (.cmp .le (.lit 33) .byte) (.cmp .le .byte (.lit 126))) (.goto (.st 164) .done) .done (.goto (.tr 37) .done)), .st 164⟩
/-- rfc3164/machine.go:3817 -/
def st164 : K × Lbl := ⟨.stmt .incP (.ifElse .pEqPe (.goto (.testEofN 164) .done) .done .done), .stCase 164⟩
/-- rfc3164/machine.go:3821 -/
def stCase164 : K × Lbl := ⟨.ifElse (.cmp .eq .byte (.lit 32)) (.goto (.tr 39) .done) .done (.ifElse (.and (.cmp .le (.lit 33) .byte) (.cmp .le .byte (.lit 126))) (.goto (.st 165) .done) .done (.goto (.tr 37) .done)), .st 165⟩
/-- rfc3164/machine.go:3829 -/
def st165 : K × Lbl := ⟨.stmt .incP (.ifElse .pEqPe (.goto (.testEofN 165) .done) .done .done), .stCase 165⟩
/-- rfc3164/machine.go:3833 -/
def stCase165 : K × Lbl := ⟨.ifElse (.cmp .eq .byte (.lit 32)) (.goto (.tr 39) .done) .done (.ifElse (.and (.cmp .le (.lit 33) .byte) (.cmp .le .byte (.lit 126))) (.goto (.st 166) .done) .done (.goto (.tr 37) .done)), .st 166⟩
/-- rfc3164/machine.go:3841 -/
def st166 : K × Lbl := ⟨.stmt .incP (.ifElse .pEqPe (.goto (.testEofN 166) .done) .done .done), .stCase 166⟩
/-- rfc3164/machine.go:3845 -/
def stCase166 : K × Lbl := ⟨.ifElse (.cmp .eq .byte (.lit 32)) (.goto (.tr 39) .done) .done (.ifElse (.and (.cmp .le (.lit 33) .byte) (.cmp .le .byte (.lit 126))) (.goto (.st 167) .done) .done (.goto (.tr 37) .done)), .st 167⟩
/-- rfc3164/machine.go:3853 -/
def st167 : K × Lbl := ⟨.stmt .incP (.ifElse .pEqPe (.goto (.testEofN 167) .done) .done .done), .stCase 167⟩
/-- rfc3164/machine.go:3857 -/
def stCase167 : K × Lbl := ⟨.ifElse (.cmp .eq .byte (.lit 32)) (.goto (.tr 39) .done) .done (.ifElse (.and (.cmp .le (.lit 33) .byte) (.cmp .le .byte (.lit 126))) (.goto (.st 168) .done) .done (.goto (.tr 37) .done)), .st 168⟩
/-- rfc3164/machine.go:3865 -/
def st168 : K × Lbl := ⟨.stmt .incP (.ifElse .pEqPe (.goto (.testEofN 168) .done) .done .done), .stCase 168⟩
/-- rfc3164/machine.go:3869 -/
def stCase168 : K × Lbl := ⟨.ifElse (.cmp .eq .byte (.lit 32)) (.goto (.tr 39) .done) .done (.ifElse (.and (.cmp .le (.lit 33) .byte) (.cmp .le .byte (.lit 126))) (.goto (.st 169) .done) .done (.goto (.tr 37) .done)), .st 169⟩
/-- rfc3164/machine.go:3877 -/
def st169 : K × Lbl := ⟨.stmt .incP (.ifElse .pEqPe (.goto (.testEofN 169) .done) .done .done), .stCase 169⟩
/-- rfc3164/machine.go:3881 -/
def stCase169 : K × Lbl := ⟨.ifElse (.cmp .eq .byte (.lit 32)) (.goto (.tr 39) .done) .done (.ifElse (.and (.cmp .le (.lit 33) .byte) (.cmp .le .byte (.lit 126))) (.goto (.st 170) .done) .done (.goto (.tr 37) .done)), .st 170⟩
/-- rfc3164/machine.go:3889 -/
def st170 : K × Lbl := ⟨.stmt .incP (.ifElse .pEqPe (.goto (.testEofN 170) .done) .done .done), .stCase 170⟩
/-- rfc3164/machine.go:3893 -/
def stCase170 : K × Lbl := ⟨.ifElse (.cmp .eq .byte (.lit 32)) (.goto (.tr 39) .done) .done (.ifElse (.and (.cmp .le (.lit 33) .byte) (.cmp .le .byte (.lit 126))) (.goto (.st 171) .done) .done (.goto (.tr 37) .done)), .st 171⟩
/-- rfc3164/machine.go:3901 -/
def st171 : K × Lbl := ⟨.stmt .incP (.ifElse .pEqPe (.goto (.testEofN 171) .done) .done .done), .stCase 171⟩
/-- rfc3164/machine.go:3905 -/
def stCase171 : K × Lbl := ⟨.ifElse (.cmp .eq .byte (.lit 32)) (.goto (.tr 39) .done) .done (.ifElse (.and (.cmp .le (.lit 33) .byte) (.cmp .le .byte (.lit 126))) (.goto (.st 172) .done) .done (.goto (.tr 37) .done)), .st 172⟩
/-- rfc3164/machine.go:3913 -/
def st172 : K × Lbl := ⟨.stmt .incP (.ifElse .pEqPe (.goto (.testEofN 172) .done) .done .done), .stCase 172⟩
/-- rfc3164/machine.go:3917 -/
def stCase172 : K × Lbl := ⟨.ifElse (.cmp .eq .byte (.lit 32)) (.goto (.tr 39) .done) .done (.ifElse (.and (.cmp .le (.lit 33) .byte) (.cmp .le .byte (.lit 126))) (.goto (.st 173) .done) .done (.goto (.tr 37) .done)), .st 173⟩
/-- rfc3164/machine.go:3925 -/
def st173 : K × Lbl := ⟨.stmt .incP (.ifElse .pEqPe (.goto (.testEofN 173) .done) .done .done), .stCase 173⟩
/-- rfc3164/machine.go:3929 -/
def stCase173 : K × Lbl := ⟨.ifElse (.cmp .eq .byte (.lit 32)) (.goto (.tr 39) .done) .done (.ifElse (.and (.cmp .le (.lit 33) .byte) (.cmp .le .byte (.lit 126))) (.goto (.st 174) .done) .done (.goto (.tr 37) .done)), .st 174⟩
/-- rfc3164/machine.go:3937 -/
def st174 : K × Lbl := ⟨.stmt .incP (.ifElse .pEqPe (.goto (.testEofN 174) .done) .done .done), .stCase 174⟩
/-- rfc3164/machine.go:3941 -/
def stCase174 : K × Lbl := ⟨.ifElse (.cmp .eq .byte (.lit 32)) (.goto (.tr 39) .done) .done (.ifElse (.and (.cmp .le (.lit 33) .byte) (.cmp .le .byte (.lit 126))) (.goto (.st 175) .done) .done (.goto (.tr 37) .done)), .st 175⟩
/-- rfc3164/machine.go:3949 -/
def st175 : K × Lbl := ⟨.stmt .incP (.ifElse .pEqPe (.goto (.testEofN 175) .done) .done .done), .stCase 175⟩
/-- rfc3164/machine.go:3953 -/
def stCase175 : K × Lbl := ⟨.ifElse (.cmp .eq .byte (.lit 32)) (.goto (.tr 39) .done) .done (.ifElse (.and (.cmp .le (.lit 33) .byte) (.cmp .le .byte (.lit 126))) (.goto (.st 176) .done) .done (.goto (.tr 37) .done)), .st 176⟩
/-- rfc3164/machine.go:3961 -/
def st176 : K × Lbl := ⟨.stmt .incP (.ifElse .pEqPe (.goto (.testEofN 176) .done) .done .done), .stCase 176⟩
/-- rfc3164/machine.go:3965 -/
def stCase176 : K × Lbl := ⟨.ifElse (.cmp .eq .byte (.lit 32)) (.goto (.tr 39) .done) .done (.ifElse (.and (.cmp .le (.lit 33) .byte) (.cmp .le .byte (.lit 126))) (.goto (.st 177) .done) .done (.goto (.tr 37) .done)), .st 177⟩
/-- rfc3164/machine.go:3973 -/
def st177 : K × Lbl := ⟨.stmt .incP (.ifElse .pEqPe (.goto (.testEofN 177) .done) .done .done), .stCase 177⟩
/-- rfc3164/machine.go:3977 -/
def stCase177 : K × Lbl := ⟨.ifElse (.cmp .eq .byte (.lit 32)) (.goto (.tr 39) .done) .done (.ifElse (.and (.cmp .le (.lit 33) .byte) (.cmp .le .byte (.lit 126))) (.goto (.st 178) .done) .done (.goto (.tr 37) .done)), .st 178⟩
/-- rfc3164/machine.go:3985 -/
def st178 : K × Lbl := ⟨.stmt .incP (.ifElse .pEqPe (.goto (.testEofN 178) .done) .done .done), .stCase 178⟩
/-- rfc3164/machine.go:3989 -/
def stCase178 : K × Lbl := ⟨.ifElse (.cmp .eq .byte (.lit 32)) (.goto (.tr 39) .done) .done (.ifElse (.and (.cmp .le (.lit 33) .byte) (.cmp .le .byte (.lit 126))) (.goto (.st 179) .done) .done (.goto (.tr 37) .done)), .st 179⟩
/-- rfc3164/machine.go:3997 -/
def st179 : K × Lbl := ⟨.stmt .incP (.ifElse .pEqPe (.goto (.testEofN 179) .done) .done .done), .stCase 179⟩
/-- rfc3164/machine.go:4001 -/
def stCase179 : K × Lbl := ⟨.ifElse (.cmp .eq .byte (.lit 32)) (.goto (.tr 39) .done) .done (.ifElse (.and (.cmp .le (.lit 33) .byte) (.cmp .le .byte (.lit 126))) (.goto (.st 180) .done) .done (.goto (.tr 37) .done)), .st 180⟩
/-- rfc3164/machine.go:4009 -/
def st180 : K × Lbl := ⟨.stmt .incP (.ifElse .pEqPe (.goto (.testEofN 180) .done) .done .done), .stCase 180⟩
/-- rfc3164/machine.go:4013 -/
def stCase180 : K × Lbl := ⟨.ifElse (.cmp .eq .byte (.lit 32)) (.goto (.tr 39) .done) .done (.ifElse (.and (.cmp .le (.lit 33) .byte) (.cmp .le .byte (.lit 126))) (.goto (.st 181) .done) .done (.goto (.tr 37) .done)), .st 181⟩
/-- rfc3164/machine.go:4021 -/
def st181 : K × Lbl := ⟨.stmt .incP (.ifElse .pEqPe (.goto (.testEofN 181) .done) .done .done), .stCase 181⟩
/-- rfc3164/machine.go:4025 -/
def stCase181 : K × Lbl := ⟨.ifElse (.cmp .eq .byte (.lit 32)) (.goto (.tr 39) .done) .done (.ifElse (.and (.cmp .le (.lit 33) .byte) (.cmp .le .byte (.lit 126))) (.goto (.st 182) .done) .done (.goto (.tr 37) .done)), .st 182⟩
/-- rfc3164/machine.go:4033 -/
def st182 : K × Lbl := ⟨.stmt .incP (.ifElse .pEqPe (.goto (.testEofN 182) .done) .done .done), .stCase 182⟩
/-- rfc3164/machine.go:4037 -/
def stCase182 : K × Lbl := ⟨.ifElse (.cmp .eq .byte (.lit 32)) (.goto (.tr 39) .done) .done (.ifElse (.and (.cmp .le (.lit 33) .byte) (.cmp .le .byte (.lit 126))) (.goto (.st 183) .done) .done (.goto (.tr 37) .done)), .st 183⟩
/-- rfc3164/machine.go:4045 -/
def st183 : K × Lbl := ⟨.stmt .incP (.ifElse .pEqPe (.goto (.testEofN 183) .done) .done .done), .stCase 183⟩
/-- rfc3164/machine.go:4049 -/
def stCase183 : K × Lbl := ⟨.ifElse (.cmp .eq .byte (.lit 32)) (.goto (.tr 39) .done) .done (.ifElse (.and (.cmp .le (.lit 33) .byte) (.cmp .le .byte (.lit 126))) (.goto (.st 184) .done) .done (.goto (.tr 37) .done)), .st 184⟩
/-- rfc3164/machine.go:4057 -/
def st184 : K × Lbl := ⟨.stmt .incP (.ifElse .pEqPe (.goto (.testEofN 184) .done) .done .done), .stCase 184⟩
/-- rfc3164/machine.go:4061 -/
def stCase184 : K × Lbl := ⟨.ifElse (.cmp .eq .byte (.lit 32)) (.goto (.tr 39) .done) .done (.ifElse (.and (.cmp .le (.lit 33) .byte) (.cmp .le .byte (.lit 126))) (.goto (.st 185) .done) .done (.goto (.tr 37) .done)), .st 185⟩
/-- rfc3164/machine.go:4069 -/
def st185 : K × Lbl := ⟨.stmt .incP (.ifElse .pEqPe (.goto (.testEofN 185) .done) .done .done), .stCase 185⟩
/-- rfc3164/machine.go:4073 -/
def stCase185 : K × Lbl := ⟨.ifElse (.cmp .eq .byte (.lit 32)) (.goto (.tr 39) .done) .done (.ifElse (.and (.cmp .le (.lit 33) .byte) (.cmp .le .byte (.lit 126))) (.goto (.st 186) .done) .done (.goto (.tr 37) .done)), .st 186⟩
/-- rfc3164/machine.go:4081 -/
def st186 : K × Lbl := ⟨.stmt .incP (.ifElse .pEqPe (.goto (.testEofN 186) .done) .done .done), .stCase 186⟩
/-- rfc3164/machine.go:4085 -/
def stCase186 : K × Lbl := ⟨.ifElse (.cmp .eq .byte (.lit 32)) (.goto (.tr 39) .done) .done (.ifElse (.and (.cmp .le (.lit 33) .byte) (.cmp .le .byte (.lit 126))) (.goto (.st 187) .done) .done (.goto (.tr 37) .done)), .st 187⟩
/-- rfc3164/machine.go:4093 -/
def st187 : K × Lbl := ⟨.stmt .incP (.ifElse .pEqPe (.goto (.testEofN 187) .done) .done .done), .stCase 187⟩
/-- rfc3164/machine.go:4097 -/
def stCase187 : K × Lbl := ⟨.ifElse (.cmp .eq .byte (.lit 32)) (.goto (.tr 39) .done) .done (.ifElse (.and (.cmp .le (.lit 33) .byte) (.cmp .le .byte (.lit 126))) (.goto (.st 188) .done) .done (.goto (.tr 37) .done)), .st 188⟩
/-- rfc3164/machine.go:4105 -/
def st188 : K × Lbl := ⟨.stmt .incP (.ifElse .pEqPe (.goto (.testEofN 188) .done) .done .done), .stCase 188⟩
/-- rfc3164/machine.go:4109 -/
def stCase188 : K × Lbl := ⟨.ifElse (.cmp .eq .byte (.lit 32)) (.goto (.tr 39) .done) .done (.ifElse (.and (.cmp .le (.lit 33) .byte) (.cmp .le .byte (.lit 126))) (.goto (.st 189) .done) .done (.goto (.tr 37) .done)), .st 189⟩
/-- rfc3164/machine.go:4117 -/
def st189 : K × Lbl := ⟨.stmt .incP (.ifElse .pEqPe (.goto (.testEofN 189) .done) .done .done), .stCase 189⟩
/-- rfc3164/machine.go:4121 -/
def stCase189 : K × Lbl := ⟨.ifElse (.cmp .eq .byte (.lit 32)) (.goto (.tr 39) .done) .done (.ifElse (.and (.cmp .le (.lit 33) .byte) (.cmp .le .byte (.lit 126))) (.goto (.st 190) .done) .done (.goto (.tr 37) .done)), .st 190⟩
/-- rfc3164/machine.go:4129 -/
def st190 : K × Lbl := ⟨.stmt .incP (.ifElse .pEqPe (.goto (.testEofN 190) .done) .done .done), .stCase 190⟩
/-- rfc3164/machine.go:4133 -/
def stCase190 : K × Lbl := ⟨.ifElse (.cmp .eq .byte (.lit 32)) (.goto (.tr 39) .done) .done (.ifElse (.and (.cmp .le (.lit 33) .byte) (.cmp .le .byte (.lit 126))) (.goto (.st 191) .done) .done (.goto (.tr 37) .done)), .st 191⟩
/-- rfc3164/machine.go:4141 -/
def st191 : K × Lbl := ⟨.stmt .incP (.ifElse .pEqPe (.goto (.testEofN 191) .done) .done .done), .stCase 191⟩
/-- rfc3164/machine.go:4145 -/
def stCase191 : K × Lbl := ⟨.ifElse (.cmp .eq .byte (.lit 32)) (.goto (.tr 39) .done) .done (.ifElse (.and (.cmp .le (.lit 33) .byte) (.cmp .le .byte (.lit 126))) (.goto (.st 192) .done) .done (.goto (.tr 37) .done)), .st 192⟩
/-- rfc3164/machine.go:4153 -/
def st192 : K × Lbl := ⟨.stmt .incP (.ifElse .pEqPe (.goto (.testEofN 192) .done) .done .done), .stCase 192⟩
/-- rfc3164/machine.go:4157 -/
def stCase192 : K × Lbl := ⟨.ifElse (.cmp .eq .byte (.lit 32)) (.goto (.tr 39) .done) .done (.ifElse (.and (.cmp .le (.lit 33) .byte) (.cmp .le .byte (.lit 126))) (.goto (.st 193) .done) .done (.goto (.tr 37) .done)), .st 193⟩
/-- rfc3164/machine.go:4165 -/
def st193 : K × Lbl := ⟨.stmt .incP (.ifElse .pEqPe (.goto (.testEofN 193) .done) .done .done), .stCase 193⟩
/-- rfc3164/machine.go:4169 -/
def stCase193 : K × Lbl := ⟨.ifElse (.cmp .eq .byte (.lit 32)) (.goto (.tr 39) .done) .done (.ifElse (.and (.cmp .le (.lit 33) .byte) (.cmp .le .byte (.lit 126))) (.goto (.st 194) .done) .done (.goto (.tr 37) .done)), .st 194⟩
/-- rfc3164/machine.go:4177 -/
def st194 : K × Lbl := ⟨.stmt .incP (.ifElse .pEqPe (.goto (.testEofN 194) .done) .done .done), .stCase 194⟩
/-- rfc3164/machine.go:4181 -/
def stCase194 : K × Lbl := ⟨.ifElse (.cmp .eq .byte (.lit 32)) (.goto (.tr 39) .done) .done (.ifElse (.and (.cmp .le (.lit 33) .byte) (.cmp .le .byte (.lit 126))) (.goto (.st 195) .done) .done (.goto (.tr 37) .done)), .st 195⟩
/-- rfc3164/machine.go:4189 -/
def st195 : K × Lbl := ⟨.stmt .incP (.ifElse .pEqPe (.goto (.testEofN 195) .done) .done .done), .stCase 195⟩
/-- rfc3164/machine.go:4193 -/
def stCase195 : K × Lbl := ⟨.ifElse (.cmp .eq .byte (.lit 32)) (.goto (.tr 39) .done) .done (.ifElse (.and (.cmp .le (.lit 33) .byte) (.cmp .le .byte (.lit 126))) (.goto (.st 196) .done) .done (.goto (.tr 37) .done)), .st 196⟩
/-- rfc3164/machine.go:4201 -/
def st196 : K × Lbl := ⟨.stmt .incP (.ifElse .pEqPe (.goto (.testEofN 196) .done) .done .done), .stCase 196⟩
/-- rfc3164/machine.go:4205 -/
def stCase196 : K × Lbl := ⟨.ifElse (.cmp .eq .byte (.lit 32)) (.goto (.tr 39) .done) .done (.ifElse (.and (.cmp .le (.lit 33) .byte) (.cmp .le .byte (.lit 126))) (.goto (.st 197) .done) .done (.goto (.tr 37) .done)), .st 197⟩
/-- rfc3164/machine.go:4213 -/
def st197 : K × Lbl := ⟨.stmt .incP (.ifElse .pEqPe (.goto (.testEofN 197) .done) .done .done), .stCase 197⟩
/-- rfc3164/machine.go:4217 -/
def stCase197 : K × Lbl := ⟨.ifElse (.cmp .eq .byte (.lit 32)) (.goto (.tr 39) .done) .done (.ifElse (.and (.cmp .le (.lit 33) .byte) (.cmp .le .byte (.lit 126))) (.goto (.st 198) .done) .done (.goto (.tr 37) .done)), .st 198⟩
/-- rfc3164/machine.go:4225 -/
def st198 : K × Lbl := ⟨.stmt .incP (.ifElse .pEqPe (.goto (.testEofN 198) .done) .done .done), .stCase 198⟩
/-- rfc3164/machine.go:4229 -/
def stCase198 : K × Lbl := ⟨.ifElse (.cmp .eq .byte (.lit 32)) (.goto (.tr 39) .done) .done (.ifElse (.and (.cmp .le (.lit 33) .byte) (.cmp .le .byte (.lit 126))) (.goto (.st 199) .done) .done (.goto (.tr 37) .done)), .st 199⟩
/-- rfc3164/machine.go:4237 -/
def st199 : K × Lbl := ⟨.stmt .incP (.ifElse .pEqPe (.goto (.testEofN 199) .done) .done .done), .stCase 199⟩
/-- rfc3164/machine.go:4241 -/
def stCase199 : K × Lbl := ⟨.ifElse (.cmp .eq .byte (.lit 32)) (.goto (.tr 39) .done) .done (.ifElse (.and (.cmp .le (.lit 33) .byte) (.cmp .le .byte (.lit 126))) (.goto (.st 200) .done) .done (.goto (.tr 37) .done)), .st 200⟩
/-- rfc3164/machine.go:4249 -/
def st200 : K × Lbl := ⟨.stmt .incP (.ifElse .pEqPe (.goto (.testEofN 200) .done) .done .done), .stCase 200⟩
/-- rfc3164/machine.go:4253 -/
def stCase200 : K × Lbl := ⟨.ifElse (.cmp .eq .byte (.lit 32)) (.goto (.tr 39) .done) .done (.ifElse (.and (.cmp .le (.lit 33) .byte) (.cmp .le .byte (.lit 126))) (.goto (.st 201) .done) .done (.goto (.tr 37) .done)), .st 201⟩
/-- rfc3164/machine.go:4261 -/
def st201 : K × Lbl := ⟨.stmt .incP (.ifElse .pEqPe (.goto (.testEofN 201) .done) .done .done), .stCase 201⟩
/-- rfc3164/machine.go:4265 -/
def stCase201 : K × Lbl := ⟨.ifElse (.cmp .eq .byte (.lit 32)) (.goto (.tr 39) .done) .done (.ifElse (.and (.cmp .le (.lit 33) .byte) (.cmp .le .byte (.lit 126))) (.goto (.st 202) .done) .done (.goto (.tr 37) .done)), .st 202⟩
/-- rfc3164/machine.go:4273 -/
def st202 : K × Lbl := ⟨.stmt .incP (.ifElse .pEqPe (.goto (.testEofN 202) .done) .done .done), .stCase 202⟩
/-- rfc3164/machine.go:4277 -/
def stCase202 : K × Lbl := ⟨.ifElse (.cmp .eq .byte (.lit 32)) (.goto (.tr 39) .done) .done (.ifElse (.and (.cmp .le (.lit 33) .byte) (.cmp .le .byte (.lit 126))) (.goto (.st 203) .done) .done (.goto (.tr 37) .done)), .st 203⟩
/-- rfc3164/machine.go:4285 -/
def st203 : K × Lbl := ⟨.stmt .incP (.ifElse .pEqPe (.goto (.testEofN 203) .done) .done .done), .stCase 203⟩
/-- rfc3164/machine.go:4289 -/
def stCase203 : K × Lbl := ⟨.ifElse (.cmp .eq .byte (.lit 32)) (.goto (.tr 39) .done) .done (.ifElse (.and (.cmp .le (.lit 33) .byte) (.cmp .le .byte (.lit 126))) (.goto (.st 204) .done) .done (.goto (.tr 37) .done)), .st 204⟩
/-- rfc3164/machine.go:4297 -/
def st204 : K × Lbl := ⟨.stmt .incP (.ifElse .pEqPe (.goto (.testEofN 204) .done) .done .done), .stCase 204⟩
/-- rfc3164/machine.go:4301 -/
def stCase204 : K × Lbl := ⟨.ifElse (.cmp .eq .byte (.lit 32)) (.goto (.tr 39) .done) .done (.ifElse (.and (.cmp .le (.lit 33) .byte) (.cmp .le .byte (.lit 126))) (.goto (.st 205) .done) .done (.goto (.tr 37) .done)), .st 205⟩
/-- rfc3164/machine.go:4309 -/
def st205 : K × Lbl := ⟨.stmt .incP (.ifElse .pEqPe (.goto (.testEofN 205) .done) .done .done), .stCase 205⟩
/-- rfc3164/machine.go:4313 -/
def stCase205 : K × Lbl := ⟨.ifElse (.cmp .eq .byte (.lit 32)) (.goto (.tr 39) .done) .done (.ifElse (.and (.cmp .le (.lit 33) .byte) (.cmp .le .byte (.lit 126))) (.goto (.st 206) .done) .done (.goto (.tr 37) .done)), .st 206⟩
/-- rfc3164/machine.go:4321 -/
def st206 : K × Lbl := ⟨.stmt .incP (.ifElse .pEqPe (.goto (.testEofN 206) .done) .done .done), .stCase 206⟩
/-- rfc3164/machine.go:4325 -/
def stCase206 : K × Lbl := ⟨.ifElse (.cmp .eq .byte (.lit 32)) (.goto (.tr 39) .done) .done (.ifElse (.and (.cmp .le (.lit 33) .byte) (.cmp .le .byte (.lit 126))) (.goto (.st 207) .done) .done (.goto (.tr 37) .done)), .st 207⟩
/-- rfc3164/machine.go:4333 -/
def st207 : K × Lbl := ⟨.stmt .incP (.ifElse .pEqPe (.goto (.testEofN 207) .done) .done .done), .stCase 207⟩
/-- rfc3164/machine.go:4337 -/
def stCase207 : K × Lbl := ⟨.ifElse (.cmp .eq .byte (.lit 32)) (.goto (.tr 39) .done) .done (.ifElse (.and (.cmp .le (.lit 33) .byte) (.cmp .le .byte (.lit 126))) (.goto (.st 208) .done) .done (.goto (.tr 37) .done)), .st 208⟩
/-- rfc3164/machine.go:4345 -/
def st208 : K × Lbl := ⟨.stmt .incP (.ifElse .pEqPe (.goto (.testEofN 208) .done) .done .done), .stCase 208⟩
/-- rfc3164/machine.go:4349 -/
def stCase208 : K × Lbl := ⟨.ifElse (.cmp .eq .byte (.lit 32)) (.goto (.tr 39) .done) .done (.ifElse (.and (.cmp .le (.lit 33) .byte) (.cmp .le .byte (.lit 126))) (.goto (.st 209) .done) .done (.goto (.tr 37) .done)), .st 209⟩
/-- rfc3164/machine.go:4357 -/
def st209 : K × Lbl := ⟨.stmt .incP (.ifElse .pEqPe (.goto (.testEofN 209) .done) .done .done), .stCase 209⟩
/-- rfc3164/machine.go:4361 -/
def stCase209 : K × Lbl := ⟨.ifElse (.cmp .eq .byte (.lit 32)) (.goto (.tr 39) .done) .done (.ifElse (.and (.cmp .le (.lit 33) .byte) (.cmp .le .byte (.lit 126))) (.goto (.st 210) .done) .done (.goto (.tr 37) .done)), .st 210⟩
/-- rfc3164/machine.go:4369 -/
def st210 : K × Lbl := ⟨.stmt .incP (.ifElse .pEqPe (.goto (.testEofN 210) .done) .done .done), .stCase 210⟩
/-- rfc3164/machine.go:4373 -/
def stCase210 : K × Lbl := ⟨.ifElse (.cmp .eq .byte (.lit 32)) (.goto (.tr 39) .done) .done (.ifElse (.and (.cmp .le (.lit 33) .byte) (.cmp .le .byte (.lit 126))) (.goto (.st 211) .done) .done (.goto (.tr 37) .done)), .st 211⟩
/-- rfc3164/machine.go:4381 -/
def st211 : K × Lbl := ⟨.stmt .incP (.ifElse .pEqPe (.goto (.testEofN 211) .done) .done .done), .stCase 211⟩
/-- rfc3164/machine.go:4385 -/
def stCase211 : K × Lbl := ⟨.ifElse (.cmp .eq .byte (.lit 32)) (.goto (.tr 39) .done) .done (.ifElse (.and (.cmp .le (.lit 33) .byte) (.cmp .le .byte (.lit 126))) (.goto (.st 212) .done) .done (.goto (.tr 37) .done)), .st 212⟩
/-- rfc3164/machine.go:4393 -/
def st212 : K × Lbl := ⟨.stmt .incP (.ifElse .pEqPe (.goto (.testEofN 212) .done) .done .done), .stCase 212⟩
/-- rfc3164/machine.go:4397 -/
def stCase212 : K × Lbl := ⟨.ifElse (.cmp .eq .byte (.lit 32)) (.goto (.tr 39) .done) .done (.ifElse (.and (.cmp .le (.lit 33) .byte) (.cmp .le .byte (.lit 126))) (.goto (.st 213) .done) .done (.goto (.tr 37) .done)), .st 213⟩
/-- rfc3164/machine.go:4405 -/
def st213 : K × Lbl := ⟨.stmt .incP (.ifElse .pEqPe (.goto (.testEofN 213) .done) .done .done), .stCase 213⟩
/-- rfc3164/machine.go:4409 -/
def stCase213 : K × Lbl := ⟨.ifElse (.cmp .eq .byte (.lit 32)) (.goto (.tr 39) .done) .done (.ifElse (.and (.cmp .le (.lit 33) .byte) (.cmp .le .byte (.lit 126))) (.goto (.st 214) .done) .done (.goto (.tr 37) .done)), .st 214⟩
/-- rfc3164/machine.go:4417 -/
def st214 : K × Lbl := ⟨.stmt .incP (.ifElse .pEqPe (.goto (.testEofN 214) .done) .done .done), .stCase 214⟩
/-- rfc3164/machine.go:4421 -/
def stCase214 : K × Lbl := ⟨.ifElse (.cmp .eq .byte (.lit 32)) (.goto (.tr 39) .done) .done (.ifElse (.and (.cmp .le (.lit 33) .byte) (.cmp .le .byte (.lit 126))) (.goto (.st 215) .done) .done (.goto (.tr 37) .done)), .st 215⟩
/-- rfc3164/machine.go:4429 -/
def st215 : K × Lbl := ⟨.stmt .incP (.ifElse .pEqPe (.goto (.testEofN 215) .done) .done .done), .stCase 215⟩
/-- rfc3164/machine.go:4433 -/
def stCase215 : K × Lbl := ⟨.ifElse (.cmp .eq .byte (.lit 32)) (.goto (.tr 39) .done) .done (.ifElse (.and (.cmp .le (.lit 33) .byte) (.cmp .le .byte (.lit 126))) (.goto (.st 216) .done) .done (.goto (.tr 37) .done)), .st 216⟩
/-- rfc3164/machine.go:4441 -/
def st216 : K × Lbl := ⟨.stmt .incP (.ifElse .pEqPe (.goto (.testEofN 216) .done) .done .done), .stCase 216⟩
/-- rfc3164/machine.go:4445 -/
def stCase216 : K × Lbl := ⟨.ifElse (.cmp .eq .byte (.lit 32)) (.goto (.tr 39) .done) .done (.ifElse (.and (.cmp .le (.lit 33) .byte) (.cmp .le .byte (.lit 126))) (.goto (.st 217) .done) .done (.goto (.tr 37) .done)), .st 217⟩
/-- rfc3164/machine.go:4453 -/
def st217 : K × Lbl := ⟨.stmt .incP (.ifElse .pEqPe (.goto (.testEofN 217) .done) .done .done), .stCase 217⟩
/-- rfc3164/machine.go:4457 -/
def stCase217 : K × Lbl := ⟨.ifElse (.cmp .eq .byte (.lit 32)) (.goto (.tr 39) .done) .done (.ifElse (.and (.cmp .le (.lit 33) .byte) (.cmp .le .byte (.lit 126))) (.goto (.st 218) .done) .done (.goto (.tr 37) .done)), .st 218⟩
/-- rfc3164/machine.go:4465 -/
def st218 : K × Lbl := ⟨.stmt .incP (.ifElse .pEqPe (.goto (.testEofN 218) .done) .done .done), .stCase 218⟩
/-- rfc3164/machine.go:4469 -/
def stCase218 : K × Lbl := ⟨.ifElse (.cmp .eq .byte (.lit 32)) (.goto (.tr 39) .done) .done (.ifElse (.and (.cmp .le (.lit 33) .byte) (.cmp .le .byte (.lit 126))) (.goto (.st 219) .done) .done (.goto (.tr 37) .done)), .st 219⟩
/-- rfc3164/machine.go:4477 -/
def st219 : K × Lbl := ⟨.stmt .incP (.ifElse .pEqPe (.goto (.testEofN 219) .done) .done .done), .stCase 219⟩
/-- rfc3164/machine.go:4481 -/
def stCase219 : K × Lbl := ⟨.ifElse (.cmp .eq .byte (.lit 32)) (.goto (.tr 39) .done) .done (.ifElse (.and (.cmp .le (.lit 33) .byte) (.cmp .le .byte (.lit 126))) (.goto (.st 220) .done) .done (.goto (.tr 37) .done)), .st 220⟩
/-- rfc3164/machine.go:4489 -/
def st220 : K × Lbl := ⟨.stmt .incP (.ifElse .pEqPe (.goto (.testEofN 220) .done) .done .done), .stCase 220⟩
/-- rfc3164/machine.go:4493 -/
def stCase220 : K × Lbl := ⟨.ifElse (.cmp .eq .byte (.lit 32)) (.goto (.tr 39) .done) .done (.ifElse (.and (.cmp .le (.lit 33) .byte) (.cmp .le .byte (.lit 126))) (.goto (.st 221) .done) .done (.goto (.tr 37) .done)), .st 221⟩
/-- rfc3164/machine.go:4501 -/
def st221 : K × Lbl := ⟨.stmt .incP (.ifElse .pEqPe (.goto (.testEofN 221) .done) .done .done), .stCase 221⟩
/-- rfc3164/machine.go:4505 -/
def stCase221 : K × Lbl := ⟨.ifElse (.cmp .eq .byte (.lit 32)) (.goto (.tr 39) .done) .done (.ifElse (.and (.cmp .le (.lit 33) .byte) (.cmp .le .byte (.lit 126))) (.goto (.st 222) .done) .done (.goto (.tr 37) .done)), .st 222⟩
/-- rfc3164/machine.go:4513 -/
def st222 : K × Lbl := ⟨.stmt .incP (.ifElse .pEqPe (.goto (.testEofN 222) .done) .done .done), .stCase 222⟩
/-- rfc3164/machine.go:4517 -/
def stCase222 : K × Lbl := ⟨.ifElse (.cmp .eq .byte (.lit 32)) (.goto (.tr 39) .done) .done (.ifElse (.and (.cmp .le (.lit 33) .byte) (.cmp .le .byte (.lit 126))) (.goto (.st 223) .done) .done (.goto (.tr 37) .done)), .st 223⟩
/-- rfc3164/machine.go:4525 -/
def st223 : K × Lbl := ⟨.stmt .incP (.ifElse .pEqPe (.goto (.testEofN 223) .done) .done .done), .stCase 223⟩
/-- rfc3164/machine.go:4529 -/
def stCase223 : K × Lbl := ⟨.ifElse (.cmp .eq .byte (.lit 32)) (.goto (.tr 39) .done) .done (.ifElse (.and (.cmp .le (.lit 33) .byte) (.cmp .le .byte (.lit 126))) (.goto (.st 224) .done) .done (.goto (.tr 37) .done)), .st 224⟩
/-- rfc3164/machine.go:4537 -/
def st224 : K × Lbl := ⟨.stmt .incP (.ifElse .pEqPe (.goto (.testEofN 224) .done) .done .done), .stCase 224⟩
/-- rfc3164/machine.go:4541 -/
def stCase224 : K × Lbl := ⟨.ifElse (.cmp .eq .byte (.lit 32)) (.goto (.tr 39) .done) .done (.ifElse (.and (.cmp .le (.lit 33) .byte) (.cmp .le .byte (.lit 126))) (.goto (.st 225) .done) .done (.goto (.tr 37) .done)), .st 225⟩
/-- rfc3164/machine.go:4549 -/
def st225 : K × Lbl := ⟨.stmt .incP (.ifElse .pEqPe (.goto (.testEofN 225) .done) .done .done), .stCase 225⟩
/-- rfc3164/machine.go:4553 -/
def stCase225 : K × Lbl := ⟨.ifElse (.cmp .eq .byte (.lit 32)) (.goto (.tr 39) .done) .done (.ifElse (.and (.cmp .le (.lit 33) .byte) (.cmp .le .byte (.lit 126))) (.goto (.st 226) .done) .done (.goto (.tr 37) .done)), .st 226⟩
/-- rfc3164/machine.go:4561 -/
def st226 : K × Lbl := ⟨.stmt .incP (.ifElse .pEqPe (.goto (.testEofN 226) .done) .done .done), .stCase 226⟩
/-- rfc3164/machine.go:4565 -/
def stCase226 : K × Lbl := ⟨.ifElse (.cmp .eq .byte (.lit 32)) (.goto (.tr 39) .done) .done (.ifElse (.and (.cmp .le (.lit 33) .byte) (.cmp .le .byte (.lit 126))) (.goto (.st 227) .done) .done (.goto (.tr 37) .done)), .st 227⟩
/-- rfc3164/machine.go:4573 -/
def st227 : K × Lbl := ⟨.stmt .incP (.ifElse .pEqPe (.goto (.testEofN 227) .done) .done .done), .stCase 227⟩
/-- rfc3164/machine.go:4577 -/
def stCase227 : K × Lbl := ⟨.ifElse (.cmp .eq .byte (.lit 32)) (.goto (.tr 39) .done) .done (.ifElse (.and (.cmp .le (.lit 33) .byte) (.cmp .le .byte (.lit 126))) (.goto (.st 228) .done) .done (.goto (.tr 37) .done)), .st 228⟩
/-- rfc3164/machine.go:4585 -/
def st228 : K × Lbl := ⟨.stmt .incP (.ifElse .pEqPe (.goto (.testEofN 228) .done) .done .done), .stCase 228⟩
/-- rfc3164/machine.go:4589 -/
def stCase228 : K × Lbl := ⟨.ifElse (.cmp .eq .byte (.lit 32)) (.goto (.tr 39) .done) .done (.ifElse (.and (.cmp .le (.lit 33) .byte) (.cmp .le .byte (.lit 126))) (.goto (.st 229) .done) .done (.goto (.tr 37) .done)), .st 229⟩
/-- rfc3164/machine.go:4597 -/
def st229 : K × Lbl := ⟨.stmt .incP (.ifElse .pEqPe (.goto (.testEofN 229) .done) .done .done), .stCase 229⟩
/-- rfc3164/machine.go:4601 -/
def stCase229 : K × Lbl := ⟨.ifElse (.cmp .eq .byte (.lit 32)) (.goto (.tr 39) .done) .done (.ifElse (.and (.cmp .le (.lit 33) .byte) (.cmp .le .byte (.lit 126))) (.goto (.st 230) .done) .done (.goto (.tr 37) .done)), .st 230⟩
/-- rfc3164/machine.go:4609 -/
def st230 : K × Lbl := ⟨.stmt .incP (.ifElse .pEqPe (.goto (.testEofN 230) .done) .done .done), .stCase 230⟩
/-- rfc3164/machine.go:4613 -/
def stCase230 : K × Lbl := ⟨.ifElse (.cmp .eq .byte (.lit 32)) (.goto (.tr 39) .done) .done (.ifElse (.and (.cmp .le (.lit 33) .byte) (.cmp .le .byte (.lit 126))) (.goto (.st 231) .done) .done (.goto (.tr 37) .done)), .st 231⟩
/-- rfc3164/machine.go:4621 -/
def st231 : K × Lbl := ⟨.stmt .incP (.ifElse .pEqPe (.goto (.testEofN 231) .done) .done .done), .stCase 231⟩
/-- rfc3164/machine.go:4625 -/
def stCase231 : K × Lbl := ⟨.ifElse (.cmp .eq .byte (.lit 32)) (.goto (.tr 39) .done) .done (.ifElse (.and (.cmp .le (.lit 33) .byte) (.cmp .le .byte (.lit 126))) (.goto (.st 232) .done) .done (.goto (.tr 37) .done)), .st 232⟩
/-- rfc3164/machine.go:4633 -/
def st232 : K × Lbl := ⟨.stmt .incP (.ifElse .pEqPe (.goto (.testEofN 232) .done) .done .done), .stCase 232⟩
/-- rfc3164/machine.go:4637 -/
def stCase232 : K × Lbl := ⟨.ifElse (.cmp .eq .byte (.lit 32)) (.goto (.tr 39) .done) .done (.ifElse (.and (.cmp .le (.lit 33) .byte) (.cmp .le .byte (.lit 126))) (.goto (.st 233) .done) .done (.goto (.tr 37) .done)), .st 233⟩
/-- rfc3164/machine.go:4645 -/
def st233 : K × Lbl := ⟨.stmt .incP (.ifElse .pEqPe (.goto (.testEofN 233) .done) .done .done), .stCase 233⟩
/-- rfc3164/machine.go:4649 -/
def stCase233 : K × Lbl := ⟨.ifElse (.cmp .eq .byte (.lit 32)) (.goto (.tr 39) .done) .done (.ifElse (.and (.cmp .le (.lit 33) .byte) (.cmp .le .byte (.lit 126))) (.goto (.st 234) .done) .done (.goto (.tr 37) .done)), .st 234⟩
/-- rfc3164/machine.go:4657 -/
def st234 : K × Lbl := ⟨.stmt .incP (.ifElse .pEqPe (.goto (.testEofN 234) .done) .done .done), .stCase 234⟩
/-- rfc3164/machine.go:4661 -/
def stCase234 : K × Lbl := ⟨.ifElse (.cmp .eq .byte (.lit 32)) (.goto (.tr 39) .done) .done (.ifElse (.and (.cmp .le (.lit 33) .byte) (.cmp .le .byte (.lit 126))) (.goto (.st 235) .done) .done (.goto (.tr 37) .done)), .st 235⟩
/-- rfc3164/machine.go:4669 -/
def st235 : K × Lbl := ⟨.stmt .incP (.ifElse .pEqPe (.goto (.testEofN 235) .done) .done .done), .stCase 235⟩
/-- rfc3164/machine.go:4673 -/
def stCase235 : K × Lbl := ⟨.ifElse (.cmp .eq .byte (.lit 32)) (.goto (.tr 39) .done) .done (.ifElse (.and (.cmp .le (.lit 33) .byte) (.cmp .le .byte (.lit 126))) (.goto (.st 236) .done) .done (.goto (.tr 37) .done)), .st 236⟩
/-- rfc3164/machine.go:4681 -/
def st236 : K × Lbl := ⟨.stmt .incP (.ifElse .pEqPe (.goto (.testEofN 236) .done) .done .done), .stCase 236⟩
/-- rfc3164/machine.go:4685 -/
def stCase236 : K × Lbl := ⟨.ifElse (.cmp .eq .byte (.lit 32)) (.goto (.tr 39) .done) .done (.ifElse (.and (.cmp .le (.lit 33) .byte) (.cmp .le .byte (.lit 126))) (.goto (.st 237) .done) .done (.goto (.tr 37) .done)), .st 237⟩
/-- rfc3164/machine.go:4693 -/
def st237 : K × Lbl := ⟨.stmt .incP (.ifElse .pEqPe (.goto (.testEofN 237) .done) .done .done), .stCase 237⟩
/-- rfc3164/machine.go:4697 -/
def stCase237 : K × Lbl := ⟨.ifElse (.cmp .eq .byte (.lit 32)) (.goto (.tr 39) .done) .done (.ifElse (.and (.cmp .le (.lit 33) .byte) (.cmp .le .byte (.lit 126))) (.goto (.st 238) .done) .done (.goto (.tr 37) .done)), .st 238⟩
/-- rfc3164/machine.go:4705 -/
def st238 : K × Lbl := ⟨.stmt .incP (.ifElse .pEqPe (.goto (.testEofN 238) .done) .done .done), .stCase 238⟩
/-- rfc3164/machine.go:4709 -/
def stCase238 : K × Lbl := ⟨.ifElse (.cmp .eq .byte (.lit 32)) (.goto (.tr 39) .done) .done (.ifElse (.and (.cmp .le (.lit 33) .byte) (.cmp .le .byte (.lit 126))) (.goto (.st 239) .done) .done (.goto (.tr 37) .done)), .st 239⟩
/-- rfc3164/machine.go:4717 -/
def st239 : K × Lbl := ⟨.stmt .incP (.ifElse .pEqPe (.goto (.testEofN 239) .done) .done .done), .stCase 239⟩
/-- rfc3164/machine.go:4721 -/
def stCase239 : K × Lbl := ⟨.ifElse (.cmp .eq .byte (.lit 32)) (.goto (.tr 39) .done) .done (.ifElse (.and (.cmp .le (.lit 33) .byte) (.cmp .le .byte (.lit 126))) (.goto (.st 240) .done) .done (.goto (.tr 37) .done)), .st 240⟩
/-- rfc3164/machine.go:4729 -/
def st240 : K × Lbl := ⟨.stmt .incP (.ifElse .pEqPe (.goto (.testEofN 240) .done) .done .done), .stCase 240⟩
/-- rfc3164/machine.go:4733 -/
def stCase240 : K × Lbl := ⟨.ifElse (.cmp .eq .byte (.lit 32)) (.goto (.tr 39) .done) .done (.ifElse (.and (.cmp .le (.lit 33) .byte) (.cmp .le .byte (.lit 126))) (.goto (.st 241) .done) .done (.goto (.tr 37) .done)), .st 241⟩
/-- rfc3164/machine.go:4741 -/
def st241 : K × Lbl := ⟨.stmt .incP (.ifElse .pEqPe (.goto (.testEofN 241) .done) .done .done), .stCase 241⟩
/-- rfc3164/machine.go:4745 -/
def stCase241 : K × Lbl := ⟨.ifElse (.cmp .eq .byte (.lit 32)) (.goto (.tr 39) .done) .done (.ifElse (.and (.cmp .le (.lit 33) .byte) (.cmp .le .byte (.lit 126))) (.goto (.st 242) .done) .done (.goto (.tr 37) .done)), .st 242⟩
/-- rfc3164/machine.go:4753 -/
def st242 : K × Lbl := ⟨.stmt .incP (.ifElse .pEqPe (.goto (.testEofN 242) .done) .done .done), .stCase 242⟩
/-- rfc3164/machine.go:4757 -/
def stCase242 : K × Lbl := ⟨.ifElse (.cmp .eq .byte (.lit 32)) (.goto (.tr 39) .done) .done (.ifElse (.and (.cmp .le (.lit 33) .byte) (.cmp .le .byte (.lit 126))) (.goto (.st 243) .done) .done (.goto (.tr 37) .done)), .st 243⟩
/-- rfc3164/machine.go:4765 -/
def st243 : K × Lbl := ⟨.stmt .incP (.ifElse .pEqPe (.goto (.testEofN 243) .done) .done .done), .stCase 243⟩
/-- rfc3164/machine.go:4769 -/
def stCase243 : K × Lbl := ⟨.ifElse (.cmp .eq .byte (.lit 32)) (.goto (.tr 39) .done) .done (.ifElse (.and (.cmp .le (.lit 33) .byte) (.cmp .le .byte (.lit 126))) (.goto (.st 244) .done) .done (.goto (.tr 37) .done)), .st 244⟩
/-- rfc3164/machine.go:4777 -/
def st244 : K × Lbl := ⟨.stmt .incP (.ifElse .pEqPe (.goto (.testEofN 244) .done) .done .done), .stCase 244⟩
/-- rfc3164/machine.go:4781 -/
def stCase244 : K × Lbl := ⟨.ifElse (.cmp .eq .byte (.lit 32)) (.goto (.tr 39) .done) .done (.ifElse (.and (.cmp .le (.lit 33) .byte) (.cmp .le .byte (.lit 126))) (.goto (.st 245) .done) .done (.goto (.tr 37) .done)), .st 245⟩
/-- rfc3164/machine.go:4789 -/
def st245 : K × Lbl := ⟨.stmt .incP (.ifElse .pEqPe (.goto (.testEofN 245) .done) .done .done), .stCase 245⟩
/-- rfc3164/machine.go:4793 -/
def stCase245 : K × Lbl := ⟨.ifElse (.cmp .eq .byte (.lit 32)) (.goto (.tr 39) .done) .done (.ifElse (.and (.cmp .le (.lit 33) .byte) (.cmp .le .byte (.lit 126))) (.goto (.st 246) .done) .done (.goto (.tr 37) .done)), .st 246⟩
/-- rfc3164/machine.go:4801 -/
def st246 : K × Lbl := ⟨.stmt .incP (.ifElse .pEqPe (.goto (.testEofN 246) .done) .done .done), .stCase 246⟩
/-- rfc3164/machine.go:4805 -/
def stCase246 : K × Lbl := ⟨.ifElse (.cmp .eq .byte (.lit 32)) (.goto (.tr 39) .done) .done (.ifElse (.and (.cmp .le (.lit 33) .byte) (.cmp .le .byte (.lit 126))) (.goto (.st 247) .done) .done (.goto (.tr 37) .done)), .st 247⟩
/-- rfc3164/machine.go:4813 -/
def st247 : K × Lbl := ⟨.stmt .incP (.ifElse .pEqPe (.goto (.testEofN 247) .done) .done .done), .stCase 247⟩
/-- rfc3164/machine.go:4817 -/
def stCase247 : K × Lbl := ⟨.ifElse (.cmp .eq .byte (.lit 32)) (.goto (.tr 39) .done) .done (.ifElse (.and (.cmp .le (.lit 33) .byte) (.cmp .le .byte (.lit 126))) (.goto (.st 248) .done) .done (.goto (.tr 37) .done)), .st 248⟩
/-- rfc3164/machine.go:4825 -/
def st248 : K × Lbl := ⟨.stmt .incP (.ifElse .pEqPe (.goto (.testEofN 248) .done) .done .done), .stCase 248⟩
/-- rfc3164/machine.go:4829 -/
def stCase248 : K × Lbl := ⟨.ifElse (.cmp .eq .byte (.lit 32)) (.goto (.tr 39) .done) .done (.ifElse (.and (.cmp .le (.lit 33) .byte) (.cmp .le .byte (.lit 126))) (.goto (.st 249) .done) .done (.goto (.tr 37) .done)), .st 249⟩
/-- rfc3164/machine.go:4837 -/
def st249 : K × Lbl := ⟨.stmt .incP (.ifElse .pEqPe (.goto (.testEofN 249) .done) .done .done), .stCase 249⟩
/-- rfc3164/machine.go:4841 -/
def stCase249 : K × Lbl := ⟨.ifElse (.cmp .eq .byte (.lit 32)) (.goto (.tr 39) .done) .done (.ifElse (.and (.cmp .le (.lit 33) .byte) (.cmp .le .byte (.lit 126))) (.goto (.st 250) .done) .done (.goto (.tr 37) .done)), .st 250⟩
/-- rfc3164/machine.go:4849 -/
def st250 : K × Lbl := ⟨.stmt .incP (.ifElse .pEqPe (.goto (.testEofN 250) .done) .done .done), .stCase 250⟩
/-- rfc3164/machine.go:4853 -/
def stCase250 : K × Lbl := ⟨.ifElse (.cmp .eq .byte (.lit 32)) (.goto (.tr 39) .done) .done (.ifElse (.and (.cmp .le (.lit 33) .byte) (.cmp .le .byte (.lit 126))) (.goto (.st 251) .done) .done (.goto (.tr 37) .done)), .st 251⟩
/-- rfc3164/machine.go:4861 -/
def st251 : K × Lbl := ⟨.stmt .incP (.ifElse .pEqPe (.goto (.testEofN 251) .done) .done .done), .stCase 251⟩
/-- rfc3164/machine.go:4865 -/
def stCase251 : K × Lbl := ⟨.ifElse (.cmp .eq .byte (.lit 32)) (.goto (.tr 39) .done) .done (.ifElse (.and (.cmp .le (.lit 33) .byte) (.cmp .le .byte (.lit 126))) (.goto (.st 252) .done) .done (.goto (.tr 37) .done)), .st 252⟩
/-- rfc3164/machine.go:4873 -/
def st252 : K × Lbl := ⟨.stmt .incP (.ifElse .pEqPe (.goto (.testEofN 252) .done) .done .done), .stCase 252⟩
/-- rfc3164/machine.go:4877 -/
def stCase252 : K × Lbl := ⟨.ifElse (.cmp .eq .byte (.lit 32)) (.goto (.tr 39) .done) .done (.ifElse (.and (.cmp .le (.lit 33) .byte) (.cmp .le .byte (.lit 126))) (.goto (.st 253) .done) .done (.goto (.tr 37) .done)), .st 253⟩
/-- rfc3164/machine.go:4885 -/
def st253 : K × Lbl := ⟨.stmt .incP (.ifElse .pEqPe (.goto (.testEofN 253) .done) .done .done), .stCase 253⟩
/-- rfc3164/machine.go:4889 -/
def stCase253 : K × Lbl := ⟨.ifElse (.cmp .eq .byte (.lit 32)) (.goto (.tr 39) .done) .done (.ifElse (.and (.cmp .le (.lit 33) .byte) (.cmp .le .byte (.lit 126))) (.goto (.st 254) .done) .done (.goto (.tr 37) .done)), .st 254⟩
/-- rfc3164/machine.go:4897 -/
def st254 : K × Lbl := ⟨.stmt .incP (.ifElse .pEqPe (.goto (.testEofN 254) .done) .done .done), .stCase 254⟩
/-- rfc3164/machine.go:4901 -/
def stCase254 : K × Lbl := ⟨.ifElse (.cmp .eq .byte (.lit 32)) (.goto (.tr 39) .done) .done (.ifElse (.and (.cmp .le (.lit 33) .byte) (.cmp .le .byte (.lit 126))) (.goto (.st 255) .done) .done (.goto (.tr 37) .done)), .st 255⟩
/-- rfc3164/machine.go:4909 -/
def st255 : K × Lbl := ⟨.stmt .incP (.ifElse .pEqPe (.goto (.testEofN 255) .done) .done .done), .stCase 255⟩
/-- rfc3164/machine.go:4913 -/
def stCase255 : K × Lbl := ⟨.ifElse (.cmp .eq .byte (.lit 32)) (.goto (.tr 39) .done) .done (.ifElse (.and (.cmp .le (.lit 33) .byte) (.cmp .le .byte (.lit 126))) (.goto (.st 256) .done) .done (.goto (.tr 37) .done)), .st 256⟩
/-- rfc3164/machine.go:4921 -/
def st256 : K × Lbl := ⟨.stmt .incP (.ifElse .pEqPe (.goto (.testEofN 256) .done) .done .done), .stCase 256⟩
/-- rfc3164/machine.go:4925 -/
def stCase256 : K × Lbl := ⟨.ifElse (.cmp .eq .byte (.lit 32)) (.goto (.tr 39) .done) .done (.ifElse (.and (.cmp .le (.lit 33) .byte) (.cmp .le .byte (.lit 126))) (.goto (.st 257) .done) .done (.goto (.tr 37) .done)), .st 257⟩
/-- rfc3164/machine.go:4933 -/
def st257 : K × Lbl := ⟨.stmt .incP (.ifElse .pEqPe (.goto (.testEofN 257) .done) .done .done), .stCase 257⟩
/-- rfc3164/machine.go:4937 -/
def stCase257 : K × Lbl := ⟨.ifElse (.cmp .eq .byte (.lit 32)) (.goto (.tr 39) .done) .done (.ifElse (.and (.cmp .le (.lit 33) .byte) (.cmp .le .byte (.lit 126))) (.goto (.st 258) .done) .done (.goto (.tr 37) .done)), .st 258⟩
/-- rfc3164/machine.go:4945 -/
def st258 : K × Lbl := ⟨.stmt .incP (.ifElse .pEqPe (.goto (.testEofN 258) .done) .done .done), .stCase 258⟩
/-- rfc3164/machine.go:4949 -/
def stCase258 : K × Lbl := ⟨.ifElse (.cmp .eq .byte (.lit 32)) (.goto (.tr 39) .done) .done (.ifElse (.and (.cmp .le (.lit 33) .byte) (.cmp .le .byte (.lit 126))) (.goto (.st 259) .done) .done (.goto (.tr 37) .done)), .st 259⟩
/-- rfc3164/machine.go:4957 -/
def st259 : K × Lbl := ⟨.stmt .incP (.ifElse .pEqPe (.goto (.testEofN 259) .done) .done .done), .stCase 259⟩
/-- rfc3164/machine.go:4961 -/
def stCase259 : K × Lbl := ⟨.ifElse (.cmp .eq .byte (.lit 32)) (.goto (.tr 39) .done) .done (.ifElse (.and (.cmp .le (.lit 33) .byte) (.cmp .le .byte (.lit 126))) (.goto (.st 260) .done) .done (.goto (.tr 37) .done)), .st 260⟩
/-- rfc3164/machine.go:4969 -/
def st260 : K × Lbl := ⟨.stmt .incP (.ifElse .pEqPe (.goto (.testEofN 260) .done) .done .done), .stCase 260⟩
/-- rfc3164/machine.go:4973 -/
def stCase260 : K × Lbl := ⟨.ifElse (.cmp .eq .byte (.lit 32)) (.goto (.tr 39) .done) .done (.ifElse (.and (.cmp .le (.lit 33) .byte) (.cmp .le .byte (.lit 126))) (.goto (.st 261) .done) .done (.goto (.tr 37) .done)), .st 261⟩
/-- rfc3164/machine.go:4981 -/
def st261 : K × Lbl := ⟨.stmt .incP (.ifElse .pEqPe (.goto (.testEofN 261) .done) .done .done), .stCase 261⟩
/-- rfc3164/machine.go:4985 -/
def stCase261 : K × Lbl := ⟨.ifElse (.cmp .eq .byte (.lit 32)) (.goto (.tr 39) .done) .done (.ifElse (.and (.cmp .le (.lit 33) .byte) (.cmp .le .byte (.lit 126))) (.goto (.st 262) .done) .done (.goto (.tr 37) .done)), .st 262⟩
/-- rfc3164/machine.go:4993 -/
def st262 : K × Lbl := ⟨.stmt .incP (.ifElse .pEqPe (.goto (.testEofN 262) .done) .done .done), .stCase 262⟩
/-- rfc3164/machine.go:4997 -/
def stCase262 : K × Lbl := ⟨.ifElse (.cmp .eq .byte (.lit 32)) (.goto (.tr 39) .done) .done (.ifElse (.and (.cmp .le (.lit 33) .byte) (.cmp .le .byte (.lit 126))) (.goto (.st 263) .done) .done (.goto (.tr 37) .done)), .st 263⟩
/-- rfc3164/machine.go:5005 -/
def st263 : K × Lbl := ⟨.stmt .incP (.ifElse .pEqPe (.goto (.testEofN 263) .done) .done .done), .stCase 263⟩
/-- rfc3164/machine.go:5009 -/
def stCase263 : K × Lbl := ⟨.ifElse (.cmp .eq .byte (.lit 32)) (.goto (.tr 39) .done) .done (.ifElse (.and (.cmp .le (.lit 33) .byte) (.cmp .le .byte (.lit 126))) (.goto (.st 264) .done) .done (.goto (.tr 37) .done)), .st 264⟩
/-- rfc3164/machine.go:5017 -/
def st264 : K × Lbl := ⟨.stmt .incP (.ifElse .pEqPe (.goto (.testEofN 264) .done) .done .done), .stCase 264⟩
/-- rfc3164/machine.go:5021 -/
def stCase264 : K × Lbl := ⟨.ifElse (.cmp .eq .byte (.lit 32)) (.goto (.tr 39) .done) .done (.ifElse (.and (.cmp .le (.lit 33) .byte) (.cmp .le .byte (.lit 126))) (.goto (.st 265) .done) .done (.goto (.tr 37) .done)), .st 265⟩
/-- rfc3164/machine.go:5029 -/
def st265 : K × Lbl := ⟨.stmt .incP (.ifElse .pEqPe (.goto (.testEofN 265) .done) .done .done), .stCase 265⟩
/-- rfc3164/machine.go:5033 -/
def stCase265 : K × Lbl := ⟨.ifElse (.cmp .eq .byte (.lit 32)) (.goto (.tr 39) .done) .done (.ifElse (.and (.cmp .le (.lit 33) .byte) (.cmp .le .byte (.lit 126))) (.goto (.st 266) .done) .done (.goto (.tr 37) .done)), .st 266⟩
/-- rfc3164/machine.go:5041 -/
def st266 : K × Lbl := ⟨.stmt .incP (.ifElse .pEqPe (.goto (.testEofN 266) .done) .done .done), .stCase 266⟩
/-- rfc3164/machine.go:5045 -/
def stCase266 : K × Lbl := ⟨.ifElse (.cmp .eq .byte (.lit 32)) (.goto (.tr 39) .done) .done (.ifElse (.and (.cmp .le (.lit 33) .byte) (.cmp .le .byte (.lit 126))) (.goto (.st 267) .done) .done (.goto (.tr 37) .done)), .st 267⟩
/-- rfc3164/machine.go:5053 -/
def st267 : K × Lbl := ⟨.stmt .incP (.ifElse .pEqPe (.goto (.testEofN 267) .done) .done .done), .stCase 267⟩
/-- rfc3164/machine.go:5057 -/
def stCase267 : K × Lbl := ⟨.ifElse (.cmp .eq .byte (.lit 32)) (.goto (.tr 39) .done) .done (.ifElse (.and (.cmp .le (.lit 33) .byte) (.cmp .le .byte (.lit 126))) (.goto (.st 268) .done) .done (.goto (.tr 37) .done)), .st 268⟩
/-- rfc3164/machine.go:5065 -/
def st268 : K × Lbl := ⟨.stmt .incP (.ifElse .pEqPe (.goto (.testEofN 268) .done) .done .done), .stCase 268⟩
/-- rfc3164/machine.go:5069 -/
def stCase268 : K × Lbl := ⟨.ifElse (.cmp .eq .byte (.lit 32)) (.goto (.tr 39) .done) .done (.ifElse (.and (.cmp .le (.lit 33) .byte) (.cmp .le .byte (.lit 126))) (.goto (.st 269) .done) .done (.goto (.tr 37) .done)), .st 269⟩
/-- rfc3164/machine.go:5077 -/
def st269 : K × Lbl := ⟨.stmt .incP (.ifElse .pEqPe (.goto (.testEofN 269) .done) .done .done), .stCase 269⟩
/-- rfc3164/machine.go:5081 -/
def stCase269 : K × Lbl := ⟨.ifElse (.cmp .eq .byte (.lit 32)) (.goto (.tr 39) .done) .done (.ifElse (.and (.cmp .le (.lit 33) .byte) (.cmp .le .byte (.lit 126))) (.goto (.st 270) .done) .done (.goto (.tr 37) .done)), .st 270⟩
/-- rfc3164/machine.go:5089 -/
def st270 : K × Lbl := ⟨.stmt .incP (.ifElse .pEqPe (.goto (.testEofN 270) .done) .done .done), .stCase 270⟩
/-- rfc3164/machine.go:5093 -/
def stCase270 : K × Lbl := ⟨.ifElse (.cmp .eq .byte (.lit 32)) (.goto (.tr 39) .done) .done (.ifElse (.and (.cmp .le (.lit 33) .byte) (.cmp .le .byte (.lit 126))) (.goto (.st 271) .done) .done (.goto (.tr 37) .done)), .st 271⟩
/-- rfc3164/machine.go:5101 -/
def st271 : K × Lbl := ⟨.stmt .incP (.ifElse .pEqPe (.goto (.testEofN 271) .done) .done .done), .stCase 271⟩
/-- rfc3164/machine.go:5105 -/
def stCase271 : K × Lbl := ⟨.ifElse (.cmp .eq .byte (.lit 32)) (.goto (.tr 39) .done) .done (.ifElse (.and (.cmp .le (.lit 33) .byte) (.cmp .le .byte (.lit 126))) (.goto (.st 272) .done) .done (.goto (.tr 37) .done)), .st 272⟩
/-- rfc3164/machine.go:5113 -/
def st272 : K × Lbl := ⟨.stmt .incP (.ifElse .pEqPe (.goto (.testEofN 272) .done) .done .done), .stCase 272⟩
/-- rfc3164/machine.go:5117 -/
def stCase272 : K × Lbl := ⟨.ifElse (.cmp .eq .byte (.lit 32)) (.goto (.tr 39) .done) .done (.ifElse (.and (.cmp .le (.lit 33) .byte) (.cmp .le .byte (.lit 126))) (.goto (.st 273) .done) .done (.goto (.tr 37) .done)), .st 273⟩
/-- rfc3164/machine.go:5125 -/
def st273 : K × Lbl := ⟨.stmt .incP (.ifElse .pEqPe (.goto (.testEofN 273) .done) .done .done), .stCase 273⟩
/-- rfc3164/machine.go:5129 -/
def stCase273 : K × Lbl := ⟨.ifElse (.cmp .eq .byte (.lit 32)) (.goto (.tr 39) .done) .done (.ifElse (.and (.cmp .le (.lit 33) .byte) (.cmp .le .byte (.lit 126))) (.goto (.st 274) .done) .done (.goto (.tr 37) .done)), .st 274⟩
/-- rfc3164/machine.go:5137 -/
def st274 : K × Lbl := ⟨.stmt .incP (.ifElse .pEqPe (.goto (.testEofN 274) .done) .done .done), .stCase 274⟩
/-- rfc3164/machine.go:5141 -/
def stCase274 : K × Lbl := ⟨.ifElse (.cmp .eq .byte (.lit 32)) (.goto (.tr 39) .done) .done (.ifElse (.and (.cmp .le (.lit 33) .byte) (.cmp .le .byte (.lit 126))) (.goto (.st 275) .done) .done (.goto (.tr 37) .done)), .st 275⟩
/-- rfc3164/machine.go:5149 -/
def st275 : K × Lbl := ⟨.stmt .incP (.ifElse .pEqPe (.goto (.testEofN 275) .done) .done .done), .stCase 275⟩
/-- rfc3164/machine.go:5153 -/
def stCase275 : K × Lbl := ⟨.ifElse (.cmp .eq .byte (.lit 32)) (.goto (.tr 39) .done) .done (.ifElse (.and (.cmp .le (.lit 33) .byte) (.cmp .le .byte (.lit 126))) (.goto (.st 276) .done) .done (.goto (.tr 37) .done)), .st 276⟩
/-- rfc3164/machine.go:5161 -/
def st276 : K × Lbl := ⟨.stmt .incP (.ifElse .pEqPe (.goto (.testEofN 276) .done) .done .done), .stCase 276⟩
/-- rfc3164/machine.go:5165 -/
def stCase276 : K × Lbl := ⟨.ifElse (.cmp .eq .byte (.lit 32)) (.goto (.tr 39) .done) .done (.ifElse (.and (.cmp .le (.lit 33) .byte) (.cmp .le .byte (.lit 126))) (.goto (.st 277) .done) .done (.goto (.tr 37) .done)), .st 277⟩
/-- rfc3164/machine.go:5173 -/
def st277 : K × Lbl := ⟨.stmt .incP (.ifElse .pEqPe (.goto (.testEofN 277) .done) .done .done), .stCase 277⟩
/-- rfc3164/machine.go:5177 -/
def stCase277 : K × Lbl := ⟨.ifElse (.cmp .eq .byte (.lit 32)) (.goto (.tr 39) .done) .done (.ifElse (.and (.cmp .le (.lit 33) .byte) (.cmp .le .byte (.lit 126))) (.goto (.st 278) .done) .done (.goto (.tr 37) .done)), .st 278⟩
/-- rfc3164/machine.go:5185 -/
def st278 : K × Lbl := ⟨.stmt .incP (.ifElse .pEqPe (.goto (.testEofN 278) .done) .done .done), .stCase 278⟩
/-- rfc3164/machine.go:5189 -/
def stCase278 : K × Lbl := ⟨.ifElse (.cmp .eq .byte (.lit 32)) (.goto (.tr 39) .done) .done (.ifElse (.and (.cmp .le (.lit 33) .byte) (.cmp .le .byte (.lit 126))) (.goto (.st 279) .done) .done (.goto (.tr 37) .done)), .st 279⟩
/-- rfc3164/machine.go:5197 -/
def st279 : K × Lbl := ⟨.stmt .incP (.ifElse .pEqPe (.goto (.testEofN 279) .done) .done .done), .stCase 279⟩
/-- rfc3164/machine.go:5201 -/
def stCase279 : K × Lbl := ⟨.ifElse (.cmp .eq .byte (.lit 32)) (.goto (.tr 39) .done) .done (.ifElse (.and (.cmp .le (.lit 33) .byte) (.cmp .le .byte (.lit 126))) (.goto (.st 280) .done) .done (.goto (.tr 37) .done)), .st 280⟩
/-- rfc3164/machine.go:5209 -/
def st280 : K × Lbl := ⟨.stmt .incP (.ifElse .pEqPe (.goto (.testEofN 280) .done) .done .done), .stCase 280⟩
/-- rfc3164/machine.go:5213 -/
def stCase280 : K × Lbl := ⟨.ifElse (.cmp .eq .byte (.lit 32)) (.goto (.tr 39) .done) .done (.goto (.tr 37) .done), .st 281⟩
/-- rfc3164/machine.go:5218 -/
def st281 : K × Lbl := ⟨.stmt .incP (.ifElse .pEqPe (.goto (.testEofN 281) .done) .done .done), .stCase 281⟩
/-- rfc3164/machine.go:5222 -/
def stCase281 : K × Lbl := ⟨.ifElse (.and (.cmp .le (.lit 48) .byte) (.cmp .le .byte (.lit 51))) (.goto (.st 13) .done) .done (.goto (.tr 7) .done), .st 282⟩
/-- rfc3164/machine.go:5227 -/
def st282 : K × Lbl := ⟨.stmt .incP (.ifElse .pEqPe (.goto (.testEofN 282) .done) .done .done), .stCase 282⟩
/-- rfc3164/machine.go:5231 -/
def stCase282 : K × Lbl := ⟨.ifElse (.and (.cmp .le (.lit 48) .byte) (.cmp .le .byte (.lit 57))) (.goto (.st 10) .done) .done (.goto (.tr 7) .done), .st 283⟩
/-- rfc3164/machine.go:5236 -/
def st283 : K × Lbl := ⟨.stmt .incP (.ifElse .pEqPe (.goto (.testEofN 283) .done) .done .done), .stCase 283⟩
/-- rfc3164/machine.go:5240 -/
def stCase283 : K × Lbl := ⟨.ifElse (.and (.cmp .le (.lit 48) .byte) (.cmp .le .byte (.lit 49))) (.goto (.st 10) .done) .done (.goto (.tr 7) .done), .st 284⟩
/-- rfc3164/machine.go:5245 -/
def st284 : K × Lbl := ⟨.stmt .incP (.ifElse .pEqPe (.goto (.testEofN 284) .done) .done .done), .stCase 284⟩
/-- rfc3164/machine.go:5249 -/
def stCase284 : K × Lbl := ⟨.ifElse (.cmp .eq .byte (.lit 103)) (.goto (.st 7) .done) .done (.goto (.tr 7) .done), .tr 9⟩
/-- rfc3164/machine.go:5254 -/
def tr9 : K × Lbl := ⟨.stmt (.prim .pbP) (.goto (.st 285) .done), .st 285⟩
/-- rfc3164/machine.go:5259 -/
def st285 : K × Lbl := ⟨.stmt .incP (.ifElse .pEqPe (.goto (.testEofN 285) .done) .done .done), .stCase 285⟩
/-- rfc3164/machine.go:5263 -/
def stCase285 : K × Lbl := ⟨.ifElse (.cmp .eq .byte (.lit 101)) (.goto (.st 286) .done) .done (.goto (.tr 7) .done), .st 286⟩
/-- rfc3164/machine.go:5268 -/
def st286 : K × Lbl := ⟨.stmt .incP (.ifElse .pEqPe (.goto (.testEofN 286) .done) .done .done), .stCase 286⟩
/-- rfc3164/machine.go:5272 -/
def stCase286 : K × Lbl := ⟨.ifElse (.cmp .eq .byte (.lit 99)) (.goto (.st 7) .done) .done (.goto (.tr 7) .done), .tr 10⟩
/-- rfc3164/machine.go:5277 -/
def tr10 : K × Lbl := ⟨.stmt (.prim .pbP) (.goto (.st 287) .done), .st 287⟩
/-- rfc3164/machine.go:5282 -/
def st287 : K × Lbl := ⟨.stmt .incP (.ifElse .pEqPe (.goto (.testEofN 287) .done) .done .done), .stCase 287⟩
/-- rfc3164/machine.go:5286 -/
def stCase287 : K × Lbl := ⟨.ifElse (.cmp .eq .byte (.lit 101)) (.goto (.st 288) .done) .done (.goto (.tr 7) .done), .st 288⟩
/-- rfc3164/machine.go:5291 -/
def st288 : K × Lbl := ⟨.stmt .incP (.ifElse .pEqPe (.goto (.testEofN 288) .done) .done .done), .stCase 288⟩
/-- rfc3164/machine.go:5295 -/
def stCase288 : K × Lbl := ⟨.ifElse (.cmp .eq .byte (.lit 98)) (.goto (.st 7) .done) .done (.goto (.tr 7) .done), .tr 11⟩
/-- rfc3164/machine.go:5300 -/
def tr11 : K × Lbl := ⟨.stmt (.prim .pbP) (.goto (.st 289) .done), .st 289⟩
/-- rfc3164/machine.go:5305 -/
def st289 : K × Lbl := ⟨.stmt .incP (.ifElse .pEqPe (.goto (.testEofN 289) .done) .done .done), .stCase 289⟩
/-- rfc3164/machine.go:5309 -/
def stCase289 : K × Lbl := ⟨.ifElse (.cmp .eq .byte (.lit 97)) (.goto (.st 290) .done) (.ifElse (.cmp .eq .byte (.lit 117)) (.goto (.st 291) .done) .done .done) (.goto (.tr 7) .done), .st 290⟩
/-- rfc3164/machine.go:5317 -/
def st290 : K × Lbl := ⟨.stmt .incP (.ifElse .pEqPe (.goto (.testEofN 290) .done) .done .done), .stCase 290⟩
/-- rfc3164/machine.go:5321 -/
def stCase290 : K × Lbl := ⟨.ifElse (.cmp .eq .byte (.lit 110)) (.goto (.st 7) .done) .done (.goto (.tr 7) .done), .st 291⟩
/-- rfc3164/machine.go:5326 -/
def st291 : K × Lbl := ⟨.stmt .incP (.ifElse .pEqPe (.goto (.testEofN 291) .done) .done .done), .stCase 291⟩
/-- rfc3164/machine.go:5330 -/
def stCase291 : K × Lbl := ⟨.ifElse (.cmp .eq .byte (.lit 108)) (.goto (.st 7) .done) (.ifElse (.cmp .eq .byte (.lit 110)) (.goto (.st 7) .done) .done .done) (.goto (.tr 7) .done), .tr 12⟩
/-- rfc3164/machine.go:5338 -/
def tr12 : K × Lbl := ⟨.stmt (.prim .pbP) (.goto (.st 292) .done), .st 292⟩
/-- rfc3164/machine.go:5343 -/
def st292 : K × Lbl := ⟨.stmt .incP (.ifElse .pEqPe (.goto (.testEofN 292) .done) .done .done), .stCase 292⟩
/-- rfc3164/machine.go:5347 -/
def stCase292 : K × Lbl := ⟨.ifElse (.cmp .eq .byte (.lit 97)) (.goto (.st 293) .done) .done (.goto (.tr 7) .done), .st 293⟩
/-- rfc3164/machine.go:5352 -/
def st293 : K × Lbl := ⟨.stmt .incP (.ifElse .pEqPe (.goto (.testEofN 293) .done) .done .done), .stCase 293⟩
/-- rfc3164/machine.go:5356 -/
def stCase293 : K × Lbl := ⟨.ifElse (.cmp .eq .byte (.lit 114)) (.goto (.st 7) .done) (.ifElse (.cmp .eq .byte (.lit 121)) (.goto (.st 7) .done) .done .done) (.goto (.tr 7) .done), .tr 13⟩
/-- rfc3164/machine.go:5364 -/
def tr13 : K × Lbl := ⟨.stmt (.prim .pbP) (.goto (.st 294) .done), .st 294⟩
/-- rfc3164/machine.go:5369 -/
def st294 : K × Lbl := ⟨.stmt .incP (.ifElse .pEqPe (.goto (.testEofN 294) .done) .done .done), .stCase 294⟩
/-- rfc3164/machine.go:5373 -/
def stCase294 : K × Lbl := ⟨.ifElse (.cmp .eq .byte (.lit 111)) (.goto (.st 295) .done) .done (.goto (.tr 7) .done), .st 295⟩
/-- rfc3164/machine.go:5378 -/
def st295 : K × Lbl := ⟨.stmt .incP (.ifElse .pEqPe (.goto (.testEofN 295) .done) .done .done), .stCase 295⟩
/-- rfc3164/machine.go:5382 -/
def stCase295 : K × Lbl := ⟨.ifElse (.cmp .eq .byte (.lit 118)) (.goto (.st 7) .done) .done (.goto (.tr 7) .done), .tr 14⟩
/-- rfc3164/machine.go:5387 -/
def tr14 : K × Lbl := ⟨.stmt (.prim .pbP) (.goto (.st 296) .done), .st 296⟩
/-- rfc3164/machine.go:5392 -/
def st296 : K × Lbl := ⟨.stmt .incP (.ifElse .pEqPe (.goto (.testEofN 296) .done) .done .done), .stCase 296⟩
/-- rfc3164/machine.go:5396 -/
def stCase296 : K × Lbl := ⟨.ifElse (.cmp .eq .byte (.lit 99)) (.goto (.st 297) .done) .done (.goto (.tr 7) .done), .st 297⟩
/-- rfc3164/machine.go:5401 -/
def st297 : K × Lbl := ⟨.stmt .incP (.ifElse .pEqPe (.goto (.testEofN 297) .done) .done .done), .stCase 297⟩
/-- rfc3164/machine.go:5405 -/
def stCase297 : K × Lbl := ⟨.ifElse (.cmp .eq .byte (.lit 116)) (.goto (.st 7) .done) .done (.goto (.tr 7) .done), .tr 15⟩
/-- rfc3164/machine.go:5410 -/
def tr15 : K × Lbl := ⟨.stmt (.prim .pbP) (.goto (.st 298) .done), .st 298⟩
/-- rfc3164/machine.go:5415 -/
def st298 : K × Lbl := ⟨.stmt .incP (.ifElse .pEqPe (.goto (.testEofN 298) .done) .done .done), .stCase 298⟩
/-- rfc3164/machine.go:5419 -/
def stCase298 : K × Lbl := ⟨.ifElse (.cmp .eq .byte (.lit 101)) (.goto (.st 299) .done) .done (.goto (.tr 7) .done), .st 299⟩
/-- rfc3164/machine.go:5424 -/
def st299 : K × Lbl := ⟨.stmt .incP (.ifElse .pEqPe (.goto (.testEofN 299) .done) .done .done), .stCase 299⟩
/-- rfc3164/machine.go:5428 -/
def stCase299 : K × Lbl := ⟨.ifElse (.cmp .eq .byte (.lit 112)) (.goto (.st 7) .done) .done (.goto (.tr 7) .done), .tr 16⟩
/-- rfc3164/machine.go:5433 -/
def tr16 : K × Lbl := ⟨.stmt (.prim .pbP) (.goto (.st 300) .done), .st 300⟩
/-- rfc3164/machine.go:5438 -/
def st300 : K × Lbl := ⟨.stmt .incP (.ifElse .pEqPe (.goto (.testEofN 300) .done) .done .done), .stCase 300⟩
/-- rfc3164/machine.go:5442 -/
def stCase300 : K × Lbl := ⟨.stmt .widecByte (.ifElse (.and (.cmp .le (.lit 48) .byte) (.cmp .le .byte (.lit 57))) (.stmt (.widecBase 256 0) (.ifElse (.prim .rfc3339) (.stmt (.widecAdd 256) .done) .done .done)) .done (.ifElse (.and (.cmp .le (.lit 560) .widec) (.cmp .le .widec (.lit 569))) (.goto (.st 301) .done) .done (.goto (.st 0) .done))), .st 301⟩
/-- rfc3164/machine.go:5454 -/
def st301 : K × Lbl := ⟨.stmt .incP (.ifElse .pEqPe (.goto (.testEofN 301) .done) .done .done), .stCase 301⟩
/-- rfc3164/machine.go:5458 -/
def stCase301 : K × Lbl := ⟨.stmt .widecByte (.ifElse (.and (.cmp .le (.lit 48) .byte) (.cmp .le .byte (.lit 57))) (.stmt (.widecBase 256 0) (.ifElse (.prim .rfc3339) (.stmt (.widecAdd 256) .done) .done .done)) .done (.ifElse (.and (.cmp .le (.lit 560) .widec) (.cmp .le .widec (.lit 569))) (.goto (.st 302) .done) .done (.goto (.st 0) .done))), .st 302⟩
/-- rfc3164/machine.go:5470 -/
def st302 : K × Lbl := ⟨.stmt .incP (.ifElse .pEqPe (.goto (.testEofN 302) .done) .done .done), .stCase 302⟩
/-- rfc3164/machine.go:5474 -/
def stCase302 : K × Lbl := ⟨.stmt .widecByte (.ifElse (.and (.cmp .le (.lit 48) .byte) (.cmp .le .byte (.lit 57))) (.stmt (.widecBase 256 0) (.ifElse (.prim .rfc3339) (.stmt (.widecAdd 256) .done) .done .done)) .done (.ifElse (.and (.cmp .le (.lit 560) .widec) (.cmp .le .widec (.lit 569))) (.goto (.st 303) .done) .done (.goto (.st 0) .done))), .st 303⟩
/-- rfc3164/machine.go:5486 -/
def st303 : K × Lbl := ⟨.stmt .incP (.ifElse .pEqPe (.goto (.testEofN 303) .done) .done .done), .stCase 303⟩
/-- rfc3164/machine.go:5490 -/
def stCase303 : K × Lbl := ⟨.stmt .widecByte (.ifElse (.and (.cmp .le (.lit 45) .byte) (.cmp .le .byte (.lit 45))) (.stmt (.widecBase 256 0) (.ifElse (.prim .rfc3339) (.stmt (.widecAdd 256) .done) .done .done)) .done (.ifElse (.cmp .eq .widec (.lit 557)) (.goto (.st 304) .done) .done (.goto (.st 0) .done))), .st 304⟩
/-- rfc3164/machine.go:5502 -/
def st304 : K × Lbl := ⟨.stmt .incP (.ifElse .pEqPe (.goto (.testEofN 304) .done) .done .done), .stCase 304⟩
/-- rfc3164/machine.go:5506 -/
def stCase304 : K × Lbl := ⟨.stmt .widecByte (.ifElse (.cmp .gt .byte (.lit 48)) (.ifElse (.and (.cmp .le (.lit 49) .byte) (.cmp .le .byte (.lit 49))) (.stmt (.widecBase 256 0) (.ifElse (.prim .rfc3339) (.stmt (.widecAdd 256) .done) .done .done)) .done .done) (.ifElse (.cmp .ge .byte (.lit 48)) (.stmt (.widecBase 256 0) (.ifElse (.prim .rfc3339) (.stmt (.widecAdd 256) .done) .done .done)) .done .done) (.ifElse (.cmp .eq .widec (.lit 560)) (.goto (.st 305) .done) (.ifElse (.cmp .eq .widec (.lit 561)) (.goto (.st 329) .done) .done .done) (.goto (.st 0) .done))), .st 305⟩
/-- rfc3164/machine.go:5529 -/
def st305 : K × Lbl := ⟨.stmt .incP (.ifElse .pEqPe (.goto (.testEofN 305) .done) .done .done), .stCase 305⟩
/-- rfc3164/machine.go:5533 -/
def stCase305 : K × Lbl := ⟨.stmt .widecByte (.ifElse (.and (.cmp .le (.lit 49) .byte) (.cmp .le .byte (.lit 57))) (.stmt (.widecBase 256 0) (.ifElse (.prim .rfc3339) (.stmt (.widecAdd 256) .done) .done .done)) .done (.ifElse (.and (.cmp .le (.lit 561) .widec) (.cmp .le .widec (.lit 569))) (.goto (.st 306) .done) .done (.goto (.st 0) .done))), .st 306⟩
/-- rfc3164/machine.go:5545 -/
def st306 : K × Lbl := ⟨.stmt .incP (.ifElse .pEqPe (.goto (.testEofN 306) .done) .done .done), .stCase 306⟩
/-- rfc3164/machine.go:5549 -/
def stCase306 : K × Lbl := ⟨.stmt .widecByte (.ifElse (.and (.cmp .le (.lit 45) .byte) (.cmp .le .byte (.lit 45))) (.stmt (.widecBase 256 0) (.ifElse (.prim .rfc3339) (.stmt (.widecAdd 256) .done) .done .done)) .done (.ifElse (.cmp .eq .widec (.lit 557)) (.goto (.st 307) .done) .done (.goto (.st 0) .done))), .st 307⟩
/-- rfc3164/machine.go:5561 -/
def st307 : K × Lbl := ⟨.stmt .incP (.ifElse .pEqPe (.goto (.testEofN 307) .done) .done .done), .stCase 307⟩
/-- rfc3164/machine.go:5565 -/
def stCase307 : K × Lbl := ⟨.stmt .widecByte (.ifElse (.cmp .lt .byte (.lit 49)) (.ifElse (.and (.cmp .le (.lit 48) .byte) (.cmp .le .byte (.lit 48))) (.stmt (.widecBase 256 0) (.ifElse (.prim .rfc3339) (.stmt (.widecAdd 256) .done) .done .done)) .done .done) (.ifElse (.cmp .gt .byte (.lit 50)) (.ifElse (.and (.cmp .le (.lit 51) .byte) (.cmp .le .byte (.lit 51))) (.stmt (.widecBase 256 0) (.ifElse (.prim .rfc3339) (.stmt (.widecAdd 256) .done) .done .done)) .done .done) (.stmt (.widecBase 256 0) (.ifElse (.prim .rfc3339) (.stmt (.widecAdd 256) .done) .done .done)) .done) (.ifElse (.cmp .eq .widec (.lit 560)) (.goto (.st 308) .done) (.ifElse (.cmp .eq .widec (.lit 563)) (.goto (.st 328) .done) .done .done) (.ifElse (.and (.cmp .le (.lit 561) .widec) (.cmp .le .widec (.lit 562))) (.goto (.st 327) .done) .done (.goto (.st 0) .done)))), .st 308⟩
/-- rfc3164/machine.go:5598 -/
def st308 : K × Lbl := ⟨.stmt .incP (.ifElse .pEqPe (.goto (.testEofN 308) .done) .done .done), .stCase 308⟩
/-- rfc3164/machine.go:5602 -/
def stCase308 : K × Lbl := ⟨.stmt .widecByte (.ifElse (.and (.cmp .le (.lit 49) .byte) (.cmp .le .byte (.lit 57))) (.stmt (.widecBase 256 0) (.ifElse (.prim .rfc3339) (.stmt (.widecAdd 256) .done) .done .done)) .done (.ifElse (.and (.cmp .le (.lit 561) .widec) (.cmp .le .widec (.lit 569))) (.goto (.st 309) .done) .done (.goto (.st 0) .done))), .st 309⟩
/-- rfc3164/machine.go:5614 -/
def st309 : K × Lbl := ⟨.stmt .incP (.ifElse .pEqPe (.goto (.testEofN 309) .done) .done .done), .stCase 309⟩
/-- rfc3164/machine.go:5618 -/
def stCase309 : K × Lbl := ⟨.stmt .widecByte (.ifElse (.and (.cmp .le (.lit 84) .byte) (.cmp .le .byte (.lit 84))) (.stmt (.widecBase 256 0) (.ifElse (.prim .rfc3339) (.stmt (.widecAdd 256) .done) .done .done)) .done (.ifElse (.cmp .eq .widec (.lit 596)) (.goto (.st 310) .done) .done (.goto (.st 0) .done))), .st 310⟩
/-- rfc3164/machine.go:5630 -/
def st310 : K × Lbl := ⟨.stmt .incP (.ifElse .pEqPe (.goto (.testEofN 310) .done) .done .done), .stCase 310⟩
/-- rfc3164/machine.go:5634 -/
def stCase310 : K × Lbl := ⟨.stmt .widecByte (.ifElse (.cmp .gt .byte (.lit 49)) (.ifElse (.and (.cmp .le (.lit 50) .byte) (.cmp .le .byte (.lit 50))) (.stmt (.widecBase 256 0) (.ifElse (.prim .rfc3339) (.stmt (.widecAdd 256) .done) .done .done)) .done .done) (.ifElse (.cmp .ge .byte (.lit 48)) (.stmt (.widecBase 256 0) (.ifElse (.prim .rfc3339) (.stmt (.widecAdd 256) .done) .done .done)) .done .done) (.ifElse (.cmp .eq .widec (.lit 562)) (.goto (.st 326) .done) .done (.ifElse (.and (.cmp .le (.lit 560) .widec) (.cmp .le .widec (.lit 561))) (.goto (.st 311) .done) .done (.goto (.st 0) .done)))), .st 311⟩
/-- rfc3164/machine.go:5657 -/
def st311 : K × Lbl := ⟨.stmt .incP (.ifElse .pEqPe (.goto (.testEofN 311) .done) .done .done), .stCase 311⟩
/-- rfc3164/machine.go:5661 -/
def stCase311 : K × Lbl := ⟨.stmt .widecByte (.ifElse (.and (.cmp .le (.lit 48) .byte) (.cmp .le .byte (.lit 57))) (.stmt (.widecBase 256 0) (.ifElse (.prim .rfc3339) (.stmt (.widecAdd 256) .done) .done .done)) .done (.ifElse (.and (.cmp .le (.lit 560) .widec) (.cmp .le .widec (.lit 569))) (.goto (.st 312) .done) .done (.goto (.st 0) .done))), .st 312⟩
/-- rfc3164/machine.go:5673 -/
def st312 : K × Lbl := ⟨.stmt .incP (.ifElse .pEqPe (.goto (.testEofN 312) .done) .done .done), .stCase 312⟩
/-- rfc3164/machine.go:5677 -/
def stCase312 : K × Lbl := ⟨.stmt .widecByte (.ifElse (.and (.cmp .le (.lit 58) .byte) (.cmp .le .byte (.lit 58))) (.stmt (.widecBase 256 0) (.ifElse (.prim .rfc3339) (.stmt (.widecAdd 256) .done) .done .done)) .done (.ifElse (.cmp .eq .widec (.lit 570)) (.goto (.st 313) .done) .done (.goto (.st 0) .done))), .st 313⟩
/-- rfc3164/machine.go:5689 -/
def st313 : K × Lbl := ⟨.stmt .incP (.ifElse .pEqPe (.goto (.testEofN 313) .done) .done .done), .stCase 313⟩
/-- rfc3164/machine.go:5693 -/
def stCase313 : K × Lbl := ⟨.stmt .widecByte (.ifElse (.and (.cmp .le (.lit 48) .byte) (.cmp .le .byte (.lit 53))) (.stmt (.widecBase 256 0) (.ifElse (.prim .rfc3339) (.stmt (.widecAdd 256) .done) .done .done)) .done (.ifElse (.and (.cmp .le (.lit 560) .widec) (.cmp .le .widec (.lit 565))) (.goto (.st 314) .done) .done (.goto (.st 0) .done))), .st 314⟩
/-- rfc3164/machine.go:5705 -/
def st314 : K × Lbl := ⟨.stmt .incP (.ifElse .pEqPe (.goto (.testEofN 314) .done) .done .done), .stCase 314⟩
/-- rfc3164/machine.go:5709 -/
def stCase314 : K × Lbl := ⟨.stmt .widecByte (.ifElse (.and (.cmp .le (.lit 48) .byte) (.cmp .le .byte (.lit 57))) (.stmt (.widecBase 256 0) (.ifElse (.prim .rfc3339) (.stmt (.widecAdd 256) .done) .done .done)) .done (.ifElse (.and (.cmp .le (.lit 560) .widec) (.cmp .le .widec (.lit 569))) (.goto (.st 315) .done) .done (.goto (.st 0) .done))), .st 315⟩
/-- rfc3164/machine.go:5721 -/
def st315 : K × Lbl := ⟨.stmt .incP (.ifElse .pEqPe (.goto (.testEofN 315) .done) .done .done), .stCase 315⟩
/-- rfc3164/machine.go:5725 -/
def stCase315 : K × Lbl := ⟨.stmt .widecByte (.ifElse (.and (.cmp .le (.lit 58) .byte) (.cmp .le .byte (.lit 58))) (.stmt (.widecBase 256 0) (.ifElse (.prim .rfc3339) (.stmt (.widecAdd 256) .done) .done .done)) .done (.ifElse (.cmp .eq .widec (.lit 570)) (.goto (.st 316) .done) .done (.goto (.st 0) .done))), .st 316⟩
/-- rfc3164/machine.go:5737 -/
def st316 : K × Lbl := ⟨.stmt .incP (.ifElse .pEqPe (.goto (.testEofN 316) .done) .done .done), .stCase 316⟩
/-- rfc3164/machine.go:5741 -/
def stCase316 : K × Lbl := ⟨.stmt .widecByte (.ifElse (.and (.cmp .le (.lit 48) .byte) (.cmp .le .byte (.lit 53))) (.stmt (.widecBase 256 0) (.ifElse (.prim .rfc3339) (.stmt (.widecAdd 256) .done) .done .done)) .done (.ifElse (.and (.cmp .le (.lit 560) .widec) (.cmp .le .widec (.lit 565))) (.goto (.st 317) .done) .done (.goto (.st 0) .done))), .st 317⟩
/-- rfc3164/machine.go:5753 -/
def st317 : K × Lbl := ⟨.stmt .incP (.ifElse .pEqPe (.goto (.testEofN 317) .done) .done .done), .stCase 317⟩
/-- rfc3164/machine.go:5757 -/
def stCase317 : K × Lbl := ⟨.stmt .widecByte (.ifElse (.and (.cmp .le (.lit 48) .byte) (.cmp .le .byte (.lit 57))) (.stmt (.widecBase 256 0) (.ifElse (.prim .rfc3339) (.stmt (.widecAdd 256) .done) .done .done)) .done (.ifElse (.and (.cmp .le (.lit 560) .widec) (.cmp .le .widec (.lit 569))) (.goto (.st 318) .done) .done (.goto (.st 0) .done))), .st 318⟩
/-- rfc3164/machine.go:5769 -/
def st318 : K × Lbl := ⟨.stmt .incP (.ifElse .pEqPe (.goto (.testEofN 318) .done) .done .done), .stCase 318⟩
/-- rfc3164/machine.go:5773 -/
def stCase318 : K × Lbl := ⟨.stmt .widecByte (.ifElse (.cmp .lt .byte (.lit 45)) (.ifElse (.and (.cmp .le (.lit 43) .byte) (.cmp .le .byte (.lit 43))) (.stmt (.widecBase 256 0) (.ifElse (.prim .rfc3339) (.stmt (.widecAdd 256) .done) .done .done)) .done .done) (.ifElse (.cmp .gt .byte (.lit 45)) (.ifElse (.and (.cmp .le (.lit 90) .byte) (.cmp .le .byte (.lit 90))) (.stmt (.widecBase 256 0) (.ifElse (.prim .rfc3339) (.stmt (.widecAdd 256) .done) .done .done)) .done .done) (.stmt (.widecBase 256 0) (.ifElse (.prim .rfc3339) (.stmt (.widecAdd 256) .done) .done .done)) .done) (.ifElse (.cmp .eq .widec (.lit 555)) (.goto (.st 319) .done) (.ifElse (.cmp .eq .widec (.lit 557)) (.goto (.st 319) .done) (.ifElse (.cmp .eq .widec (.lit 602)) (.goto (.st 324) .done) .done .done) .done) (.goto (.tr 333) .done))), .st 319⟩
/-- rfc3164/machine.go:5805 -/
def st319 : K × Lbl := ⟨.stmt .incP (.ifElse .pEqPe (.goto (.testEofN 319) .done) .done .done), .stCase 319⟩
/-- rfc3164/machine.go:5809 -/
def stCase319 : K × Lbl := ⟨.stmt .widecByte (.ifElse (.cmp .gt .byte (.lit 49)) (.ifElse (.and (.cmp .le (.lit 50) .byte) (.cmp .le .byte (.lit 50))) (.stmt (.widecBase 256 0) (.ifElse (.prim .rfc3339) (.stmt (.widecAdd 256) .done) .done .done)) .done .done) (.ifElse (.cmp .ge .byte (.lit 48)) (.stmt (.widecBase 256 0) (.ifElse (.prim .rfc3339) (.stmt (.widecAdd 256) .done) .done .done)) .done .done) (.ifElse (.cmp .eq .widec (.lit 562)) (.goto (.st 325) .done) .done (.ifElse (.and (.cmp .le (.lit 560) .widec) (.cmp .le .widec (.lit 561))) (.goto (.st 320) .done) .done (.goto (.tr 333) .done)))), .st 320⟩
/-- rfc3164/machine.go:5832 -/
def st320 : K × Lbl := ⟨.stmt .incP (.ifElse .pEqPe (.goto (.testEofN 320) .done) .done .done), .stCase 320⟩
/-- rfc3164/machine.go:5836 -/
def stCase320 : K × Lbl := ⟨.stmt .widecByte (.ifElse (.and (.cmp .le (.lit 48) .byte) (.cmp .le .byte (.lit 57))) (.stmt (.widecBase 256 0) (.ifElse (.prim .rfc3339) (.stmt (.widecAdd 256) .done) .done .done)) .done (.ifElse (.and (.cmp .le (.lit 560) .widec) (.cmp .le .widec (.lit 569))) (.goto (.st 321) .done) .done (.goto (.tr 333) .done))), .st 321⟩
/-- rfc3164/machine.go:5848 -/
def st321 : K × Lbl := ⟨.stmt .incP (.ifElse .pEqPe (.goto (.testEofN 321) .done) .done .done), .stCase 321⟩
/-- rfc3164/machine.go:5852 -/
def stCase321 : K × Lbl := ⟨.stmt .widecByte (.ifElse (.and (.cmp .le (.lit 58) .byte) (.cmp .le .byte (.lit 58))) (.stmt (.widecBase 256 0) (.ifElse (.prim .rfc3339) (.stmt (.widecAdd 256) .done) .done .done)) .done (.ifElse (.cmp .eq .widec (.lit 570)) (.goto (.st 322) .done) .done (.goto (.tr 333) .done))), .st 322⟩
/-- rfc3164/machine.go:5864 -/
def st322 : K × Lbl := ⟨.stmt .incP (.ifElse .pEqPe (.goto (.testEofN 322) .done) .done .done), .stCase 322⟩
/-- rfc3164/machine.go:5868 -/
def stCase322 : K × Lbl := ⟨.stmt .widecByte (.ifElse (.and (.cmp .le (.lit 48) .byte) (.cmp .le .byte (.lit 53))) (.stmt (.widecBase 256 0) (.ifElse (.prim .rfc3339) (.stmt (.widecAdd 256) .done) .done .done)) .done (.ifElse (.and (.cmp .le (.lit 560) .widec) (.cmp .le .widec (.lit 565))) (.goto (.st 323) .done) .done (.goto (.tr 333) .done))), .st 323⟩
/-- rfc3164/machine.go:5880 -/
def st323 : K × Lbl := ⟨.stmt .incP (.ifElse .pEqPe (.goto (.testEofN 323) .done) .done .done), .stCase 323⟩
/-- rfc3164/machine.go:5884 -/
def stCase323 : K × Lbl := ⟨.stmt .widecByte (.ifElse (.and (.cmp .le (.lit 48) .byte) (.cmp .le .byte (.lit 57))) (.stmt (.widecBase 256 0) (.ifElse (.prim .rfc3339) (.stmt (.widecAdd 256) .done) .done .done)) .done (.ifElse (.and (.cmp .le (.lit 560) .widec) (.cmp .le .widec (.lit 569))) (.goto (.st 324) .done) .done (.goto (.tr 333) .done))), .st 324⟩
/-- rfc3164/machine.go:5896 -/
def st324 : K × Lbl := ⟨.stmt .incP (.ifElse .pEqPe (.goto (.testEofN 324) .done) .done .done), .stCase 324⟩
/-- rfc3164/machine.go:5900 -/
def stCase324 : K × Lbl := ⟨.ifElse (.cmp .eq .byte (.lit 32)) (.goto (.tr 341) .done) .done (.goto (.st 0) .done), .st 325⟩
/-- rfc3164/machine.go:5905 -/
def st325 : K × Lbl := ⟨.stmt .incP (.ifElse .pEqPe (.goto (.testEofN 325) .done) .done .done), .stCase 325⟩
/-- rfc3164/machine.go:5909 -/
def stCase325 : K × Lbl := ⟨.stmt .widecByte (.ifElse (.and (.cmp .le (.lit 48) .byte) (.cmp .le .byte (.lit 51))) (.stmt (.widecBase 256 0) (.ifElse (.prim .rfc3339) (.stmt (.widecAdd 256) .done) .done .done)) .done (.ifElse (.and (.cmp .le (.lit 560) .widec) (.cmp .le .widec (.lit 563))) (.goto (.st 321) .done) .done (.goto (.tr 333) .done))), .st 326⟩
/-- rfc3164/machine.go:5921 -/
def st326 : K × Lbl := ⟨.stmt .incP (.ifElse .pEqPe (.goto (.testEofN 326) .done) .done .done), .stCase 326⟩
/-- rfc3164/machine.go:5925 -/
def stCase326 : K × Lbl := ⟨.stmt .widecByte (.ifElse (.and (.cmp .le (.lit 48) .byte) (.cmp .le .byte (.lit 51))) (.stmt (.widecBase 256 0) (.ifElse (.prim .rfc3339) (.stmt (.widecAdd 256) .done) .done .done)) .done (.ifElse (.and (.cmp .le (.lit 560) .widec) (.cmp .le .widec (.lit 563))) (.goto (.st 312) .done) .done (.goto (.st 0) .done))), .st 327⟩
/-- rfc3164/machine.go:5937 -/
def st327 : K × Lbl := ⟨.stmt .incP (.ifElse .pEqPe (.goto (.testEofN 327) .done) .done .done), .stCase 327⟩
/-- rfc3164/machine.go:5941 -/
def stCase327 : K × Lbl := ⟨.stmt .widecByte (.ifElse (.and (.cmp .le (.lit 48) .byte) (.cmp .le .byte (.lit 57))) (.stmt (.widecBase 256 0) (.ifElse (.prim .rfc3339) (.stmt (.widecAdd 256) .done) .done .done)) .done (.ifElse (.and (.cmp .le (.lit 560) .widec) (.cmp .le .widec (.lit 569))) (.goto (.st 309) .done) .done (.goto (.st 0) .done))), .st 328⟩
/-- rfc3164/machine.go:5953 -/
def st328 : K × Lbl := ⟨.stmt .incP (.ifElse .pEqPe (.goto (.testEofN 328) .done) .done .done), .stCase 328⟩
/-- rfc3164/machine.go:5957 -/
def stCase328 : K × Lbl := ⟨.stmt .widecByte (.ifElse (.and (.cmp .le (.lit 48) .byte) (.cmp .le .byte (.lit 49))) (.stmt (.widecBase 256 0) (.ifElse (.prim .rfc3339) (.stmt (.widecAdd 256) .done) .done .done)) .done (.ifElse (.and (.cmp .le (.lit 560) .widec) (.cmp .le .widec (.lit 561))) (.goto (.st 309) .done) .done (.goto (.st 0) .done))), .st 329⟩
/-- rfc3164/machine.go:5969 -/
def st329 : K × Lbl := ⟨.stmt .incP (.ifElse .pEqPe (.goto (.testEofN 329) .done) .done .done), .stCase 329⟩
/-- rfc3164/machine.go:5973 -/
def stCase329 : K × Lbl := ⟨.stmt .widecByte (.ifElse (.and (.cmp .le (.lit 48) .byte) (.cmp .le .byte (.lit 50))) (.stmt (.widecBase 256 0) (.ifElse (.prim .rfc3339) (.stmt (.widecAdd 256) .done) .done .done)) .done (.ifElse (.and (.cmp .le (.lit 560) .widec) (.cmp .le .widec (.lit 562))) (.goto (.st 306) .done) .done (.goto (.st 0) .done))), .tr 4⟩
/-- rfc3164/machine.go:5985 -/
def tr4 : K × Lbl := ⟨.stmt (.prim .pbP) (.goto (.st 330) .done), .st 330⟩
/-- rfc3164/machine.go:5990 -/
def st330 : K × Lbl := ⟨.stmt .incP (.ifElse .pEqPe (.goto (.testEofN 330) .done) .done .done), .stCase 330⟩
/-- rfc3164/machine.go:5994 -/
def stCase330 : K × Lbl := ⟨.stmt (.prim .priority) (.stmt (.prim .prioritySet) (.ifElse (.cmp .eq .byte (.lit 57)) (.goto (.st 332) .done) (.ifElse (.cmp .eq .byte (.lit 62)) (.goto (.st 4) .done) .done .done) (.ifElse (.and (.cmp .le (.lit 48) .byte) (.cmp .le .byte (.lit 56))) (.goto (.st 331) .done) .done (.goto (.tr 2) .done)))), .tr 5⟩
/-- rfc3164/machine.go:6009 -/
def tr5 : K × Lbl := ⟨.stmt (.prim .pbP) (.goto (.st 331) .done), .st 331⟩
/-- rfc3164/machine.go:6014 -/
def st331 : K × Lbl := ⟨.stmt .incP (.ifElse .pEqPe (.goto (.testEofN 331) .done) .done .done), .stCase 331⟩
/-- rfc3164/machine.go:6018 -/
def stCase331 : K × Lbl := ⟨.stmt (.prim .priority) (.stmt (.prim .prioritySet) (.ifElse (.cmp .eq .byte (.lit 62)) (.goto (.st 4) .done) .done (.ifElse (.and (.cmp .le (.lit 48) .byte) (.cmp .le .byte (.lit 57))) (.goto (.st 3) .done) .done (.goto (.tr 2) .done)))), .st 332⟩
/-- rfc3164/machine.go:6030 -/
def st332 : K × Lbl := ⟨.stmt .incP (.ifElse .pEqPe (.goto (.testEofN 332) .done) .done .done), .stCase 332⟩
/-- rfc3164/machine.go:6034 -/
def stCase332 : K × Lbl := ⟨.stmt (.prim .priority) (.stmt (.prim .prioritySet) (.ifElse (.cmp .eq .byte (.lit 62)) (.goto (.st 4) .done) .done (.ifElse (.and (.cmp .le (.lit 48) .byte) (.cmp .le .byte (.lit 49))) (.goto (.st 3) .done) .done (.goto (.tr 2) .done)))), .st 373⟩
/-- rfc3164/machine.go:6046 -/
def st373 : K × Lbl := ⟨.stmt .incP (.ifElse .pEqPe (.goto (.testEofN 373) .done) .done .done), .stCase 373⟩
/-- rfc3164/machine.go:6050 -/
def stCase373 : K × Lbl := ⟨.ifElse (.cmp .eq .byte (.lit 10)) (.goto (.st 0) .done) (.ifElse (.cmp .eq .byte (.lit 13)) (.goto (.st 0) .done) .done .done) (.goto (.st 373) .done), .stOut⟩
/-- rfc3164/machine.go:6058 -/
def stOut : K × Lbl := ⟨.done, .testEofN 2⟩
/-- rfc3164/machine.go:6059 -/
def testEof2 : K × Lbl := ⟨.stmt (.setCs 2) (.goto .testEof .done), .testEofN 3⟩
/-- rfc3164/machine.go:6062 -/
def testEof3 : K × Lbl := ⟨.stmt (.setCs 3) (.goto .testEof .done), .testEofN 4⟩
/-- rfc3164/machine.go:6065 -/
def testEof4 : K × Lbl := ⟨.stmt (.setCs 4) (.goto .testEof .done), .testEofN 5⟩
/-- rfc3164/machine.go:6068 -/
def testEof5 : K × Lbl := ⟨.stmt (.setCs 5) (.goto .testEof .done), .testEofN 6⟩
/-- rfc3164/machine.go:6071 -/
def testEof6 : K × Lbl := ⟨.stmt (.setCs 6) (.goto .testEof .done), .testEofN 7⟩
/-- rfc3164/machine.go:6074 -/
def testEof7 : K × Lbl := ⟨.stmt (.setCs 7) (.goto .testEof .done), .testEofN 8⟩
/-- rfc3164/machine.go:6077 -/
def testEof8 : K × Lbl := ⟨.stmt (.setCs 8) (.goto .testEof .done), .testEofN 9⟩
/-- rfc3164/machine.go:6080 -/
def testEof9 : K × Lbl := ⟨.stmt (.setCs 9) (.goto .testEof .done), .testEofN 10⟩
/-- rfc3164/machine.go:6083 -/
def testEof10 : K × Lbl := ⟨.stmt (.setCs 10) (.goto .testEof .done), .testEofN 11⟩
/-- rfc3164/machine.go:6086 -/
def testEof11 : K × Lbl := ⟨.stmt (.setCs 11) (.goto .testEof .done), .testEofN 12⟩
/-- rfc3164/machine.go:6089 -/
def testEof12 : K × Lbl := ⟨.stmt (.setCs 12) (.goto .testEof .done), .testEofN 13⟩
/-- rfc3164/machine.go:6092 -/
def testEof13 : K × Lbl := ⟨.stmt (.setCs 13) (.goto .testEof .done), .testEofN 14⟩
/-- rfc3164/machine.go:6095 -/
def testEof14 : K × Lbl := ⟨.stmt (.setCs 14) (.goto .testEof .done), .testEofN 15⟩
/-- rfc3164/machine.go:6098 -/
def testEof15 : K × Lbl := ⟨.stmt (.setCs 15) (.goto .testEof .done), .testEofN 16⟩
/-- rfc3164/machine.go:6101 -/
def testEof16 : K × Lbl := ⟨.stmt (.setCs 16) (.goto .testEof .done), .testEofN 17⟩
/-- rfc3164/machine.go:6104 -/
def testEof17 : K × Lbl := ⟨.stmt (.setCs 17) (.goto .testEof .done), .testEofN 18⟩
/-- rfc3164/machine.go:6107 -/
def testEof18 : K × Lbl := ⟨.stmt (.setCs 18) (.goto .testEof .done), .testEofN 19⟩
/-- rfc3164/machine.go:6110 -/
def testEof19 : K × Lbl := ⟨.stmt (.setCs 19) (.goto .testEof .done), .testEofN 20⟩
/-- rfc3164/machine.go:6113 -/
def testEof20 : K × Lbl := ⟨.stmt (.setCs 20) (.goto .testEof .done), .testEofN 21⟩
/-- rfc3164/machine.go:6116 -/
def testEof21 : K × Lbl := ⟨.stmt (.setCs 21) (.goto .testEof .done), .testEofN 22⟩
/-- rfc3164/machine.go:6119 -/
def testEof22 : K × Lbl := ⟨.stmt (.setCs 22) (.goto .testEof .done), .testEofN 333⟩
/-- rfc3164/machine.go:6122 -/
def testEof333 : K × Lbl := ⟨.stmt (.setCs 333) (.goto .testEof .done), .testEofN 334⟩
/-- rfc3164/machine.go:6125 -/
def testEof334 : K × Lbl := ⟨.stmt (.setCs 334) (.goto .testEof .done), .testEofN 335⟩
/-- rfc3164/machine.go:6128 -/
def testEof335 : K × Lbl := ⟨.stmt (.setCs 335) (.goto .testEof .done), .testEofN 336⟩
/-- rfc3164/machine.go:6131 -/
def testEof336 : K × Lbl := ⟨.stmt (.setCs 336) (.goto .testEof .done), .testEofN 337⟩
/-- rfc3164/machine.go:6134 -/
def testEof337 : K × Lbl := ⟨.stmt (.setCs 337) (.goto .testEof .done), .testEofN 338⟩
/-- rfc3164/machine.go:6137 -/
def testEof338 : K × Lbl := ⟨.stmt (.setCs 338) (.goto .testEof .done), .testEofN 339⟩
/-- rfc3164/machine.go:6140 -/
def testEof339 : K × Lbl := ⟨.stmt (.setCs 339) (.goto .testEof .done), .testEofN 340⟩
/-- rfc3164/machine.go:6143 -/
def testEof340 : K × Lbl := ⟨.stmt (.setCs 340) (.goto .testEof .done), .testEofN 341⟩
/-- rfc3164/machine.go:6146 -/
def testEof341 : K × Lbl := ⟨.stmt (.setCs 341) (.goto .testEof .done), .testEofN 342⟩
/-- rfc3164/machine.go:6149 -/
def testEof342 : K × Lbl := ⟨.stmt (.setCs 342) (.goto .testEof .done), .testEofN 343⟩
/-- rfc3164/machine.go:6152 -/
def testEof343 : K × Lbl := ⟨.stmt (.setCs 343) (.goto .testEof .done), .testEofN 344⟩
/-- rfc3164/machine.go:6155 -/
def testEof344 : K × Lbl := ⟨.stmt (.setCs 344) (.goto .testEof .done), .testEofN 345⟩
/-- rfc3164/machine.go:6158 -/
def testEof345 : K × Lbl := ⟨.stmt (.setCs 345) (.goto .testEof .done), .testEofN 346⟩
/-- rfc3164/machine.go:6161 -/
def testEof346 : K × Lbl := ⟨.stmt (.setCs 346) (.goto .testEof .done), .testEofN 347⟩
/-- rfc3164/machine.go:6164 -/
def testEof347 : K × Lbl := ⟨.stmt (.setCs 347) (.goto .testEof .done), .testEofN 348⟩
/-- rfc3164/machine.go:6167 -/
def testEof348 : K × Lbl := ⟨.stmt (.setCs 348) (.goto .testEof .done), .testEofN 349⟩
/-- rfc3164/machine.go:6170 -/
def testEof349 : K × Lbl := ⟨.stmt (.setCs 349) (.goto .testEof .done), .testEofN 350⟩
/-- rfc3164/machine.go:6173 -/
def testEof350 : K × Lbl := ⟨.stmt (.setCs 350) (.goto .testEof .done), .testEofN 351⟩
/-- rfc3164/machine.go:6176 -/
def testEof351 : K × Lbl := ⟨.stmt (.setCs 351) (.goto .testEof .done), .testEofN 352⟩
/-- rfc3164/machine.go:6179 -/
def testEof352 : K × Lbl := ⟨.stmt (.setCs 352) (.goto .testEof .done), .testEofN 353⟩
/-- rfc3164/machine.go:6182 -/
def testEof353 : K × Lbl := ⟨.stmt (.setCs 353) (.goto .testEof .done), .testEofN 354⟩
/-- rfc3164/machine.go:6185 -/
def testEof354 : K × Lbl := ⟨.stmt (.setCs 354) (.goto .testEof .done), .testEofN 355⟩
/-- rfc3164/machine.go:6188 -/
def testEof355 : K × Lbl := ⟨.stmt (.setCs 355) (.goto .testEof .done), .testEofN 356⟩
/-- rfc3164/machine.go:6191 -/
def testEof356 : K × Lbl := ⟨.stmt (.setCs 356) (.goto .testEof .done), .testEofN 357⟩
/-- rfc3164/machine.go:6194 -/
def testEof357 : K × Lbl := ⟨.stmt (.setCs 357) (.goto .testEof .done), .testEofN 358⟩
/-- rfc3164/machine.go:6197 -/
def testEof358 : K × Lbl := ⟨.stmt (.setCs 358) (.goto .testEof .done), .testEofN 359⟩
/-- rfc3164/machine.go:6200 -/
def testEof359 : K × Lbl := ⟨.stmt (.setCs 359) (.goto .testEof .done), .testEofN 360⟩
/-- rfc3164/machine.go:6203 -/
def testEof360 : K × Lbl := ⟨.stmt (.setCs 360) (.goto .testEof .done), .testEofN 361⟩
/-- rfc3164/machine.go:6206 -/
def testEof361 : K × Lbl := ⟨.stmt (.setCs 361) (.goto .testEof .done), .testEofN 362⟩
/-- rfc3164/machine.go:6209 -/
def testEof362 : K × Lbl := ⟨.stmt (.setCs 362) (.goto .testEof .done), .testEofN 363⟩
/-- rfc3164/machine.go:6212 -/
def testEof363 : K × Lbl := ⟨.stmt (.setCs 363) (.goto .testEof .done), .testEofN 364⟩
/-- rfc3164/machine.go:6215 -/
def testEof364 : K × Lbl := ⟨.stmt (.setCs 364) (.goto .testEof .done), .testEofN 365⟩
/-- rfc3164/machine.go:6218 -/
def testEof365 : K × Lbl := ⟨.stmt (.setCs 365) (.goto .testEof .done), .testEofN 366⟩
/-- rfc3164/machine.go:6221 -/
def testEof366 : K × Lbl := ⟨.stmt (.setCs 366) (.goto .testEof .done), .testEofN 367⟩
/-- rfc3164/machine.go:6224 -/
def testEof367 : K × Lbl := ⟨.stmt (.setCs 367) (.goto .testEof .done), .testEofN 368⟩
/-- rfc3164/machine.go:6227 -/
def testEof368 : K × Lbl := ⟨.stmt (.setCs 368) (.goto .testEof .done), .testEofN 23⟩
/-- rfc3164/machine.go:6230 -/
def testEof23 : K × Lbl := ⟨.stmt (.setCs 23) (.goto .testEof .done), .testEofN 24⟩
/-- rfc3164/machine.go:6233 -/
def testEof24 : K × Lbl := ⟨.stmt (.setCs 24) (.goto .testEof .done), .testEofN 25⟩
/-- rfc3164/machine.go:6236 -/
def testEof25 : K × Lbl := ⟨.stmt (.setCs 25) (.goto .testEof .done), .testEofN 26⟩
/-- rfc3164/machine.go:6239 -/
def testEof26 : K × Lbl := ⟨.stmt (.setCs 26) (.goto .testEof .done), .testEofN 369⟩
/-- rfc3164/machine.go:6242 -/
def testEof369 : K × Lbl := ⟨.stmt (.setCs 369) (.goto .testEof .done), .testEofN 370⟩
/-- rfc3164/machine.go:6245 -/
def testEof370 : K × Lbl := ⟨.stmt (.setCs 370) (.goto .testEof .done), .testEofN 371⟩
/-- rfc3164/machine.go:6248 -/
def testEof371 : K × Lbl := ⟨.stmt (.setCs 371) (.goto .testEof .done), .testEofN 372⟩
/-- rfc3164/machine.go:6251 -/
def testEof372 : K × Lbl := ⟨.stmt (.setCs 372) (.goto .testEof .done), .testEofN 27⟩
/-- rfc3164/machine.go:6254 -/
def testEof27 : K × Lbl := ⟨.stmt (.setCs 27) (.goto .testEof .done), .testEofN 28⟩
/-- rfc3164/machine.go:6257 -/
def testEof28 : K × Lbl := ⟨.stmt (.setCs 28) (.goto .testEof .done), .testEofN 29⟩
/-- rfc3164/machine.go:6260 -/
def testEof29 : K × Lbl := ⟨.stmt (.setCs 29) (.goto .testEof .done), .testEofN 30⟩
/-- rfc3164/machine.go:6263 -/
def testEof30 : K × Lbl := ⟨.stmt (.setCs 30) (.goto .testEof .done), .testEofN 31⟩
/-- rfc3164/machine.go:6266 -/
def testEof31 : K × Lbl := ⟨.stmt (.setCs 31) (.goto .testEof .done), .testEofN 32⟩
/-- rfc3164/machine.go:6269 -/
def testEof32 : K × Lbl := ⟨.stmt (.setCs 32) (.goto .testEof .done), .testEofN 33⟩
/-- rfc3164/machine.go:6272 -/
def testEof33 : K × Lbl := ⟨.stmt (.setCs 33) (.goto .testEof .done), .testEofN 34⟩
/-- rfc3164/machine.go:6275 -/
def testEof34 : K × Lbl := ⟨.stmt (.setCs 34) (.goto .testEof .done), .testEofN 35⟩
/-- rfc3164/machine.go:6278 -/
def testEof35 : K × Lbl := ⟨.stmt (.setCs 35) (.goto .testEof .done), .testEofN 36⟩
/-- rfc3164/machine.go:6281 -/
def testEof36 : K × Lbl := ⟨.stmt (.setCs 36) (.goto .testEof .done), .testEofN 37⟩
/-- rfc3164/machine.go:6284 -/
def testEof37 : K × Lbl := ⟨.stmt (.setCs 37) (.goto .testEof .done), .testEofN 38⟩
/-- rfc3164/machine.go:6287 -/
def testEof38 : K × Lbl := ⟨.stmt (.setCs 38) (.goto .testEof .done), .testEofN 39⟩
/-- rfc3164/machine.go:6290 -/
def testEof39 : K × Lbl := ⟨.stmt (.setCs 39) (.goto .testEof .done), .testEofN 40⟩
/-- rfc3164/machine.go:6293 -/
def testEof40 : K × Lbl := ⟨.stmt (.setCs 40) (.goto .testEof .done), .testEofN 41⟩
/-- rfc3164/machine.go:6296 -/
def testEof41 : K × Lbl := ⟨.stmt (.setCs 41) (.goto .testEof .done), .testEofN 42⟩
/-- rfc3164/machine.go:6299 -/
def testEof42 : K × Lbl := ⟨.stmt (.setCs 42) (.goto .testEof .done), .testEofN 43⟩
/-- rfc3164/machine.go:6302 -/
def testEof43 : K × Lbl := ⟨.stmt (.setCs 43) (.goto .testEof .done), .testEofN 44⟩
/-- rfc3164/machine.go:6305 -/
def testEof44 : K × Lbl := ⟨.stmt (.setCs 44) (.goto .testEof .done), .testEofN 45⟩
/-- rfc3164/machine.go:6308 -/
def testEof45 : K × Lbl := ⟨.stmt (.setCs 45) (.goto .testEof .done), .testEofN 46⟩
/-- rfc3164/machine.go:6311 -/
def testEof46 : K × Lbl := ⟨.stmt (.setCs 46) (.goto .testEof .done), .testEofN 47⟩
/-- rfc3164/machine.go:6314 -/
def testEof47 : K × Lbl := ⟨.stmt (.setCs 47) (.goto .testEof .done), .testEofN 48⟩
/-- rfc3164/machine.go:6317 -/
def testEof48 : K × Lbl := ⟨.stmt (.setCs 48) (.goto .testEof .done), .testEofN 49⟩
/-- rfc3164/machine.go:6320 -/
def testEof49 : K × Lbl := ⟨.stmt (.setCs 49) (.goto .testEof .done), .testEofN 50⟩
/-- rfc3164/machine.go:6323 -/
def testEof50 : K × Lbl := ⟨.stmt (.setCs 50) (.goto .testEof .done), .testEofN 51⟩
/-- rfc3164/machine.go:6326 -/
def testEof51 : K × Lbl := ⟨.stmt (.setCs 51) (.goto .testEof .done), .testEofN 52⟩
/-- rfc3164/machine.go:6329 -/
def testEof52 : K × Lbl := ⟨.stmt (.setCs 52) (.goto .testEof .done), .testEofN 53⟩
/-- rfc3164/machine.go:6332 -/
def testEof53 : K × Lbl := ⟨.stmt (.setCs 53) (.goto .testEof .done), .testEofN 54⟩
/-- rfc3164/machine.go:6335 -/
def testEof54 : K × Lbl := ⟨.stmt (.setCs 54) (.goto .testEof .done), .testEofN 55⟩
/-- rfc3164/machine.go:6338 -/
def testEof55 : K × Lbl := ⟨.stmt (.setCs 55) (.goto .testEof .done), .testEofN 56⟩
/-- rfc3164/machine.go:6341 -/
def testEof56 : K × Lbl := ⟨.stmt (.setCs 56) (.goto .testEof .done), .testEofN 57⟩
/-- rfc3164/machine.go:6344 -/
def testEof57 : K × Lbl := ⟨.stmt (.setCs 57) (.goto .testEof .done), .testEofN 58⟩
/-- rfc3164/machine.go:6347 -/
def testEof58 : K × Lbl := ⟨.stmt (.setCs 58) (.goto .testEof .done), .testEofN 59⟩
/-- rfc3164/machine.go:6350 -/
def testEof59 : K × Lbl := ⟨.stmt (.setCs 59) (.goto .testEof .done), .testEofN 60⟩
/-- rfc3164/machine.go:6353 -/
def testEof60 : K × Lbl := ⟨.stmt (.setCs 60) (.goto .testEof .done), .testEofN 61⟩
/-- rfc3164/machine.go:6356 -/
def testEof61 : K × Lbl := ⟨.stmt (.setCs 61) (.goto .testEof .done), .testEofN 62⟩
/-- rfc3164/machine.go:6359 -/
def testEof62 : K × Lbl := ⟨.stmt (.setCs 62) (.goto .testEof .done), .testEofN 63⟩
/-- rfc3164/machine.go:6362 -/
def testEof63 : K × Lbl := ⟨.stmt (.setCs 63) (.goto .testEof .done), .testEofN 64⟩
/-- rfc3164/machine.go:6365 -/
def testEof64 : K × Lbl := ⟨.stmt (.setCs 64) (.goto .testEof .done), .testEofN 65⟩
/-- rfc3164/machine.go:6368 -/
def testEof65 : K × Lbl := ⟨.stmt (.setCs 65) (.goto .testEof .done), .testEofN 66⟩
/-- rfc3164/machine.go:6371 -/
def testEof66 : K × Lbl := ⟨.stmt (.setCs 66) (.goto .testEof .done), .testEofN 67⟩
/-- rfc3164/machine.go:6374 -/
def testEof67 : K × Lbl := ⟨.stmt (.setCs 67) (.goto .testEof .done), .testEofN 68⟩
/-- rfc3164/machine.go:6377 -/
def testEof68 : K × Lbl := ⟨.stmt (.setCs 68) (.goto .testEof .done), .testEofN 69⟩
/-- rfc3164/machine.go:6380 -/
def testEof69 : K × Lbl := ⟨.stmt (.setCs 69) (.goto .testEof .done), .testEofN 70⟩
/-- rfc3164/machine.go:6383 -/
def testEof70 : K × Lbl := ⟨.stmt (.setCs 70) (.goto .testEof .done), .testEofN 71⟩
/-- rfc3164/machine.go:6386 -/
def testEof71 : K × Lbl := ⟨.stmt (.setCs 71) (.goto .testEof .done), .testEofN 72⟩
/-- rfc3164/machine.go:6389 -/
def testEof72 : K × Lbl := ⟨.stmt (.setCs 72) (.goto .testEof .done), .testEofN 73⟩
/-- rfc3164/machine.go:6392 -/
def testEof73 : K × Lbl := ⟨.stmt (.setCs 73) (.goto .testEof .done), .testEofN 74⟩
/-- rfc3164/machine.go:6395 -/
def testEof74 : K × Lbl := ⟨.stmt (.setCs 74) (.goto .testEof .done), .testEofN 75⟩
/-- rfc3164/machine.go:6398 -/
def testEof75 : K × Lbl := ⟨.stmt (.setCs 75) (.goto .testEof .done), .testEofN 76⟩
/-- rfc3164/machine.go:6401 -/
def testEof76 : K × Lbl := ⟨.stmt (.setCs 76) (.goto .testEof .done), .testEofN 77⟩
/-- rfc3164/machine.go:6404 -/
def testEof77 : K × Lbl := ⟨.stmt (.setCs 77) (.goto .testEof .done), .testEofN 78⟩
/-- rfc3164/machine.go:6407 -/
def testEof78 : K × Lbl := ⟨.stmt (.setCs 78) (.goto .testEof .done), .testEofN 79⟩
/-- rfc3164/machine.go:6410 -/
def testEof79 : K × Lbl := ⟨.stmt (.setCs 79) (.goto .testEof .done), .testEofN 80⟩
/-- rfc3164/machine.go:6413 -/
def testEof80 : K × Lbl := ⟨.stmt (.setCs 80) (.goto .testEof .done), .testEofN 81⟩
/-- rfc3164/machine.go:6416 -/
def testEof81 : K × Lbl := ⟨.stmt (.setCs 81) (.goto .testEof .done), .testEofN 82⟩
/-- rfc3164/machine.go:6419 -/
def testEof82 : K × Lbl := ⟨.stmt (.setCs 82) (.goto .testEof .done), .testEofN 83⟩
/-- rfc3164/machine.go:6422 -/
def testEof83 : K × Lbl := ⟨.stmt (.setCs 83) (.goto .testEof .done), .testEofN 84⟩
/-- rfc3164/machine.go:6425 -/
def testEof84 : K × Lbl := ⟨.stmt (.setCs 84) (.goto .testEof .done), .testEofN 85⟩
/-- rfc3164/machine.go:6428 -/
def testEof85 : K × Lbl := ⟨.stmt (.setCs 85) (.goto .testEof .done), .testEofN 86⟩
/-- rfc3164/machine.go:6431 -/
def testEof86 : K × Lbl := ⟨.stmt (.setCs 86) (.goto .testEof .done), .testEofN 87⟩
/-- rfc3164/machine.go:6434 -/
def testEof87 : K × Lbl := ⟨.stmt (.setCs 87) (.goto .testEof .done), .testEofN 88⟩
/-- rfc3164/machine.go:6437 -/
def testEof88 : K × Lbl := ⟨.stmt (.setCs 88) (.goto .testEof .done), .testEofN 89⟩
/-- rfc3164/machine.go:6440 -/
def testEof89 : K × Lbl := ⟨.stmt (.setCs 89) (.goto .testEof .done), .testEofN 90⟩
/-- rfc3164/machine.go:6443 -/
def testEof90 : K × Lbl := ⟨.stmt (.setCs 90) (.goto .testEof .done), .testEofN 91⟩
/-- rfc3164/machine.go:6446 -/
def testEof91 : K × Lbl := ⟨.stmt (.setCs 91) (.goto .testEof .done), .testEofN 92⟩
/-- rfc3164/machine.go:6449 -/
def testEof92 : K × Lbl := ⟨.stmt (.setCs 92) (.goto .testEof .done), .testEofN 93⟩
/-- rfc3164/machine.go:6452 -/
def testEof93 : K × Lbl := ⟨.stmt (.setCs 93) (.goto .testEof .done), .testEofN 94⟩
/-- rfc3164/machine.go:6455 -/
def testEof94 : K × Lbl := ⟨.stmt (.setCs 94) (.goto .testEof .done), .testEofN 95⟩
/-- rfc3164/machine.go:6458 -/
def testEof95 : K × Lbl := ⟨.stmt (.setCs 95) (.goto .testEof .done), .testEofN 96⟩
/-- rfc3164/machine.go:6461 -/
def testEof96 : K × Lbl := ⟨.stmt (.setCs 96) (.goto .testEof .done), .testEofN 97⟩
/-- rfc3164/machine.go:6464 -/
def testEof97 : K × Lbl := ⟨.stmt (.setCs 97) (.goto .testEof .done), .testEofN 98⟩
/-- rfc3164/machine.go:6467 -/
def testEof98 : K × Lbl := ⟨.stmt (.setCs 98) (.goto .testEof .done), .testEofN 99⟩
/-- rfc3164/machine.go:6470 -/
def testEof99 : K × Lbl := ⟨.stmt (.setCs 99) (.goto .testEof .done), .testEofN 100⟩
/-- rfc3164/machine.go:6473 -/
def testEof100 : K × Lbl := ⟨.stmt (.setCs 100) (.goto .testEof .done), .testEofN 101⟩
/-- rfc3164/machine.go:6476 -/
def testEof101 : K × Lbl := ⟨.stmt (.setCs 101) (.goto .testEof .done), .testEofN 102⟩
/-- rfc3164/machine.go:6479 -/
def testEof102 : K × Lbl := ⟨.stmt (.setCs 102) (.goto .testEof .done), .testEofN 103⟩
/-- rfc3164/machine.go:6482 -/
def testEof103 : K × Lbl := ⟨.stmt (.setCs 103) (.goto .testEof .done), .testEofN 104⟩
/-- rfc3164/machine.go:6485 -/
def testEof104 : K × Lbl := ⟨.stmt (.setCs 104) (.goto .testEof .done), .testEofN 105⟩
/-- rfc3164/machine.go:6488 -/
def testEof105 : K × Lbl := ⟨.stmt (.setCs 105) (.goto .testEof .done), .testEofN 106⟩
/-- rfc3164/machine.go:6491 -/
def testEof106 : K × Lbl := ⟨.stmt (.setCs 106) (.goto .testEof .done), .testEofN 107⟩
/-- rfc3164/machine.go:6494 -/
def testEof107 : K × Lbl := ⟨.stmt (.setCs 107) (.goto .testEof .done), .testEofN 108⟩
/-- rfc3164/machine.go:6497 -/
def testEof108 : K × Lbl := ⟨.stmt (.setCs 108) (.goto .testEof .done), .testEofN 109⟩
/-- rfc3164/machine.go:6500 -/
def testEof109 : K × Lbl := ⟨.stmt (.setCs 109) (.goto .testEof .done), .testEofN 110⟩
/-- rfc3164/machine.go:6503 -/
def testEof110 : K × Lbl := ⟨.stmt (.setCs 110) (.goto .testEof .done), .testEofN 111⟩
/-- rfc3164/machine.go:6506 -/
def testEof111 : K × Lbl := ⟨.stmt (.setCs 111) (.goto .testEof .done), .testEofN 112⟩
/-- rfc3164/machine.go:6509 -/
def testEof112 : K × Lbl := ⟨.stmt (.setCs 112) (.goto .testEof .done), .testEofN 113⟩
/-- rfc3164/machine.go:6512 -/
def testEof113 : K × Lbl := ⟨.stmt (.setCs 113) (.goto .testEof .done), .testEofN 114⟩
/-- rfc3164/machine.go:6515 -/
def testEof114 : K × Lbl := ⟨.stmt (.setCs 114) (.goto .testEof .done), .testEofN 115⟩
/-- rfc3164/machine.go:6518 -/
def testEof115 : K × Lbl := ⟨.stmt (.setCs 115) (.goto .testEof .done), .testEofN 116⟩
/-- rfc3164/machine.go:6521 -/
def testEof116 : K × Lbl := ⟨.stmt (.setCs 116) (.goto .testEof .done), .testEofN 117⟩
/-- rfc3164/machine.go:6524 -/
def testEof117 : K × Lbl := ⟨.stmt (.setCs 117) (.goto .testEof .done), .testEofN 118⟩
/-- rfc3164/machine.go:6527 -/
def testEof118 : K × Lbl := ⟨.stmt (.setCs 118) (.goto .testEof .done), .testEofN 119⟩
/-- rfc3164/machine.go:6530 -/
def testEof119 : K × Lbl := ⟨.stmt (.setCs 119) (.goto .testEof .done), .testEofN 120⟩
/-- rfc3164/machine.go:6533 -/
def testEof120 : K × Lbl := ⟨.stmt (.setCs 120) (.goto .testEof .done), .testEofN 121⟩
/-- rfc3164/machine.go:6536 -/
def testEof121 : K × Lbl := ⟨.stmt (.setCs 121) (.goto .testEof .done), .testEofN 122⟩
/-- rfc3164/machine.go:6539 -/
def testEof122 : K × Lbl := ⟨.stmt (.setCs 122) (.goto .testEof .done), .testEofN 123⟩
/-- rfc3164/machine.go:6542 -/
def testEof123 : K × Lbl := ⟨.stmt (.setCs 123) (.goto .testEof .done), .testEofN 124⟩
/-- rfc3164/machine.go:6545 -/
def testEof124 : K × Lbl := ⟨.stmt (.setCs 124) (.goto .testEof .done), .testEofN 125⟩
/-- rfc3164/machine.go:6548 -/
def testEof125 : K × Lbl := ⟨.stmt (.setCs 125) (.goto .testEof .done), .testEofN 126⟩
/-- rfc3164/machine.go:6551 -/
def testEof126 : K × Lbl := ⟨.stmt (.setCs 126) (.goto .testEof .done), .testEofN 127⟩
/-- rfc3164/machine.go:6554 -/
def testEof127 : K × Lbl := ⟨.stmt (.setCs 127) (.goto .testEof .done), .testEofN 128⟩
/-- rfc3164/machine.go:6557 -/
def testEof128 : K × Lbl := ⟨.stmt (.setCs 128) (.goto .testEof .done), .testEofN 129⟩
/-- rfc3164/machine.go:6560 -/
def testEof129 : K × Lbl := ⟨.stmt (.setCs 129) (.goto .testEof .done), .testEofN 130⟩
/-- rfc3164/machine.go:6563 -/
def testEof130 : K × Lbl := ⟨.stmt (.setCs 130) (.goto .testEof .done), .testEofN 131⟩
/-- rfc3164/machine.go:6566 -/
def testEof131 : K × Lbl := ⟨.stmt (.setCs 131) (.goto .testEof .done), .testEofN 132⟩
/-- rfc3164/machine.go:6569 -/
def testEof132 : K × Lbl := ⟨.stmt (.setCs 132) (.goto .testEof .done), .testEofN 133⟩
/-- rfc3164/machine.go:6572 -/
def testEof133 : K × Lbl := ⟨.stmt (.setCs 133) (.goto .testEof .done), .testEofN 134⟩
/-- rfc3164/machine.go:6575 -/
def testEof134 : K × Lbl := ⟨.stmt (.setCs 134) (.goto .testEof .done), .testEofN 135⟩
/-- rfc3164/machine.go:6578 -/
def testEof135 : K × Lbl := ⟨.stmt (.setCs 135) (.goto .testEof .done), .testEofN 136⟩
/-- rfc3164/machine.go:6581 -/
def testEof136 : K × Lbl := ⟨.stmt (.setCs 136) (.goto .testEof .done), .testEofN 137⟩
/-- rfc3164/machine.go:6584 -/
def testEof137 : K × Lbl := ⟨.stmt (.setCs 137) (.goto .testEof .done), .testEofN 138⟩
/-- rfc3164/machine.go:6587 -/
def testEof138 : K × Lbl := ⟨.stmt (.setCs 138) (.goto .testEof .done), .testEofN 139⟩
/-- rfc3164/machine.go:6590 -/
def testEof139 : K × Lbl := ⟨.stmt (.setCs 139) (.goto .testEof .done), .testEofN 140⟩
/-- rfc3164/machine.go:6593 -/
def testEof140 : K × Lbl := ⟨.stmt (.setCs 140) (.goto .testEof .done), .testEofN 141⟩
/-- rfc3164/machine.go:6596 -/
def testEof141 : K × Lbl := ⟨.stmt (.setCs 141) (.goto .testEof .done), .testEofN 142⟩
/-- rfc3164/machine.go:6599 -/
def testEof142 : K × Lbl := ⟨.stmt (.setCs 142) (.goto .testEof .done), .testEofN 143⟩
/-- rfc3164/machine.go:6602 -/
def testEof143 : K × Lbl := ⟨.stmt (.setCs 143) (.goto .testEof .done), .testEofN 144⟩
/-- rfc3164/machine.go:6605 -/
def testEof144 : K × Lbl := ⟨.stmt (.setCs 144) (.goto .testEof .done), .testEofN 145⟩
/-- rfc3164/machine.go:6608 -/
def testEof145 : K × Lbl := ⟨.stmt (.setCs 145) (.goto .testEof .done), .testEofN 146⟩
/-- rfc3164/machine.go:6611 -/
def testEof146 : K × Lbl := ⟨.stmt (.setCs 146) (.goto .testEof .done), .testEofN 147⟩
/-- rfc3164/machine.go:6614 -/
def testEof147 : K × Lbl := ⟨.stmt (.setCs 147) (.goto .testEof .done), .testEofN 148⟩
/-- rfc3164/machine.go:6617 -/
def testEof148 : K × Lbl := ⟨.stmt (.setCs 148) (.goto .testEof .done), .testEofN 149⟩
/-- rfc3164/machine.go:6620 -/
def testEof149 : K × Lbl := ⟨.stmt (.setCs 149) (.goto .testEof .done), .testEofN 150⟩
/-- rfc3164/machine.go:6623 -/
def testEof150 : K × Lbl := ⟨.stmt (.setCs 150) (.goto .testEof .done), .testEofN 151⟩
/-- rfc3164/machine.go:6626 -/
def testEof151 : K × Lbl := ⟨.stmt (.setCs 151) (.goto .testEof .done), .testEofN 152⟩
/-- rfc3164/machine.go:6629 -/
def testEof152 : K × Lbl := ⟨.stmt (.setCs 152) (.goto .testEof .done), .testEofN 153⟩
/-- rfc3164/machine.go:6632 -/
def testEof153 : K × Lbl := ⟨.stmt (.setCs 153) (.goto .testEof .done), .testEofN 154⟩
/-- rfc3164/machine.go:6635 -/
def testEof154 : K × Lbl := ⟨.stmt (.setCs 154) (.goto .testEof .done), .testEofN 155⟩
/-- rfc3164/machine.go:6638 -/
def testEof155 : K × Lbl := ⟨.stmt (.setCs 155) (.goto .testEof .done), .testEofN 156⟩
/-- rfc3164/machine.go:6641 -/
def testEof156 : K × Lbl := ⟨.stmt (.setCs 156) (.goto .testEof .done), .testEofN 157⟩
/-- rfc3164/machine.go:6644 -/
def testEof157 : K × Lbl := ⟨.stmt (.setCs 157) (.goto .testEof .done), .testEofN 158⟩
/-- rfc3164/machine.go:6647 -/
def testEof158 : K × Lbl := ⟨.stmt (.setCs 158) (.goto .testEof .done), .testEofN 159⟩
/-- rfc3164/machine.go:6650 -/
def testEof159 : K × Lbl := ⟨.stmt (.setCs 159) (.goto .testEof .done), .testEofN 160⟩
/-- rfc3164/machine.go:6653 -/
def testEof160 : K × Lbl := ⟨.stmt (.setCs 160) (.goto .testEof .done), .testEofN 161⟩
/-- rfc3164/machine.go:6656 -/
def testEof161 : K × Lbl := ⟨.stmt (.setCs 161) (.goto .testEof .done), .testEofN 162⟩
/-- rfc3164/machine.go:6659 -/
def testEof162 : K × Lbl := ⟨.stmt (.setCs 162) (.goto .testEof .done), .testEofN 163⟩
/-- rfc3164/machine.go:6662 -/
def testEof163 : K × Lbl := ⟨.stmt (.setCs 163) (.goto .testEof .done), .testEofN 164⟩
/-- rfc3164/machine.go:6665 -/
def testEof164 : K × Lbl := ⟨.stmt (.setCs 164) (.goto .testEof .done), .testEofN 165⟩
/-- rfc3164/machine.go:6668 -/
def testEof165 : K × Lbl := ⟨.stmt (.setCs 165) (.goto .testEof .done), .testEofN 166⟩
/-- rfc3164/machine.go:6671 -/
def testEof166 : K × Lbl := ⟨.stmt (.setCs 166) (.goto .testEof .done), .testEofN 167⟩
/-- rfc3164/machine.go:6674 -/
def testEof167 : K × Lbl := ⟨.stmt (.setCs 167) (.goto .testEof .done), .testEofN 168⟩
/-- rfc3164/machine.go:6677 -/
def testEof168 : K × Lbl := ⟨.stmt (.setCs 168) (.goto .testEof .done), .testEofN 169⟩
/-- rfc3164/machine.go:6680 -/
def testEof169 : K × Lbl := ⟨.stmt (.setCs 169) (.goto .testEof .done), .testEofN 170⟩
/-- rfc3164/machine.go:6683 -/
def testEof170 : K × Lbl := ⟨.stmt (.setCs 170) (.goto .testEof .done), .testEofN 171⟩
/-- rfc3164/machine.go:6686 -/
def testEof171 : K × Lbl := ⟨.stmt (.setCs 171) (.goto .testEof .done), .testEofN 172⟩
/-- rfc3164/machine.go:6689 -/
def testEof172 : K × Lbl := ⟨.stmt (.setCs 172) (.goto .testEof .done), .testEofN 173⟩
/-- rfc3164/machine.go:6692 -/
def testEof173 : K × Lbl := ⟨.stmt (.setCs 173) (.goto .testEof .done), .testEofN 174⟩
/-- rfc3164/machine.go:6695 -/
def testEof174 : K × Lbl := ⟨.stmt (.setCs 174) (.goto .testEof .done), .testEofN 175⟩
/-- rfc3164/machine.go:6698 -/
def testEof175 : K × Lbl := ⟨.stmt (.setCs 175) (.goto .testEof .done), .testEofN 176⟩
/-- rfc3164/machine.go:6701 -/
def testEof176 : K × Lbl := ⟨.stmt (.setCs 176) (.goto .testEof .done), .testEofN 177⟩
/-- rfc3164/machine.go:6704 -/
def testEof177 : K × Lbl := ⟨.stmt (.setCs 177) (.goto .testEof .done), .testEofN 178⟩
/-- rfc3164/machine.go:6707 -/
def testEof178 : K × Lbl := ⟨.stmt (.setCs 178) (.goto .testEof .done), .testEofN 179⟩
/-- rfc3164/machine.go:6710 -/
def testEof179 : K × Lbl := ⟨.stmt (.setCs 179) (.goto .testEof .done), .testEofN 180⟩
/-- rfc3164/machine.go:6713 -/
def testEof180 : K × Lbl := ⟨.stmt (.setCs 180) (.goto .testEof .done), .testEofN 181⟩
/-- rfc3164/machine.go:6716 -/
def testEof181 : K × Lbl := ⟨.stmt (.setCs 181) (.goto .testEof .done), .testEofN 182⟩
/-- rfc3164/machine.go:6719 -/
def testEof182 : K × Lbl := ⟨.stmt (.setCs 182) (.goto .testEof .done), .testEofN 183⟩
/-- rfc3164/machine.go:6722 -/
def testEof183 : K × Lbl := ⟨.stmt (.setCs 183) (.goto .testEof .done), .testEofN 184⟩
/-- rfc3164/machine.go:6725 -/
def testEof184 : K × Lbl := ⟨.stmt (.setCs 184) (.goto .testEof .done), .testEofN 185⟩
/-- rfc3164/machine.go:6728 -/
def testEof185 : K × Lbl := ⟨.stmt (.setCs 185) (.goto .testEof .done), .testEofN 186⟩
/-- rfc3164/machine.go:6731 -/
def testEof186 : K × Lbl := ⟨.stmt (.setCs 186) (.goto .testEof .done), .testEofN 187⟩
/-- rfc3164/machine.go:6734 -/
def testEof187 : K × Lbl := ⟨.stmt (.setCs 187) (.goto .testEof .done), .testEofN 188⟩
/-- rfc3164/machine.go:6737 -/
def testEof188 : K × Lbl := ⟨.stmt (.setCs 188) (.goto .testEof .done), .testEofN 189⟩
/-- rfc3164/machine.go:6740 -/
def testEof189 : K × Lbl := ⟨.stmt (.setCs 189) (.goto .testEof .done), .testEofN 190⟩
/-- rfc3164/machine.go:6743 -/
def testEof190 : K × Lbl := ⟨.stmt (.setCs 190) (.goto .testEof .done), .testEofN 191⟩
/-- rfc3164/machine.go:6746 -/
def testEof191 : K × Lbl := ⟨.stmt (.setCs 191) (.goto .testEof .done), .testEofN 192⟩
/-- rfc3164/machine.go:6749 -/
def testEof192 : K × Lbl := ⟨.stmt (.setCs 192) (.goto .testEof .done), .testEofN 193⟩
/-- rfc3164/machine.go:6752 -/
def testEof193 : K × Lbl := ⟨.stmt (.setCs 193) (.goto .testEof .done), .testEofN 194⟩
/-- rfc3164/machine.go:6755 -/
def testEof194 : K × Lbl := ⟨.stmt (.setCs 194) (.goto .testEof .done), .testEofN 195⟩
/-- rfc3164/machine.go:6758 -/
def testEof195 : K × Lbl := ⟨.stmt (.setCs 195) (.goto .testEof .done), .testEofN 196⟩
/-- rfc3164/machine.go:6761 -/
def testEof196 : K × Lbl := ⟨.stmt (.setCs 196) (.goto .testEof .done), .testEofN 197⟩
/-- rfc3164/machine.go:6764 -/
def testEof197 : K × Lbl := ⟨.stmt (.setCs 197) (.goto .testEof .done), .testEofN 198⟩
/-- rfc3164/machine.go:6767 -/
def testEof198 : K × Lbl := ⟨.stmt (.setCs 198) (.goto .testEof .done), .testEofN 199⟩
/-- rfc3164/machine.go:6770 -/
def testEof199 : K × Lbl := ⟨.stmt (.setCs 199) (.goto .testEof .done), .testEofN 200⟩
/-- rfc3164/machine.go:6773 -/
def testEof200 : K × Lbl := ⟨.stmt (.setCs 200) (.goto .testEof .done), .testEofN 201⟩
/-- rfc3164/machine.go:6776 -/
def testEof201 : K × Lbl := ⟨.stmt (.setCs 201) (.goto .testEof .done), .testEofN 202⟩
/-- rfc3164/machine.go:6779 -/
def testEof202 : K × Lbl := ⟨.stmt (.setCs 202) (.goto .testEof .done), .testEofN 203⟩
/-- rfc3164/machine.go:6782 -/
def testEof203 : K × Lbl := ⟨.stmt (.setCs 203) (.goto .testEof .done), .testEofN 204⟩
/-- rfc3164/machine.go:6785 -/
def testEof204 : K × Lbl := ⟨.stmt (.setCs 204) (.goto .testEof .done), .testEofN 205⟩
/-- rfc3164/machine.go:6788 -/
def testEof205 : K × Lbl := ⟨.stmt (.setCs 205) (.goto .testEof .done), .testEofN 206⟩
/-- rfc3164/machine.go:6791 -/
def testEof206 : K × Lbl := ⟨.stmt (.setCs 206) (.goto .testEof .done), .testEofN 207⟩
/-- rfc3164/machine.go:6794 -/
def testEof207 : K × Lbl := ⟨.stmt (.setCs 207) (.goto .testEof .done), .testEofN 208⟩
/-- rfc3164/machine.go:6797 -/
def testEof208 : K × Lbl := ⟨.stmt (.setCs 208) (.goto .testEof .done), .testEofN 209⟩
/-- rfc3164/machine.go:6800 -/
def testEof209 : K × Lbl := ⟨.stmt (.setCs 209) (.goto .testEof .done), .testEofN 210⟩
/-- rfc3164/machine.go:6803 -/
def testEof210 : K × Lbl := ⟨.stmt (.setCs 210) (.goto .testEof .done), .testEofN 211⟩
/-- rfc3164/machine.go:6806 -/
def testEof211 : K × Lbl := ⟨.stmt (.setCs 211) (.goto .testEof .done), .testEofN 212⟩
/-- rfc3164/machine.go:6809 -/
def testEof212 : K × Lbl := ⟨.stmt (.setCs 212) (.goto .testEof .done), .testEofN 213⟩
/-- rfc3164/machine.go:6812 -/
def testEof213 : K × Lbl := ⟨.stmt (.setCs 213) (.goto .testEof .done), .testEofN 214⟩
/-- rfc3164/machine.go:6815 -/
def testEof214 : K × Lbl := ⟨.stmt (.setCs 214) (.goto .testEof .done), .testEofN 215⟩
/-- rfc3164/machine.go:6818 -/
def testEof215 : K × Lbl := ⟨.stmt (.setCs 215) (.goto .testEof .done), .testEofN 216⟩
/-- rfc3164/machine.go:6821 -/
def testEof216 : K × Lbl := ⟨.stmt (.setCs 216) (.goto .testEof .done), .testEofN 217⟩
/-- rfc3164/machine.go:6824 -/
def testEof217 : K × Lbl := ⟨.stmt (.setCs 217) (.goto .testEof .done), .testEofN 218⟩
/-- rfc3164/machine.go:6827 -/
def testEof218 : K × Lbl := ⟨.stmt (.setCs 218) (.goto .testEof .done), .testEofN 219⟩
/-- rfc3164/machine.go:6830 -/
def testEof219 : K × Lbl := ⟨.stmt (.setCs 219) (.goto .testEof .done), .testEofN 220⟩
/-- rfc3164/machine.go:6833 -/
def testEof220 : K × Lbl := ⟨.stmt (.setCs 220) (.goto .testEof .done), .testEofN 221⟩
/-- rfc3164/machine.go:6836 -/
def testEof221 : K × Lbl := ⟨.stmt (.setCs 221) (.goto .testEof .done), .testEofN 222⟩
/-- rfc3164/machine.go:6839 -/
def testEof222 : K × Lbl := ⟨.stmt (.setCs 222) (.goto .testEof .done), .testEofN 223⟩
/-- rfc3164/machine.go:6842 -/
def testEof223 : K × Lbl := ⟨.stmt (.setCs 223) (.goto .testEof .done), .testEofN 224⟩
/-- rfc3164/machine.go:6845 -/
def testEof224 : K × Lbl := ⟨.stmt (.setCs 224) (.goto .testEof .done), .testEofN 225⟩
/-- rfc3164/machine.go:6848 -/
def testEof225 : K × Lbl := ⟨.stmt (.setCs 225) (.goto .testEof .done), .testEofN 226⟩
/-- rfc3164/machine.go:6851 -/
def testEof226 : K × Lbl := ⟨.stmt (.setCs 226) (.goto .testEof .done), .testEofN 227⟩
/-- rfc3164/machine.go:6854 -/
def testEof227 : K × Lbl := ⟨.stmt (.setCs 227) (.goto .testEof .done), .testEofN 228⟩
/-- rfc3164/machine.go:6857 -/
def testEof228 : K × Lbl := ⟨.stmt (.setCs 228) (.goto .testEof .done), .testEofN 229⟩
/-- rfc3164/machine.go:6860 -/
def testEof229 : K × Lbl := ⟨.stmt (.setCs 229) (.goto .testEof .done), .testEofN 230⟩
/-- rfc3164/machine.go:6863 -/
def testEof230 : K × Lbl := ⟨.stmt (.setCs 230) (.goto .testEof .done), .testEofN 231⟩
/-- rfc3164/machine.go:6866 -/
def testEof231 : K × Lbl := ⟨.stmt (.setCs 231) (.goto .testEof .done), .testEofN 232⟩
/-- rfc3164/machine.go:6869 -/
def testEof232 : K × Lbl := ⟨.stmt (.setCs 232) (.goto .testEof .done), .testEofN 233⟩
/-- rfc3164/machine.go:6872 -/
def testEof233 : K × Lbl := ⟨.stmt (.setCs 233) (.goto .testEof .done), .testEofN 234⟩
/-- rfc3164/machine.go:6875 -/
def testEof234 : K × Lbl := ⟨.stmt (.setCs 234) (.goto .testEof .done), .testEofN 235⟩
/-- rfc3164/machine.go:6878 -/
def testEof235 : K × Lbl := ⟨.stmt (.setCs 235) (.goto .testEof .done), .testEofN 236⟩
/-- rfc3164/machine.go:6881 -/
def testEof236 : K × Lbl := ⟨.stmt (.setCs 236) (.goto .testEof .done), .testEofN 237⟩
/-- rfc3164/machine.go:6884 -/
def testEof237 : K × Lbl := ⟨.stmt (.setCs 237) (.goto .testEof .done), .testEofN 238⟩
/-- rfc3164/machine.go:6887 -/
def testEof238 : K × Lbl := ⟨.stmt (.setCs 238) (.goto .testEof .done), .testEofN 239⟩
/-- rfc3164/machine.go:6890 -/
def testEof239 : K × Lbl := ⟨.stmt (.setCs 239) (.goto .testEof .done), .testEofN 240⟩
/-- rfc3164/machine.go:6893 -/
def testEof240 : K × Lbl := ⟨.stmt (.setCs 240) (.goto .testEof .done), .testEofN 241⟩
/-- rfc3164/machine.go:6896 -/
def testEof241 : K × Lbl := ⟨.stmt (.setCs 241) (.goto .testEof .done), .testEofN 242⟩
/-- rfc3164/machine.go:6899 -/
def testEof242 : K × Lbl := ⟨.stmt (.setCs 242) (.goto .testEof .done), .testEofN 243⟩
/-- rfc3164/machine.go:6902 -/
def testEof243 : K × Lbl := ⟨.stmt (.setCs 243) (.goto .testEof .done), .testEofN 244⟩
/-- rfc3164/machine.go:6905 -/
def testEof244 : K × Lbl := ⟨.stmt (.setCs 244) (.goto .testEof .done), .testEofN 245⟩
/-- rfc3164/machine.go:6908 -/
def testEof245 : K × Lbl := ⟨.stmt (.setCs 245) (.goto .testEof .done), .testEofN 246⟩
/-- rfc3164/machine.go:6911 -/
def testEof246 : K × Lbl := ⟨.stmt (.setCs 246) (.goto .testEof .done), .testEofN 247⟩
/-- rfc3164/machine.go:6914 -/
def testEof247 : K × Lbl := ⟨.stmt (.setCs 247) (.goto .testEof .done), .testEofN 248⟩
/-- rfc3164/machine.go:6917 -/
def testEof248 : K × Lbl := ⟨.stmt (.setCs 248) (.goto .testEof .done), .testEofN 249⟩
/-- rfc3164/machine.go:6920 -/
def testEof249 : K × Lbl := ⟨.stmt (.setCs 249) (.goto .testEof .done), .testEofN 250⟩
/-- rfc3164/machine.go:6923 -/
def testEof250 : K × Lbl := ⟨.stmt (.setCs 250) (.goto .testEof .done), .testEofN 251⟩
/-- rfc3164/machine.go:6926 -/
def testEof251 : K × Lbl := ⟨.stmt (.setCs 251) (.goto .testEof .done), .testEofN 252⟩
/-- rfc3164/machine.go:6929 -/
def testEof252 : K × Lbl := ⟨.stmt (.setCs 252) (.goto .testEof .done), .testEofN 253⟩
/-- rfc3164/machine.go:6932 -/
def testEof253 : K × Lbl := ⟨.stmt (.setCs 253) (.goto .testEof .done), .testEofN 254⟩
/-- rfc3164/machine.go:6935 -/
def testEof254 : K × Lbl := ⟨.stmt (.setCs 254) (.goto .testEof .done), .testEofN 255⟩
/-- rfc3164/machine.go:6938 -/
def testEof255 : K × Lbl := ⟨.stmt (.setCs 255) (.goto .testEof .done), .testEofN 256⟩
/-- rfc3164/machine.go:6941 -/
def testEof256 : K × Lbl := ⟨.stmt (.setCs 256) (.goto .testEof .done), .testEofN 257⟩
/-- rfc3164/machine.go:6944 -/
def testEof257 : K × Lbl := ⟨.stmt (.setCs 257) (.goto .testEof .done), .testEofN 258⟩
/-- rfc3164/machine.go:6947 -/
def testEof258 : K × Lbl := ⟨.stmt (.setCs 258) (.goto .testEof .done), .testEofN 259⟩
/-- rfc3164/machine.go:6950 -/
def testEof259 : K × Lbl := ⟨.stmt (.setCs 259) (.goto .testEof .done), .testEofN 260⟩
/-- rfc3164/machine.go:6953 -/
def testEof260 : K × Lbl := ⟨.stmt (.setCs 260) (.goto .testEof .done), .testEofN 261⟩
/-- rfc3164/machine.go:6956 -/
def testEof261 : K × Lbl := ⟨.stmt (.setCs 261) (.goto .testEof .done), .testEofN 262⟩
/-- rfc3164/machine.go:6959 -/
def testEof262 : K × Lbl := ⟨.stmt (.setCs 262) (.goto .testEof .done), .testEofN 263⟩
/-- rfc3164/machine.go:6962 -/
def testEof263 : K × Lbl := ⟨.stmt (.setCs 263) (.goto .testEof .done), .testEofN 264⟩
/-- rfc3164/machine.go:6965 -/
def testEof264 : K × Lbl := ⟨.stmt (.setCs 264) (.goto .testEof .done), .testEofN 265⟩
/-- rfc3164/machine.go:6968 -/
def testEof265 : K × Lbl := ⟨.stmt (.setCs 265) (.goto .testEof .done), .testEofN 266⟩
/-- rfc3164/machine.go:6971 -/
def testEof266 : K × Lbl := ⟨.stmt (.setCs 266) (.goto .testEof .done), .testEofN 267⟩
/-- rfc3164/machine.go:6974 -/
def testEof267 : K × Lbl := ⟨.stmt (.setCs 267) (.goto .testEof .done), .testEofN 268⟩
/-- rfc3164/machine.go:6977 -/
def testEof268 : K × Lbl := ⟨.stmt (.setCs 268) (.goto .testEof .done), .testEofN 269⟩
/-- rfc3164/machine.go:6980 -/
def testEof269 : K × Lbl := ⟨.stmt (.setCs 269) (.goto .testEof .done), .testEofN 270⟩
/-- rfc3164/machine.go:6983 -/
def testEof270 : K × Lbl := ⟨.stmt (.setCs 270) (.goto .testEof .done), .testEofN 271⟩
/-- rfc3164/machine.go:6986 -/
def testEof271 : K × Lbl := ⟨.stmt (.setCs 271) (.goto .testEof .done), .testEofN 272⟩
/-- rfc3164/machine.go:6989 -/
def testEof272 : K × Lbl := ⟨.stmt (.setCs 272) (.goto .testEof .done), .testEofN 273⟩
/-- rfc3164/machine.go:6992 -/
def testEof273 : K × Lbl := ⟨.stmt (.setCs 273) (.goto .testEof .done), .testEofN 274⟩
/-- rfc3164/machine.go:6995 -/
def testEof274 : K × Lbl := ⟨.stmt (.setCs 274) (.goto .testEof .done), .testEofN 275⟩
/-- rfc3164/machine.go:6998 -/
def testEof275 : K × Lbl := ⟨.stmt (.setCs 275) (.goto .testEof .done), .testEofN 276⟩
/-- rfc3164/machine.go:7001 -/
def testEof276 : K × Lbl := ⟨.stmt (.setCs 276) (.goto .testEof .done), .testEofN 277⟩
/-- rfc3164/machine.go:7004 -/
def testEof277 : K × Lbl := ⟨.stmt (.setCs 277) (.goto .testEof .done), .testEofN 278⟩
/-- rfc3164/machine.go:7007 -/
def testEof278 : K × Lbl := ⟨.stmt (.setCs 278) (.goto .testEof .done), .testEofN 279⟩
/-- rfc3164/machine.go:7010 -/
def testEof279 : K × Lbl := ⟨.stmt (.setCs 279) (.goto .testEof .done), .testEofN 280⟩
/-- rfc3164/machine.go:7013 -/
def testEof280 : K × Lbl := ⟨.stmt (.setCs 280) (.goto .testEof .done), .testEofN 281⟩
/-- rfc3164/machine.go:7016 -/
def testEof281 : K × Lbl := ⟨.stmt (.setCs 281) (.goto .testEof .done), .testEofN 282⟩
/-- rfc3164/machine.go:7019 -/
def testEof282 : K × Lbl := ⟨.stmt (.setCs 282) (.goto .testEof .done), .testEofN 283⟩
/-- rfc3164/machine.go:7022 -/
def testEof283 : K × Lbl := ⟨.stmt (.setCs 283) (.goto .testEof .done), .testEofN 284⟩
/-- rfc3164/machine.go:7025 -/
def testEof284 : K × Lbl := ⟨.stmt (.setCs 284) (.goto .testEof .done), .testEofN 285⟩
/-- rfc3164/machine.go:7028 -/
def testEof285 : K × Lbl := ⟨.stmt (.setCs 285) (.goto .testEof .done), .testEofN 286⟩
/-- rfc3164/machine.go:7031 -/
def testEof286 : K × Lbl := ⟨.stmt (.setCs 286) (.goto .testEof .done), .testEofN 287⟩
/-- rfc3164/machine.go:7034 -/
def testEof287 : K × Lbl := ⟨.stmt (.setCs 287) (.goto .testEof .done), .testEofN 288⟩
/-- rfc3164/machine.go:7037 -/
def testEof288 : K × Lbl := ⟨.stmt (.setCs 288) (.goto .testEof .done), .testEofN 289⟩
/-- rfc3164/machine.go:7040 -/
def testEof289 : K × Lbl := ⟨.stmt (.setCs 289) (.goto .testEof .done), .testEofN 290⟩
/-- rfc3164/machine.go:7043 -/
def testEof290 : K × Lbl := ⟨.stmt (.setCs 290) (.goto .testEof .done), .testEofN 291⟩
/-- rfc3164/machine.go:7046 -/
def testEof291 : K × Lbl := ⟨.stmt (.setCs 291) (.goto .testEof .done), .testEofN 292⟩
/-- rfc3164/machine.go:7049 -/
def testEof292 : K × Lbl := ⟨.stmt (.setCs 292) (.goto .testEof .done), .testEofN 293⟩
/-- rfc3164/machine.go:7052 -/
def testEof293 : K × Lbl := ⟨.stmt (.setCs 293) (.goto .testEof .done), .testEofN 294⟩
/-- rfc3164/machine.go:7055 -/
def testEof294 : K × Lbl := ⟨.stmt (.setCs 294) (.goto .testEof .done), .testEofN 295⟩
/-- rfc3164/machine.go:7058 -/
def testEof295 : K × Lbl := ⟨.stmt (.setCs 295) (.goto .testEof .done), .testEofN 296⟩
/-- rfc3164/machine.go:7061 -/
def testEof296 : K × Lbl := ⟨.stmt (.setCs 296) (.goto .testEof .done), .testEofN 297⟩
/-- rfc3164/machine.go:7064 -/
def testEof297 : K × Lbl := ⟨.stmt (.setCs 297) (.goto .testEof .done), .testEofN 298⟩
/-- rfc3164/machine.go:7067 -/
def testEof298 : K × Lbl := ⟨.stmt (.setCs 298) (.goto .testEof .done), .testEofN 299⟩
/-- rfc3164/machine.go:7070 -/
def testEof299 : K × Lbl := ⟨.stmt (.setCs 299) (.goto .testEof .done), .testEofN 300⟩
/-- rfc3164/machine.go:7073 -/
def testEof300 : K × Lbl := ⟨.stmt (.setCs 300) (.goto .testEof .done), .testEofN 301⟩
/-- rfc3164/machine.go:7076 -/
def testEof301 : K × Lbl := ⟨.stmt (.setCs 301) (.goto .testEof .done), .testEofN 302⟩
/-- rfc3164/machine.go:7079 -/
def testEof302 : K × Lbl := ⟨.stmt (.setCs 302) (.goto .testEof .done), .testEofN 303⟩
/-- rfc3164/machine.go:7082 -/
def testEof303 : K × Lbl := ⟨.stmt (.setCs 303) (.goto .testEof .done), .testEofN 304⟩
/-- rfc3164/machine.go:7085 -/
def testEof304 : K × Lbl := ⟨.stmt (.setCs 304) (.goto .testEof .done), .testEofN 305⟩
/-- rfc3164/machine.go:7088 -/
def testEof305 : K × Lbl := ⟨.stmt (.setCs 305) (.goto .testEof .done), .testEofN 306⟩
/-- rfc3164/machine.go:7091 -/
def testEof306 : K × Lbl := ⟨.stmt (.setCs 306) (.goto .testEof .done), .testEofN 307⟩
/-- rfc3164/machine.go:7094 -/
def testEof307 : K × Lbl := ⟨.stmt (.setCs 307) (.goto .testEof .done), .testEofN 308⟩
/-- rfc3164/machine.go:7097 -/
def testEof308 : K × Lbl := ⟨.stmt (.setCs 308) (.goto .testEof .done), .testEofN 309⟩
/-- rfc3164/machine.go:7100 -/
def testEof309 : K × Lbl := ⟨.stmt (.setCs 309) (.goto .testEof .done), .testEofN 310⟩
/-- rfc3164/machine.go:7103 -/
def testEof310 : K × Lbl := ⟨.stmt (.setCs 310) (.goto .testEof .done), .testEofN 311⟩
/-- rfc3164/machine.go:7106 -/
def testEof311 : K × Lbl := ⟨.stmt (.setCs 311) (.goto .testEof .done), .testEofN 312⟩
/-- rfc3164/machine.go:7109 -/
def testEof312 : K × Lbl := ⟨.stmt (.setCs 312) (.goto .testEof .done), .testEofN 313⟩
/-- rfc3164/machine.go:7112 -/
def testEof313 : K × Lbl := ⟨.stmt (.setCs 313) (.goto .testEof .done), .testEofN 314⟩
/-- rfc3164/machine.go:7115 -/
def testEof314 : K × Lbl := ⟨.stmt (.setCs 314) (.goto .testEof .done), .testEofN 315⟩
/-- rfc3164/machine.go:7118 -/
def testEof315 : K × Lbl := ⟨.stmt (.setCs 315) (.goto .testEof .done), .testEofN 316⟩
/-- rfc3164/machine.go:7121 -/
def testEof316 : K × Lbl := ⟨.stmt (.setCs 316) (.goto .testEof .done), .testEofN 317⟩
/-- rfc3164/machine.go:7124 -/
def testEof317 : K × Lbl := ⟨.stmt (.setCs 317) (.goto .testEof .done), .testEofN 318⟩
/-- rfc3164/machine.go:7127 -/
def testEof318 : K × Lbl := ⟨.stmt (.setCs 318) (.goto .testEof .done), .testEofN 319⟩
/-- rfc3164/machine.go:7130 -/
def testEof319 : K × Lbl := ⟨.stmt (.setCs 319) (.goto .testEof .done), .testEofN 320⟩
/-- rfc3164/machine.go:7133 -/
def testEof320 : K × Lbl := ⟨.stmt (.setCs 320) (.goto .testEof .done), .testEofN 321⟩
/-- rfc3164/machine.go:7136 -/
def testEof321 : K × Lbl := ⟨.stmt (.setCs 321) (.goto .testEof .done), .testEofN 322⟩
/-- rfc3164/machine.go:7139 -/
def testEof322 : K × Lbl := ⟨.stmt (.setCs 322) (.goto .testEof .done), .testEofN 323⟩
/-- rfc3164/machine.go:7142 -/
def testEof323 : K × Lbl := ⟨.stmt (.setCs 323) (.goto .testEof .done), .testEofN 324⟩
/-- rfc3164/machine.go:7145 -/
def testEof324 : K × Lbl := ⟨.stmt (.setCs 324) (.goto .testEof .done), .testEofN 325⟩
/-- rfc3164/machine.go:7148 -/
def testEof325 : K × Lbl := ⟨.stmt (.setCs 325) (.goto .testEof .done), .testEofN 326⟩
/-- rfc3164/machine.go:7151 -/
def testEof326 : K × Lbl := ⟨.stmt (.setCs 326) (.goto .testEof .done), .testEofN 327⟩
/-- rfc3164/machine.go:7154 -/
def testEof327 : K × Lbl := ⟨.stmt (.setCs 327) (.goto .testEof .done), .testEofN 328⟩
/-- rfc3164/machine.go:7157 -/
def testEof328 : K × Lbl := ⟨.stmt (.setCs 328) (.goto .testEof .done), .testEofN 329⟩
/-- rfc3164/machine.go:7160 -/
def testEof329 : K × Lbl := ⟨.stmt (.setCs 329) (.goto .testEof .done), .testEofN 330⟩
/-- rfc3164/machine.go:7163 -/
def testEof330 : K × Lbl := ⟨.stmt (.setCs 330) (.goto .testEof .done), .testEofN 331⟩
/-- rfc3164/machine.go:7166 -/
def testEof331 : K × Lbl := ⟨.stmt (.setCs 331) (.goto .testEof .done), .testEofN 332⟩
/-- rfc3164/machine.go:7169 -/
def testEof332 : K × Lbl := ⟨.stmt (.setCs 332) (.goto .testEof .done), .testEofN 373⟩
/-- rfc3164/machine.go:7172 -/
def testEof373 : K × Lbl := ⟨.stmt (.setCs 373) (.goto .testEof .done), .testEof⟩
/-- rfc3164/machine.go:7176 -/
def testEof : K × Lbl := ⟨.ifElse .pEqEof (.ifElse (.csIn [333, 334, 335, 336, 337, 338, 339, 340, 341, 342, 343, 344, 345, 346, 347, 348, 349, 350, 351, 352, 353, 354, 355, 356, 357, 358, 359, 360, 361, 362, 363, 364, 365, 366, 367, 368, 369, 370, 371, 372]) (.stmt (.prim .message) .done) (.ifElse (.csIn [1]) (.stmt (.prim .errPri) (.stmt .decP (.goto (.st 373) .done))) (.ifElse (.csIn [4, 5, 6, 7, 8, 9, 10, 11, 12, 13, 14, 15, 16, 17, 18, 281, 282, 283, 284, 285, 286, 287, 288, 289, 290, 291, 292, 293, 294, 295, 296, 297, 298, 299]) (.stmt (.prim .errTimestamp) (.stmt .decP (.goto (.st 373) .done))) (.ifElse (.csIn [318, 319, 320, 321, 322, 323, 325]) (.stmt (.prim .errRFC3339) (.stmt .decP (.goto (.st 373) .done))) (.ifElse (.csIn [20, 21, 27, 28, 29, 30, 31, 32, 33, 34, 35, 36, 37, 38, 39, 40, 41, 42, 43, 44, 45, 46, 47, 48, 49, 50, 51, 52, 53, 54, 55, 56, 57, 58, 59, 60, 61, 62, 63, 64, 65, 66, 67, 68, 69, 70, 71, 72, 73, 74, 75, 76, 77, 78, 79, 80, 81, 82, 83, 84, 85, 86, 87, 88, 89, 90, 91, 92, 93, 94, 95, 96, 97, 98, 99, 100, 101, 102, 103, 104, 105, 106, 107, 108, 109, 110, 111, 112, 113, 114, 115, 116, 117, 118, 119, 120, 121, 122, 123, 124, 125, 126, 127, 128, 129, 130, 131, 132, 133, 134, 135, 136, 137, 138, 139, 140, 141, 142, 143, 144, 145, 146, 147, 148, 149, 150, 151, 152, 153, 154, 155, 156, 157, 158, 159, 160, 161, 162, 163, 164, 165, 166, 167, 168, 169, 170, 171, 172, 173, 174, 175, 176, 177, 178, 179, 180, 181, 182, 183, 184, 185, 186, 187, 188, 189, 190, 191, 192, 193, 194, 195, 196, 197, 198, 199, 200, 201, 202, 203, 204, 205, 206, 207, 208, 209, 210, 211, 212, 213, 214, 215, 216, 217, 218, 219, 220, 221, 222, 223, 224, 225, 226, 227, 228, 229, 230, 231, 232, 233, 234, 235, 236, 237, 238, 239, 240, 241, 242, 243, 244, 245, 246, 247, 248, 249, 250, 251, 252, 253, 254, 255, 256, 257, 258, 259, 260, 261, 262, 263, 264, 265, 266, 267, 268, 269, 270, 271, 272, 273, 274, 275, 276, 277, 278, 279, 280]) (.stmt (.prim .errHostname) (.stmt .decP (.goto (.st 373) .done))) (.ifElse (.csIn [22]) (.stmt (.prim .errTag) (.stmt .decP (.goto (.st 373) .done))) (.ifElse (.csIn [2, 3, 330, 331, 332]) (.stmt (.prim .errPrival) (.stmt .decP (.goto (.st 373) (.stmt (.prim .errPri) (.stmt .decP (.goto (.st 373) .done)))))) .done .done) .done) .done) .done) .done) .done) .done) .done .done, .out⟩
/-- rfc3164/machine.go:7249 -/
def out : K × Lbl := ⟨.ifElse (.csFailed 333 373) (.ifElse (.prim .bestEffortMinimal) (.ret .partialOutput .done) .done (.ret .failed .done)) .done (.ret .complete .done), .out⟩

/-- the labels `stN:` by number -/
def sts : Tree (K × Lbl) :=
  (.node (.node (.node (.node (.node (.node (.node (.node (.node .nil 0 st0 .nil) 2 st2 .nil) 3 st3 (.node (.node .nil 4 st4 .nil) 5 st5 .nil)) 6 st6
  (.node (.node (.node .nil 7 st7 .nil) 8 st8 .nil) 9 st9 (.node (.node .nil 10 st10 .nil) 11 st11 .nil))) 12 st12
  (.node (.node (.node (.node .nil 13 st13 .nil) 14 st14 .nil) 15 st15 (.node (.node .nil 16 st16 .nil) 17 st17 .nil)) 18 st18
  (.node (.node (.node .nil 19 st19 .nil) 20 st20 .nil) 21 st21 (.node (.node .nil 22 st22 .nil) 23 st23 .nil)))) 24 st24
  (.node (.node (.node (.node (.node .nil 25 st25 .nil) 26 st26 .nil) 27 st27 (.node (.node .nil 28 st28 .nil) 29 st29 .nil)) 30 st30
  (.node (.node (.node .nil 31 st31 .nil) 32 st32 .nil) 33 st33 (.node (.node .nil 34 st34 .nil) 35 st35 .nil))) 36 st36
  (.node (.node (.node (.node .nil 37 st37 .nil) 38 st38 .nil) 39 st39 (.node (.node .nil 40 st40 .nil) 41 st41 .nil)) 42 st42
  (.node (.node (.node .nil 43 st43 .nil) 44 st44 .nil) 45 st45 (.node .nil 46 st46 .nil))))) 47 st47
  (.node (.node (.node (.node (.node (.node .nil 48 st48 .nil) 49 st49 .nil) 50 st50 (.node (.node .nil 51 st51 .nil) 52 st52 .nil)) 53 st53
  (.node (.node (.node .nil 54 st54 .nil) 55 st55 .nil) 56 st56 (.node (.node .nil 57 st57 .nil) 58 st58 .nil))) 59 st59
  (.node (.node (.node (.node .nil 60 st60 .nil) 61 st61 .nil) 62 st62 (.node (.node .nil 63 st63 .nil) 64 st64 .nil)) 65 st65
  (.node (.node (.node .nil 66 st66 .nil) 67 st67 .nil) 68 st68 (.node (.node .nil 69 st69 .nil) 70 st70 .nil)))) 71 st71
  (.node (.node (.node (.node (.node .nil 72 st72 .nil) 73 st73 .nil) 74 st74 (.node (.node .nil 75 st75 .nil) 76 st76 .nil)) 77 st77
  (.node (.node (.node .nil 78 st78 .nil) 79 st79 .nil) 80 st80 (.node (.node .nil 81 st81 .nil) 82 st82 .nil))) 83 st83
  (.node (.node (.node (.node .nil 84 st84 .nil) 85 st85 .nil) 86 st86 (.node (.node .nil 87 st87 .nil) 88 st88 .nil)) 89 st89
  (.node (.node (.node .nil 90 st90 .nil) 91 st91 .nil) 92 st92 (.node .nil 93 st93 .nil)))))) 94 st94
  (.node (.node (.node (.node (.node (.node (.node .nil 95 st95 .nil) 96 st96 .nil) 97 st97 (.node (.node .nil 98 st98 .nil) 99 st99 .nil)) 100 st100
  (.node (.node (.node .nil 101 st101 .nil) 102 st102 .nil) 103 st103 (.node (.node .nil 104 st104 .nil) 105 st105 .nil))) 106 st106
  (.node (.node (.node (.node .nil 107 st107 .nil) 108 st108 .nil) 109 st109 (.node (.node .nil 110 st110 .nil) 111 st111 .nil)) 112 st112
  (.node (.node (.node .nil 113 st113 .nil) 114 st114 .nil) 115 st115 (.node (.node .nil 116 st116 .nil) 117 st117 .nil)))) 118 st118
  (.node (.node (.node (.node (.node .nil 119 st119 .nil) 120 st120 .nil) 121 st121 (.node (.node .nil 122 st122 .nil) 123 st123 .nil)) 124 st124
  (.node (.node (.node .nil 125 st125 .nil) 126 st126 .nil) 127 st127 (.node (.node .nil 128 st128 .nil) 129 st129 .nil))) 130 st130
  (.node (.node (.node (.node .nil 131 st131 .nil) 132 st132 .nil) 133 st133 (.node (.node .nil 134 st134 .nil) 135 st135 .nil)) 136 st136
  (.node (.node (.node .nil 137 st137 .nil) 138 st138 .nil) 139 st139 (.node .nil 140 st140 .nil))))) 141 st141
  (.node (.node (.node (.node (.node (.node .nil 142 st142 .nil) 143 st143 .nil) 144 st144 (.node (.node .nil 145 st145 .nil) 146 st146 .nil)) 147 st147
  (.node (.node (.node .nil 148 st148 .nil) 149 st149 .nil) 150 st150 (.node (.node .nil 151 st151 .nil) 152 st152 .nil))) 153 st153
  (.node (.node (.node (.node .nil 154 st154 .nil) 155 st155 .nil) 156 st156 (.node (.node .nil 157 st157 .nil) 158 st158 .nil)) 159 st159
  (.node (.node (.node .nil 160 st160 .nil) 161 st161 .nil) 162 st162 (.node .nil 163 st163 .nil)))) 164 st164
  (.node (.node (.node (.node (.node .nil 165 st165 .nil) 166 st166 .nil) 167 st167 (.node (.node .nil 168 st168 .nil) 169 st169 .nil)) 170 st170
  (.node (.node (.node .nil 171 st171 .nil) 172 st172 .nil) 173 st173 (.node (.node .nil 174 st174 .nil) 175 st175 .nil))) 176 st176
  (.node (.node (.node (.node .nil 177 st177 .nil) 178 st178 .nil) 179 st179 (.node (.node .nil 180 st180 .nil) 181 st181 .nil)) 182 st182
  (.node (.node (.node .nil 183 st183 .nil) 184 st184 .nil) 185 st185 (.node .nil 186 st186 .nil))))))) 187 st187
  (.node (.node (.node (.node (.node (.node (.node (.node .nil 188 st188 .nil) 189 st189 .nil) 190 st190 (.node (.node .nil 191 st191 .nil) 192 st192 .nil)) 193 st193
  (.node (.node (.node .nil 194 st194 .nil) 195 st195 .nil) 196 st196 (.node (.node .nil 197 st197 .nil) 198 st198 .nil))) 199 st199
  (.node (.node (.node (.node .nil 200 st200 .nil) 201 st201 .nil) 202 st202 (.node (.node .nil 203 st203 .nil) 204 st204 .nil)) 205 st205
  (.node (.node (.node .nil 206 st206 .nil) 207 st207 .nil) 208 st208 (.node (.node .nil 209 st209 .nil) 210 st210 .nil)))) 211 st211
  (.node (.node (.node (.node (.node .nil 212 st212 .nil) 213 st213 .nil) 214 st214 (.node (.node .nil 215 st215 .nil) 216 st216 .nil)) 217 st217
  (.node (.node (.node .nil 218 st218 .nil) 219 st219 .nil) 220 st220 (.node (.node .nil 221 st221 .nil) 222 st222 .nil))) 223 st223
  (.node (.node (.node (.node .nil 224 st224 .nil) 225 st225 .nil) 226 st226 (.node (.node .nil 227 st227 .nil) 228 st228 .nil)) 229 st229
  (.node (.node (.node .nil 230 st230 .nil) 231 st231 .nil) 232 st232 (.node .nil 233 st233 .nil))))) 234 st234
  (.node (.node (.node (.node (.node (.node .nil 235 st235 .nil) 236 st236 .nil) 237 st237 (.node (.node .nil 238 st238 .nil) 239 st239 .nil)) 240 st240
  (.node (.node (.node .nil 241 st241 .nil) 242 st242 .nil) 243 st243 (.node (.node .nil 244 st244 .nil) 245 st245 .nil))) 246 st246
  (.node (.node (.node (.node .nil 247 st247 .nil) 248 st248 .nil) 249 st249 (.node (.node .nil 250 st250 .nil) 251 st251 .nil)) 252 st252
  (.node (.node (.node .nil 253 st253 .nil) 254 st254 .nil) 255 st255 (.node (.node .nil 256 st256 .nil) 257 st257 .nil)))) 258 st258
  (.node (.node (.node (.node (.node .nil 259 st259 .nil) 260 st260 .nil) 261 st261 (.node (.node .nil 262 st262 .nil) 263 st263 .nil)) 264 st264
  (.node (.node (.node .nil 265 st265 .nil) 266 st266 .nil) 267 st267 (.node (.node .nil 268 st268 .nil) 269 st269 .nil))) 270 st270
  (.node (.node (.node (.node .nil 271 st271 .nil) 272 st272 .nil) 273 st273 (.node (.node .nil 274 st274 .nil) 275 st275 .nil)) 276 st276
  (.node (.node (.node .nil 277 st277 .nil) 278 st278 .nil) 279 st279 (.node .nil 280 st280 .nil)))))) 281 st281
  (.node (.node (.node (.node (.node (.node (.node .nil 282 st282 .nil) 283 st283 .nil) 284 st284 (.node (.node .nil 285 st285 .nil) 286 st286 .nil)) 287 st287
  (.node (.node (.node .nil 288 st288 .nil) 289 st289 .nil) 290 st290 (.node (.node .nil 291 st291 .nil) 292 st292 .nil))) 293 st293
  (.node (.node (.node (.node .nil 294 st294 .nil) 295 st295 .nil) 296 st296 (.node (.node .nil 297 st297 .nil) 298 st298 .nil)) 299 st299
  (.node (.node (.node .nil 300 st300 .nil) 301 st301 .nil) 302 st302 (.node (.node .nil 303 st303 .nil) 304 st304 .nil)))) 305 st305
  (.node (.node (.node (.node (.node .nil 306 st306 .nil) 307 st307 .nil) 308 st308 (.node (.node .nil 309 st309 .nil) 310 st310 .nil)) 311 st311
  (.node (.node (.node .nil 312 st312 .nil) 313 st313 .nil) 314 st314 (.node (.node .nil 315 st315 .nil) 316 st316 .nil))) 317 st317
  (.node (.node (.node (.node .nil 318 st318 .nil) 319 st319 .nil) 320 st320 (.node (.node .nil 321 st321 .nil) 322 st322 .nil)) 323 st323
  (.node (.node (.node .nil 324 st324 .nil) 325 st325 .nil) 326 st326 (.node .nil 327 st327 .nil))))) 328 st328
  (.node (.node (.node (.node (.node (.node .nil 329 st329 .nil) 330 st330 .nil) 331 st331 (.node (.node .nil 332 st332 .nil) 333 st333 .nil)) 334 st334
  (.node (.node (.node .nil 335 st335 .nil) 336 st336 .nil) 337 st337 (.node (.node .nil 338 st338 .nil) 339 st339 .nil))) 340 st340
  (.node (.node (.node (.node .nil 341 st341 .nil) 342 st342 .nil) 343 st343 (.node (.node .nil 344 st344 .nil) 345 st345 .nil)) 346 st346
  (.node (.node (.node .nil 347 st347 .nil) 348 st348 .nil) 349 st349 (.node .nil 350 st350 .nil)))) 351 st351
  (.node (.node (.node (.node (.node .nil 352 st352 .nil) 353 st353 .nil) 354 st354 (.node (.node .nil 355 st355 .nil) 356 st356 .nil)) 357 st357
  (.node (.node (.node .nil 358 st358 .nil) 359 st359 .nil) 360 st360 (.node (.node .nil 361 st361 .nil) 362 st362 .nil))) 363 st363
  (.node (.node (.node (.node .nil 364 st364 .nil) 365 st365 .nil) 366 st366 (.node (.node .nil 367 st367 .nil) 368 st368 .nil)) 369 st369
  (.node (.node (.node .nil 370 st370 .nil) 371 st371 .nil) 372 st372 (.node .nil 373 st373 .nil))))))))

/-- the labels `stCaseN:` by number -/
def stCases : Tree (K × Lbl) :=
  (.node (.node (.node (.node (.node (.node (.node (.node (.node .nil 0 stCase0 .nil) 1 stCase1 .nil) 2 stCase2 (.node (.node .nil 3 stCase3 .nil) 4 stCase4 .nil)) 5 stCase5
  (.node (.node (.node .nil 6 stCase6 .nil) 7 stCase7 .nil) 8 stCase8 (.node (.node .nil 9 stCase9 .nil) 10 stCase10 .nil))) 11 stCase11
  (.node (.node (.node (.node .nil 12 stCase12 .nil) 13 stCase13 .nil) 14 stCase14 (.node (.node .nil 15 stCase15 .nil) 16 stCase16 .nil)) 17 stCase17
  (.node (.node (.node .nil 18 stCase18 .nil) 19 stCase19 .nil) 20 stCase20 (.node (.node .nil 21 stCase21 .nil) 22 stCase22 .nil)))) 23 stCase23
  (.node (.node (.node (.node (.node .nil 24 stCase24 .nil) 25 stCase25 .nil) 26 stCase26 (.node (.node .nil 27 stCase27 .nil) 28 stCase28 .nil)) 29 stCase29
  (.node (.node (.node .nil 30 stCase30 .nil) 31 stCase31 .nil) 32 stCase32 (.node (.node .nil 33 stCase33 .nil) 34 stCase34 .nil))) 35 stCase35
  (.node (.node (.node (.node .nil 36 stCase36 .nil) 37 stCase37 .nil) 38 stCase38 (.node (.node .nil 39 stCase39 .nil) 40 stCase40 .nil)) 41 stCase41
  (.node (.node (.node .nil 42 stCase42 .nil) 43 stCase43 .nil) 44 stCase44 (.node .nil 45 stCase45 .nil))))) 46 stCase46
  (.node (.node (.node (.node (.node (.node .nil 47 stCase47 .nil) 48 stCase48 .nil) 49 stCase49 (.node (.node .nil 50 stCase50 .nil) 51 stCase51 .nil)) 52 stCase52
  (.node (.node (.node .nil 53 stCase53 .nil) 54 stCase54 .nil) 55 stCase55 (.node (.node .nil 56 stCase56 .nil) 57 stCase57 .nil))) 58 stCase58
  (.node (.node (.node (.node .nil 59 stCase59 .nil) 60 stCase60 .nil) 61 stCase61 (.node (.node .nil 62 stCase62 .nil) 63 stCase63 .nil)) 64 stCase64
  (.node (.node (.node .nil 65 stCase65 .nil) 66 stCase66 .nil) 67 stCase67 (.node (.node .nil 68 stCase68 .nil) 69 stCase69 .nil)))) 70 stCase70
  (.node (.node (.node (.node (.node .nil 71 stCase71 .nil) 72 stCase72 .nil) 73 stCase73 (.node (.node .nil 74 stCase74 .nil) 75 stCase75 .nil)) 76 stCase76
  (.node (.node (.node .nil 77 stCase77 .nil) 78 stCase78 .nil) 79 stCase79 (.node (.node .nil 80 stCase80 .nil) 81 stCase81 .nil))) 82 stCase82
  (.node (.node (.node (.node .nil 83 stCase83 .nil) 84 stCase84 .nil) 85 stCase85 (.node (.node .nil 86 stCase86 .nil) 87 stCase87 .nil)) 88 stCase88
  (.node (.node (.node .nil 89 stCase89 .nil) 90 stCase90 .nil) 91 stCase91 (.node .nil 92 stCase92 .nil)))))) 93 stCase93
  (.node (.node (.node (.node (.node (.node (.node .nil 94 stCase94 .nil) 95 stCase95 .nil) 96 stCase96 (.node (.node .nil 97 stCase97 .nil) 98 stCase98 .nil)) 99 stCase99
  (.node (.node (.node .nil 100 stCase100 .nil) 101 stCase101 .nil) 102 stCase102 (.node (.node .nil 103 stCase103 .nil) 104 stCase104 .nil))) 105 stCase105
  (.node (.node (.node (.node .nil 106 stCase106 .nil) 107 stCase107 .nil) 108 stCase108 (.node (.node .nil 109 stCase109 .nil) 110 stCase110 .nil)) 111 stCase111
  (.node (.node (.node .nil 112 stCase112 .nil) 113 stCase113 .nil) 114 stCase114 (.node (.node .nil 115 stCase115 .nil) 116 stCase116 .nil)))) 117 stCase117
  (.node (.node (.node (.node (.node .nil 118 stCase118 .nil) 119 stCase119 .nil) 120 stCase120 (.node (.node .nil 121 stCase121 .nil) 122 stCase122 .nil)) 123 stCase123
  (.node (.node (.node .nil 124 stCase124 .nil) 125 stCase125 .nil) 126 stCase126 (.node (.node .nil 127 stCase127 .nil) 128 stCase128 .nil))) 129 stCase129
  (.node (.node (.node (.node .nil 130 stCase130 .nil) 131 stCase131 .nil) 132 stCase132 (.node (.node .nil 133 stCase133 .nil) 134 stCase134 .nil)) 135 stCase135
  (.node (.node (.node .nil 136 stCase136 .nil) 137 stCase137 .nil) 138 stCase138 (.node .nil 139 stCase139 .nil))))) 140 stCase140
  (.node (.node (.node (.node (.node (.node .nil 141 stCase141 .nil) 142 stCase142 .nil) 143 stCase143 (.node (.node .nil 144 stCase144 .nil) 145 stCase145 .nil)) 146 stCase146
  (.node (.node (.node .nil 147 stCase147 .nil) 148 stCase148 .nil) 149 stCase149 (.node (.node .nil 150 stCase150 .nil) 151 stCase151 .nil))) 152 stCase152
  (.node (.node (.node (.node .nil 153 stCase153 .nil) 154 stCase154 .nil) 155 stCase155 (.node (.node .nil 156 stCase156 .nil) 157 stCase157 .nil)) 158 stCase158
  (.node (.node (.node .nil 159 stCase159 .nil) 160 stCase160 .nil) 161 stCase161 (.node (.node .nil 162 stCase162 .nil) 163 stCase163 .nil)))) 164 stCase164
  (.node (.node (.node (.node (.node .nil 165 stCase165 .nil) 166 stCase166 .nil) 167 stCase167 (.node (.node .nil 168 stCase168 .nil) 169 stCase169 .nil)) 170 stCase170
  (.node (.node (.node .nil 171 stCase171 .nil) 172 stCase172 .nil) 173 stCase173 (.node (.node .nil 174 stCase174 .nil) 175 stCase175 .nil))) 176 stCase176
  (.node (.node (.node (.node .nil 177 stCase177 .nil) 178 stCase178 .nil) 179 stCase179 (.node (.node .nil 180 stCase180 .nil) 181 stCase181 .nil)) 182 stCase182
  (.node (.node (.node .nil 183 stCase183 .nil) 184 stCase184 .nil) 185 stCase185 (.node .nil 186 stCase186 .nil))))))) 187 stCase187
  (.node (.node (.node (.node (.node (.node (.node (.node .nil 188 stCase188 .nil) 189 stCase189 .nil) 190 stCase190 (.node (.node .nil 191 stCase191 .nil) 192 stCase192 .nil)) 193 stCase193
  (.node (.node (.node .nil 194 stCase194 .nil) 195 stCase195 .nil) 196 stCase196 (.node (.node .nil 197 stCase197 .nil) 198 stCase198 .nil))) 199 stCase199
  (.node (.node (.node (.node .nil 200 stCase200 .nil) 201 stCase201 .nil) 202 stCase202 (.node (.node .nil 203 stCase203 .nil) 204 stCase204 .nil)) 205 stCase205
  (.node (.node (.node .nil 206 stCase206 .nil) 207 stCase207 .nil) 208 stCase208 (.node (.node .nil 209 stCase209 .nil) 210 stCase210 .nil)))) 211 stCase211
  (.node (.node (.node (.node (.node .nil 212 stCase212 .nil) 213 stCase213 .nil) 214 stCase214 (.node (.node .nil 215 stCase215 .nil) 216 stCase216 .nil)) 217 stCase217
  (.node (.node (.node .nil 218 stCase218 .nil) 219 stCase219 .nil) 220 stCase220 (.node (.node .nil 221 stCase221 .nil) 222 stCase222 .nil))) 223 stCase223
  (.node (.node (.node (.node .nil 224 stCase224 .nil) 225 stCase225 .nil) 226 stCase226 (.node (.node .nil 227 stCase227 .nil) 228 stCase228 .nil)) 229 stCase229
  (.node (.node (.node .nil 230 stCase230 .nil) 231 stCase231 .nil) 232 stCase232 (.node .nil 233 stCase233 .nil))))) 234 stCase234
  (.node (.node (.node (.node (.node (.node .nil 235 stCase235 .nil) 236 stCase236 .nil) 237 stCase237 (.node (.node .nil 238 stCase238 .nil) 239 stCase239 .nil)) 240 stCase240
  (.node (.node (.node .nil 241 stCase241 .nil) 242 stCase242 .nil) 243 stCase243 (.node (.node .nil 244 stCase244 .nil) 245 stCase245 .nil))) 246 stCase246
  (.node (.node (.node (.node .nil 247 stCase247 .nil) 248 stCase248 .nil) 249 stCase249 (.node (.node .nil 250 stCase250 .nil) 251 stCase251 .nil)) 252 stCase252
  (.node (.node (.node .nil 253 stCase253 .nil) 254 stCase254 .nil) 255 stCase255 (.node (.node .nil 256 stCase256 .nil) 257 stCase257 .nil)))) 258 stCase258
  (.node (.node (.node (.node (.node .nil 259 stCase259 .nil) 260 stCase260 .nil) 261 stCase261 (.node (.node .nil 262 stCase262 .nil) 263 stCase263 .nil)) 264 stCase264
  (.node (.node (.node .nil 265 stCase265 .nil) 266 stCase266 .nil) 267 stCase267 (.node (.node .nil 268 stCase268 .nil) 269 stCase269 .nil))) 270 stCase270
  (.node (.node (.node (.node .nil 271 stCase271 .nil) 272 stCase272 .nil) 273 stCase273 (.node (.node .nil 274 stCase274 .nil) 275 stCase275 .nil)) 276 stCase276
  (.node (.node (.node .nil 277 stCase277 .nil) 278 stCase278 .nil) 279 stCase279 (.node .nil 280 stCase280 .nil)))))) 281 stCase281
  (.node (.node (.node (.node (.node (.node (.node .nil 282 stCase282 .nil) 283 stCase283 .nil) 284 stCase284 (.node (.node .nil 285 stCase285 .nil) 286 stCase286 .nil)) 287 stCase287
  (.node (.node (.node .nil 288 stCase288 .nil) 289 stCase289 .nil) 290 stCase290 (.node (.node .nil 291 stCase291 .nil) 292 stCase292 .nil))) 293 stCase293
  (.node (.node (.node (.node .nil 294 stCase294 .nil) 295 stCase295 .nil) 296 stCase296 (.node (.node .nil 297 stCase297 .nil) 298 stCase298 .nil)) 299 stCase299
  (.node (.node (.node .nil 300 stCase300 .nil) 301 stCase301 .nil) 302 stCase302 (.node (.node .nil 303 stCase303 .nil) 304 stCase304 .nil)))) 305 stCase305
  (.node (.node (.node (.node (.node .nil 306 stCase306 .nil) 307 stCase307 .nil) 308 stCase308 (.node (.node .nil 309 stCase309 .nil) 310 stCase310 .nil)) 311 stCase311
  (.node (.node (.node .nil 312 stCase312 .nil) 313 stCase313 .nil) 314 stCase314 (.node (.node .nil 315 stCase315 .nil) 316 stCase316 .nil))) 317 stCase317
  (.node (.node (.node (.node .nil 318 stCase318 .nil) 319 stCase319 .nil) 320 stCase320 (.node (.node .nil 321 stCase321 .nil) 322 stCase322 .nil)) 323 stCase323
  (.node (.node (.node .nil 324 stCase324 .nil) 325 stCase325 .nil) 326 stCase326 (.node .nil 327 stCase327 .nil))))) 328 stCase328
  (.node (.node (.node (.node (.node (.node .nil 329 stCase329 .nil) 330 stCase330 .nil) 331 stCase331 (.node (.node .nil 332 stCase332 .nil) 333 stCase333 .nil)) 334 stCase334
  (.node (.node (.node .nil 335 stCase335 .nil) 336 stCase336 .nil) 337 stCase337 (.node (.node .nil 338 stCase338 .nil) 339 stCase339 .nil))) 340 stCase340
  (.node (.node (.node (.node .nil 341 stCase341 .nil) 342 stCase342 .nil) 343 stCase343 (.node (.node .nil 344 stCase344 .nil) 345 stCase345 .nil)) 346 stCase346
  (.node (.node (.node .nil 347 stCase347 .nil) 348 stCase348 .nil) 349 stCase349 (.node .nil 350 stCase350 .nil)))) 351 stCase351
  (.node (.node (.node (.node (.node .nil 352 stCase352 .nil) 353 stCase353 .nil) 354 stCase354 (.node (.node .nil 355 stCase355 .nil) 356 stCase356 .nil)) 357 stCase357
  (.node (.node (.node .nil 358 stCase358 .nil) 359 stCase359 .nil) 360 stCase360 (.node (.node .nil 361 stCase361 .nil) 362 stCase362 .nil))) 363 stCase363
  (.node (.node (.node (.node .nil 364 stCase364 .nil) 365 stCase365 .nil) 366 stCase366 (.node (.node .nil 367 stCase367 .nil) 368 stCase368 .nil)) 369 stCase369
  (.node (.node (.node .nil 370 stCase370 .nil) 371 stCase371 .nil) 372 stCase372 (.node .nil 373 stCase373 .nil))))))))

/-- the labels `trN:` by number -/
def trs : Tree (K × Lbl) :=
  (.node (.node (.node (.node (.node (.node .nil 0 tr0 .nil) 2 tr2 .nil) 3 tr3 (.node .nil 4 tr4 .nil)) 5 tr5
  (.node (.node .nil 7 tr7 .nil) 8 tr8 (.node .nil 9 tr9 .nil))) 10 tr10
  (.node (.node (.node .nil 11 tr11 .nil) 12 tr12 (.node .nil 13 tr13 .nil)) 14 tr14
  (.node (.node .nil 15 tr15 .nil) 16 tr16 (.node .nil 35 tr35 .nil)))) 37 tr37
  (.node (.node (.node (.node .nil 38 tr38 .nil) 39 tr39 (.node .nil 41 tr41 .nil)) 42 tr42
  (.node (.node .nil 43 tr43 .nil) 45 tr45 (.node .nil 48 tr48 .nil))) 49 tr49
  (.node (.node (.node .nil 333 tr333 .nil) 341 tr341 (.node .nil 347 tr347 .nil)) 348 tr348
  (.node (.node .nil 380 tr380 .nil) 381 tr381 (.node .nil 383 tr383 .nil)))))

/-- the labels `_testEofN:` by number -/
def testEofs : Tree (K × Lbl) :=
  (.node (.node (.node (.node (.node (.node (.node (.node (.node .nil 2 testEof2 .nil) 3 testEof3 .nil) 4 testEof4 (.node (.node .nil 5 testEof5 .nil) 6 testEof6 .nil)) 7 testEof7
  (.node (.node (.node .nil 8 testEof8 .nil) 9 testEof9 .nil) 10 testEof10 (.node (.node .nil 11 testEof11 .nil) 12 testEof12 .nil))) 13 testEof13
  (.node (.node (.node (.node .nil 14 testEof14 .nil) 15 testEof15 .nil) 16 testEof16 (.node (.node .nil 17 testEof17 .nil) 18 testEof18 .nil)) 19 testEof19
  (.node (.node (.node .nil 20 testEof20 .nil) 21 testEof21 .nil) 22 testEof22 (.node (.node .nil 23 testEof23 .nil) 24 testEof24 .nil)))) 25 testEof25
  (.node (.node (.node (.node (.node .nil 26 testEof26 .nil) 27 testEof27 .nil) 28 testEof28 (.node (.node .nil 29 testEof29 .nil) 30 testEof30 .nil)) 31 testEof31
  (.node (.node (.node .nil 32 testEof32 .nil) 33 testEof33 .nil) 34 testEof34 (.node (.node .nil 35 testEof35 .nil) 36 testEof36 .nil))) 37 testEof37
  (.node (.node (.node (.node .nil 38 testEof38 .nil) 39 testEof39 .nil) 40 testEof40 (.node (.node .nil 41 testEof41 .nil) 42 testEof42 .nil)) 43 testEof43
  (.node (.node (.node .nil 44 testEof44 .nil) 45 testEof45 .nil) 46 testEof46 (.node .nil 47 testEof47 .nil))))) 48 testEof48
  (.node (.node (.node (.node (.node (.node .nil 49 testEof49 .nil) 50 testEof50 .nil) 51 testEof51 (.node (.node .nil 52 testEof52 .nil) 53 testEof53 .nil)) 54 testEof54
  (.node (.node (.node .nil 55 testEof55 .nil) 56 testEof56 .nil) 57 testEof57 (.node (.node .nil 58 testEof58 .nil) 59 testEof59 .nil))) 60 testEof60
  (.node (.node (.node (.node .nil 61 testEof61 .nil) 62 testEof62 .nil) 63 testEof63 (.node (.node .nil 64 testEof64 .nil) 65 testEof65 .nil)) 66 testEof66
  (.node (.node (.node .nil 67 testEof67 .nil) 68 testEof68 .nil) 69 testEof69 (.node (.node .nil 70 testEof70 .nil) 71 testEof71 .nil)))) 72 testEof72
  (.node (.node (.node (.node (.node .nil 73 testEof73 .nil) 74 testEof74 .nil) 75 testEof75 (.node (.node .nil 76 testEof76 .nil) 77 testEof77 .nil)) 78 testEof78
  (.node (.node (.node .nil 79 testEof79 .nil) 80 testEof80 .nil) 81 testEof81 (.node (.node .nil 82 testEof82 .nil) 83 testEof83 .nil))) 84 testEof84
  (.node (.node (.node (.node .nil 85 testEof85 .nil) 86 testEof86 .nil) 87 testEof87 (.node (.node .nil 88 testEof88 .nil) 89 testEof89 .nil)) 90 testEof90
  (.node (.node (.node .nil 91 testEof91 .nil) 92 testEof92 .nil) 93 testEof93 (.node .nil 94 testEof94 .nil)))))) 95 testEof95
  (.node (.node (.node (.node (.node (.node (.node .nil 96 testEof96 .nil) 97 testEof97 .nil) 98 testEof98 (.node (.node .nil 99 testEof99 .nil) 100 testEof100 .nil)) 101 testEof101
  (.node (.node (.node .nil 102 testEof102 .nil) 103 testEof103 .nil) 104 testEof104 (.node (.node .nil 105 testEof105 .nil) 106 testEof106 .nil))) 107 testEof107
  (.node (.node (.node (.node .nil 108 testEof108 .nil) 109 testEof109 .nil) 110 testEof110 (.node (.node .nil 111 testEof111 .nil) 112 testEof112 .nil)) 113 testEof113
  (.node (.node (.node .nil 114 testEof114 .nil) 115 testEof115 .nil) 116 testEof116 (.node (.node .nil 117 testEof117 .nil) 118 testEof118 .nil)))) 119 testEof119
  (.node (.node (.node (.node (.node .nil 120 testEof120 .nil) 121 testEof121 .nil) 122 testEof122 (.node (.node .nil 123 testEof123 .nil) 124 testEof124 .nil)) 125 testEof125
  (.node (.node (.node .nil 126 testEof126 .nil) 127 testEof127 .nil) 128 testEof128 (.node (.node .nil 129 testEof129 .nil) 130 testEof130 .nil))) 131 testEof131
  (.node (.node (.node (.node .nil 132 testEof132 .nil) 133 testEof133 .nil) 134 testEof134 (.node (.node .nil 135 testEof135 .nil) 136 testEof136 .nil)) 137 testEof137
  (.node (.node (.node .nil 138 testEof138 .nil) 139 testEof139 .nil) 140 testEof140 (.node .nil 141 testEof141 .nil))))) 142 testEof142
  (.node (.node (.node (.node (.node (.node .nil 143 testEof143 .nil) 144 testEof144 .nil) 145 testEof145 (.node (.node .nil 146 testEof146 .nil) 147 testEof147 .nil)) 148 testEof148
  (.node (.node (.node .nil 149 testEof149 .nil) 150 testEof150 .nil) 151 testEof151 (.node (.node .nil 152 testEof152 .nil) 153 testEof153 .nil))) 154 testEof154
  (.node (.node (.node (.node .nil 155 testEof155 .nil) 156 testEof156 .nil) 157 testEof157 (.node (.node .nil 158 testEof158 .nil) 159 testEof159 .nil)) 160 testEof160
  (.node (.node (.node .nil 161 testEof161 .nil) 162 testEof162 .nil) 163 testEof163 (.node .nil 164 testEof164 .nil)))) 165 testEof165
  (.node (.node (.node (.node (.node .nil 166 testEof166 .nil) 167 testEof167 .nil) 168 testEof168 (.node (.node .nil 169 testEof169 .nil) 170 testEof170 .nil)) 171 testEof171
  (.node (.node (.node .nil 172 testEof172 .nil) 173 testEof173 .nil) 174 testEof174 (.node (.node .nil 175 testEof175 .nil) 176 testEof176 .nil))) 177 testEof177
  (.node (.node (.node (.node .nil 178 testEof178 .nil) 179 testEof179 .nil) 180 testEof180 (.node (.node .nil 181 testEof181 .nil) 182 testEof182 .nil)) 183 testEof183
  (.node (.node (.node .nil 184 testEof184 .nil) 185 testEof185 .nil) 186 testEof186 (.node .nil 187 testEof187 .nil))))))) 188 testEof188
  (.node (.node (.node (.node (.node (.node (.node (.node .nil 189 testEof189 .nil) 190 testEof190 .nil) 191 testEof191 (.node (.node .nil 192 testEof192 .nil) 193 testEof193 .nil)) 194 testEof194
  (.node (.node (.node .nil 195 testEof195 .nil) 196 testEof196 .nil) 197 testEof197 (.node (.node .nil 198 testEof198 .nil) 199 testEof199 .nil))) 200 testEof200
  (.node (.node (.node (.node .nil 201 testEof201 .nil) 202 testEof202 .nil) 203 testEof203 (.node (.node .nil 204 testEof204 .nil) 205 testEof205 .nil)) 206 testEof206
  (.node (.node (.node .nil 207 testEof207 .nil) 208 testEof208 .nil) 209 testEof209 (.node (.node .nil 210 testEof210 .nil) 211 testEof211 .nil)))) 212 testEof212
  (.node (.node (.node (.node (.node .nil 213 testEof213 .nil) 214 testEof214 .nil) 215 testEof215 (.node (.node .nil 216 testEof216 .nil) 217 testEof217 .nil)) 218 testEof218
  (.node (.node (.node .nil 219 testEof219 .nil) 220 testEof220 .nil) 221 testEof221 (.node (.node .nil 222 testEof222 .nil) 223 testEof223 .nil))) 224 testEof224
  (.node (.node (.node (.node .nil 225 testEof225 .nil) 226 testEof226 .nil) 227 testEof227 (.node (.node .nil 228 testEof228 .nil) 229 testEof229 .nil)) 230 testEof230
  (.node (.node (.node .nil 231 testEof231 .nil) 232 testEof232 .nil) 233 testEof233 (.node .nil 234 testEof234 .nil))))) 235 testEof235
  (.node (.node (.node (.node (.node (.node .nil 236 testEof236 .nil) 237 testEof237 .nil) 238 testEof238 (.node (.node .nil 239 testEof239 .nil) 240 testEof240 .nil)) 241 testEof241
  (.node (.node (.node .nil 242 testEof242 .nil) 243 testEof243 .nil) 244 testEof244 (.node (.node .nil 245 testEof245 .nil) 246 testEof246 .nil))) 247 testEof247
  (.node (.node (.node (.node .nil 248 testEof248 .nil) 249 testEof249 .nil) 250 testEof250 (.node (.node .nil 251 testEof251 .nil) 252 testEof252 .nil)) 253 testEof253
  (.node (.node (.node .nil 254 testEof254 .nil) 255 testEof255 .nil) 256 testEof256 (.node .nil 257 testEof257 .nil)))) 258 testEof258
  (.node (.node (.node (.node (.node .nil 259 testEof259 .nil) 260 testEof260 .nil) 261 testEof261 (.node (.node .nil 262 testEof262 .nil) 263 testEof263 .nil)) 264 testEof264
  (.node (.node (.node .nil 265 testEof265 .nil) 266 testEof266 .nil) 267 testEof267 (.node (.node .nil 268 testEof268 .nil) 269 testEof269 .nil))) 270 testEof270
  (.node (.node (.node (.node .nil 271 testEof271 .nil) 272 testEof272 .nil) 273 testEof273 (.node (.node .nil 274 testEof274 .nil) 275 testEof275 .nil)) 276 testEof276
  (.node (.node (.node .nil 277 testEof277 .nil) 278 testEof278 .nil) 279 testEof279 (.node .nil 280 testEof280 .nil)))))) 281 testEof281
  (.node (.node (.node (.node (.node (.node (.node .nil 282 testEof282 .nil) 283 testEof283 .nil) 284 testEof284 (.node (.node .nil 285 testEof285 .nil) 286 testEof286 .nil)) 287 testEof287
  (.node (.node (.node .nil 288 testEof288 .nil) 289 testEof289 .nil) 290 testEof290 (.node (.node .nil 291 testEof291 .nil) 292 testEof292 .nil))) 293 testEof293
  (.node (.node (.node (.node .nil 294 testEof294 .nil) 295 testEof295 .nil) 296 testEof296 (.node (.node .nil 297 testEof297 .nil) 298 testEof298 .nil)) 299 testEof299
  (.node (.node (.node .nil 300 testEof300 .nil) 301 testEof301 .nil) 302 testEof302 (.node (.node .nil 303 testEof303 .nil) 304 testEof304 .nil)))) 305 testEof305
  (.node (.node (.node (.node (.node .nil 306 testEof306 .nil) 307 testEof307 .nil) 308 testEof308 (.node (.node .nil 309 testEof309 .nil) 310 testEof310 .nil)) 311 testEof311
  (.node (.node (.node .nil 312 testEof312 .nil) 313 testEof313 .nil) 314 testEof314 (.node (.node .nil 315 testEof315 .nil) 316 testEof316 .nil))) 317 testEof317
  (.node (.node (.node (.node .nil 318 testEof318 .nil) 319 testEof319 .nil) 320 testEof320 (.node (.node .nil 321 testEof321 .nil) 322 testEof322 .nil)) 323 testEof323
  (.node (.node (.node .nil 324 testEof324 .nil) 325 testEof325 .nil) 326 testEof326 (.node .nil 327 testEof327 .nil))))) 328 testEof328
  (.node (.node (.node (.node (.node (.node .nil 329 testEof329 .nil) 330 testEof330 .nil) 331 testEof331 (.node (.node .nil 332 testEof332 .nil) 333 testEof333 .nil)) 334 testEof334
  (.node (.node (.node .nil 335 testEof335 .nil) 336 testEof336 .nil) 337 testEof337 (.node (.node .nil 338 testEof338 .nil) 339 testEof339 .nil))) 340 testEof340
  (.node (.node (.node (.node .nil 341 testEof341 .nil) 342 testEof342 .nil) 343 testEof343 (.node (.node .nil 344 testEof344 .nil) 345 testEof345 .nil)) 346 testEof346
  (.node (.node (.node .nil 347 testEof347 .nil) 348 testEof348 .nil) 349 testEof349 (.node .nil 350 testEof350 .nil)))) 351 testEof351
  (.node (.node (.node (.node (.node .nil 352 testEof352 .nil) 353 testEof353 .nil) 354 testEof354 (.node (.node .nil 355 testEof355 .nil) 356 testEof356 .nil)) 357 testEof357
  (.node (.node (.node .nil 358 testEof358 .nil) 359 testEof359 .nil) 360 testEof360 (.node (.node .nil 361 testEof361 .nil) 362 testEof362 .nil))) 363 testEof363
  (.node (.node (.node (.node .nil 364 testEof364 .nil) 365 testEof365 .nil) 366 testEof366 (.node (.node .nil 367 testEof367 .nil) 368 testEof368 .nil)) 369 testEof369
  (.node (.node (.node .nil 370 testEof370 .nil) 371 testEof371 .nil) 372 testEof372 (.node .nil 373 testEof373 .nil))))))))

/-- The function: what is at each label, and the label that follows. -/
def prog : Prog A C R
  | .entry => some entry
  | .st n => sts.find n
  | .stCase n => stCases.find n
  | .tr n => trs.find n
  | .testEofN n => testEofs.find n
  | .stOut => some stOut
  | .testEof => some testEof
  | .out => some out

end Verif.Gen.GoRfc3164
