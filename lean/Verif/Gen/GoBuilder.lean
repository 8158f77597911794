import Verif.Go.Lang

/-!
# The body of `func (sm *SyslogMessage) set(` in `rfc5424/builder.go` (lines 67-9265), statement by statement

GENERATED by `tools/goast.py` from the Go source; do not edit by hand.
-/

namespace Verif.Gen.GoBuilder
open Verif.Go

/-- Statements of `rfc5424/builder.go`. -/
inductive A where
  /-- `pb := 0` -/
  | pbZero
  /-- `cs := from.translate()` -/
  | csFrom
  /-- `backslashes := []int{}` -/
  | backslashesNew
  /-- `pb = p` -/
  | pbP
  /-- `backslashes = append(backslashes, p)` -/
  | backslashesAppend
  /-- `t, e := time.Parse(RFC3339MICRO, string(data[pb:p]))` -/
  | timeParse
  /-- `sm.Timestamp = &t` -/
  | timestamp
  /-- `s := string(data[pb:p])` -/
  | sText
  /-- `sm.Hostname = &s` -/
  | hostname
  /-- `sm.Appname = &s` -/
  | appname
  /-- `sm.ProcID = &s` -/
  | procID
  /-- `sm.MsgID = &s` -/
  | msgID
  /-- `sm.Message = &s` -/
  | message
  /-- `sm.StructuredData = &(map[string]map[string]string{})` -/
  | sdNew
  /-- `id := string(data[pb:p])` -/
  | idText
  /-- `elements := *sm.StructuredData` -/
  | elements
  /-- `_, ok := elements[id]` -/
  | elementLookup
  /-- `elements[id] = map[string]string{}` -/
  | elementAdd
  /-- `elements[currentid][string(data[pb:p])] = ""` -/
  | paramAdd
  /-- `text := data[pb:p]` -/
  | textNew
  /-- `text = common.RemoveBytes(text, backslashes, pb)` -/
  | removeBytes
  /-- `elements[currentid][currentparamname] = string(text)` -/
  | paramSet
  deriving DecidableEq, Repr

/-- Conditions of `rfc5424/builder.go`. -/
inductive C where
  /-- `e == nil` -/
  | eNil
  /-- `s != "-"` -/
  | sNotDash
  /-- `s != ""` -/
  | sNotEmpty
  /-- `sm.StructuredData == nil` -/
  | sdNil
  /-- `!ok` -/
  | notOk
  /-- `len(backslashes) > 0` -/
  | hasBackslashes
  deriving DecidableEq, Repr

/-- Return statements of `rfc5424/builder.go`. -/
inductive R where
  /-- `return sm` -/
  | sm
  deriving DecidableEq, Repr

/-- Code of this function. -/
abbrev K := Code A C R

/-- `switch cs`: the state and the label -/
def jumps : List (Nat × Lbl) := [(52, .stCase 52), (53, .stCase 53), (1, .stCase 1), (0, .stCase 0), (2, .stCase 2), (3, .stCase 3), (4, .stCase 4), (5, .stCase 5), (6, .stCase 6), (7, .stCase 7), (8, .stCase 8), (9, .stCase 9), (10, .stCase 10), (11, .stCase 11), (12, .stCase 12), (13, .stCase 13), (14, .stCase 14), (15, .stCase 15), (16, .stCase 16), (17, .stCase 17), (18, .stCase 18), (19, .stCase 19), (20, .stCase 20), (21, .stCase 21), (22, .stCase 22), (23, .stCase 23), (24, .stCase 24), (25, .stCase 25), (54, .stCase 54), (26, .stCase 26), (27, .stCase 27), (28, .stCase 28), (29, .stCase 29), (30, .stCase 30), (31, .stCase 31), (32, .stCase 32), (33, .stCase 33), (34, .stCase 34), (35, .stCase 35), (36, .stCase 36), (37, .stCase 37), (38, .stCase 38), (55, .stCase 55), (56, .stCase 56), (57, .stCase 57), (58, .stCase 58), (59, .stCase 59), (60, .stCase 60), (61, .stCase 61), (62, .stCase 62), (63, .stCase 63), (64, .stCase 64), (65, .stCase 65), (66, .stCase 66), (67, .stCase 67), (68, .stCase 68), (69, .stCase 69), (70, .stCase 70), (71, .stCase 71), (72, .stCase 72), (73, .stCase 73), (74, .stCase 74), (75, .stCase 75), (76, .stCase 76), (77, .stCase 77), (78, .stCase 78), (79, .stCase 79), (80, .stCase 80), (81, .stCase 81), (82, .stCase 82), (83, .stCase 83), (84, .stCase 84), (85, .stCase 85), (86, .stCase 86), (87, .stCase 87), (88, .stCase 88), (89, .stCase 89), (90, .stCase 90), (91, .stCase 91), (92, .stCase 92), (93, .stCase 93), (94, .stCase 94), (95, .stCase 95), (96, .stCase 96), (97, .stCase 97), (98, .stCase 98), (99, .stCase 99), (100, .stCase 100), (101, .stCase 101), (102, .stCase 102), (103, .stCase 103), (104, .stCase 104), (105, .stCase 105), (106, .stCase 106), (107, .stCase 107), (108, .stCase 108), (109, .stCase 109), (110, .stCase 110), (111, .stCase 111), (112, .stCase 112), (113, .stCase 113), (114, .stCase 114), (115, .stCase 115), (116, .stCase 116), (117, .stCase 117), (118, .stCase 118), (119, .stCase 119), (120, .stCase 120), (121, .stCase 121), (122, .stCase 122), (123, .stCase 123), (124, .stCase 124), (125, .stCase 125), (126, .stCase 126), (127, .stCase 127), (128, .stCase 128), (129, .stCase 129), (130, .stCase 130), (131, .stCase 131), (132, .stCase 132), (133, .stCase 133), (134, .stCase 134), (135, .stCase 135), (136, .stCase 136), (137, .stCase 137), (138, .stCase 138), (139, .stCase 139), (140, .stCase 140), (141, .stCase 141), (142, .stCase 142), (143, .stCase 143), (144, .stCase 144), (145, .stCase 145), (146, .stCase 146), (147, .stCase 147), (148, .stCase 148), (149, .stCase 149), (150, .stCase 150), (151, .stCase 151), (152, .stCase 152), (153, .stCase 153), (154, .stCase 154), (155, .stCase 155), (156, .stCase 156), (157, .stCase 157), (158, .stCase 158), (159, .stCase 159), (160, .stCase 160), (161, .stCase 161), (162, .stCase 162), (163, .stCase 163), (164, .stCase 164), (165, .stCase 165), (166, .stCase 166), (167, .stCase 167), (168, .stCase 168), (169, .stCase 169), (170, .stCase 170), (171, .stCase 171), (172, .stCase 172), (173, .stCase 173), (174, .stCase 174), (175, .stCase 175), (176, .stCase 176), (177, .stCase 177), (178, .stCase 178), (179, .stCase 179), (180, .stCase 180), (181, .stCase 181), (182, .stCase 182), (183, .stCase 183), (184, .stCase 184), (185, .stCase 185), (186, .stCase 186), (187, .stCase 187), (188, .stCase 188), (189, .stCase 189), (190, .stCase 190), (191, .stCase 191), (192, .stCase 192), (193, .stCase 193), (194, .stCase 194), (195, .stCase 195), (196, .stCase 196), (197, .stCase 197), (198, .stCase 198), (199, .stCase 199), (200, .stCase 200), (201, .stCase 201), (202, .stCase 202), (203, .stCase 203), (204, .stCase 204), (205, .stCase 205), (206, .stCase 206), (207, .stCase 207), (208, .stCase 208), (209, .stCase 209), (210, .stCase 210), (211, .stCase 211), (212, .stCase 212), (213, .stCase 213), (214, .stCase 214), (215, .stCase 215), (216, .stCase 216), (217, .stCase 217), (218, .stCase 218), (219, .stCase 219), (220, .stCase 220), (221, .stCase 221), (222, .stCase 222), (223, .stCase 223), (224, .stCase 224), (225, .stCase 225), (226, .stCase 226), (227, .stCase 227), (228, .stCase 228), (229, .stCase 229), (230, .stCase 230), (231, .stCase 231), (232, .stCase 232), (233, .stCase 233), (234, .stCase 234), (235, .stCase 235), (236, .stCase 236), (237, .stCase 237), (238, .stCase 238), (239, .stCase 239), (240, .stCase 240), (241, .stCase 241), (242, .stCase 242), (243, .stCase 243), (244, .stCase 244), (245, .stCase 245), (246, .stCase 246), (247, .stCase 247), (248, .stCase 248), (249, .stCase 249), (250, .stCase 250), (251, .stCase 251), (252, .stCase 252), (253, .stCase 253), (254, .stCase 254), (255, .stCase 255), (256, .stCase 256), (257, .stCase 257), (258, .stCase 258), (259, .stCase 259), (260, .stCase 260), (261, .stCase 261), (262, .stCase 262), (263, .stCase 263), (264, .stCase 264), (265, .stCase 265), (266, .stCase 266), (267, .stCase 267), (268, .stCase 268), (269, .stCase 269), (270, .stCase 270), (271, .stCase 271), (272, .stCase 272), (273, .stCase 273), (274, .stCase 274), (275, .stCase 275), (276, .stCase 276), (277, .stCase 277), (278, .stCase 278), (279, .stCase 279), (280, .stCase 280), (281, .stCase 281), (282, .stCase 282), (283, .stCase 283), (284, .stCase 284), (285, .stCase 285), (286, .stCase 286), (287, .stCase 287), (288, .stCase 288), (289, .stCase 289), (290, .stCase 290), (291, .stCase 291), (292, .stCase 292), (293, .stCase 293), (294, .stCase 294), (295, .stCase 295), (296, .stCase 296), (297, .stCase 297), (298, .stCase 298), (299, .stCase 299), (300, .stCase 300), (301, .stCase 301), (302, .stCase 302), (303, .stCase 303), (304, .stCase 304), (305, .stCase 305), (306, .stCase 306), (307, .stCase 307), (308, .stCase 308), (309, .stCase 309), (39, .stCase 39), (310, .stCase 310), (311, .stCase 311), (312, .stCase 312), (313, .stCase 313), (314, .stCase 314), (315, .stCase 315), (316, .stCase 316), (317, .stCase 317), (318, .stCase 318), (319, .stCase 319), (320, .stCase 320), (321, .stCase 321), (322, .stCase 322), (323, .stCase 323), (324, .stCase 324), (325, .stCase 325), (326, .stCase 326), (327, .stCase 327), (328, .stCase 328), (329, .stCase 329), (330, .stCase 330), (331, .stCase 331), (332, .stCase 332), (333, .stCase 333), (334, .stCase 334), (335, .stCase 335), (336, .stCase 336), (337, .stCase 337), (338, .stCase 338), (339, .stCase 339), (340, .stCase 340), (341, .stCase 341), (342, .stCase 342), (343, .stCase 343), (344, .stCase 344), (345, .stCase 345), (346, .stCase 346), (347, .stCase 347), (348, .stCase 348), (349, .stCase 349), (350, .stCase 350), (351, .stCase 351), (352, .stCase 352), (353, .stCase 353), (354, .stCase 354), (355, .stCase 355), (356, .stCase 356), (357, .stCase 357), (40, .stCase 40), (358, .stCase 358), (359, .stCase 359), (360, .stCase 360), (361, .stCase 361), (362, .stCase 362), (363, .stCase 363), (364, .stCase 364), (365, .stCase 365), (366, .stCase 366), (367, .stCase 367), (368, .stCase 368), (369, .stCase 369), (370, .stCase 370), (371, .stCase 371), (372, .stCase 372), (373, .stCase 373), (374, .stCase 374), (375, .stCase 375), (376, .stCase 376), (377, .stCase 377), (378, .stCase 378), (379, .stCase 379), (380, .stCase 380), (381, .stCase 381), (382, .stCase 382), (383, .stCase 383), (384, .stCase 384), (385, .stCase 385), (386, .stCase 386), (387, .stCase 387), (388, .stCase 388), (389, .stCase 389), (390, .stCase 390), (391, .stCase 391), (392, .stCase 392), (393, .stCase 393), (394, .stCase 394), (395, .stCase 395), (396, .stCase 396), (397, .stCase 397), (398, .stCase 398), (399, .stCase 399), (400, .stCase 400), (401, .stCase 401), (402, .stCase 402), (403, .stCase 403), (404, .stCase 404), (405, .stCase 405), (406, .stCase 406), (407, .stCase 407), (408, .stCase 408), (409, .stCase 409), (410, .stCase 410), (411, .stCase 411), (412, .stCase 412), (413, .stCase 413), (414, .stCase 414), (415, .stCase 415), (416, .stCase 416), (417, .stCase 417), (418, .stCase 418), (419, .stCase 419), (420, .stCase 420), (421, .stCase 421), (422, .stCase 422), (423, .stCase 423), (424, .stCase 424), (425, .stCase 425), (426, .stCase 426), (427, .stCase 427), (428, .stCase 428), (429, .stCase 429), (430, .stCase 430), (431, .stCase 431), (432, .stCase 432), (433, .stCase 433), (434, .stCase 434), (435, .stCase 435), (436, .stCase 436), (437, .stCase 437), (438, .stCase 438), (439, .stCase 439), (440, .stCase 440), (441, .stCase 441), (442, .stCase 442), (443, .stCase 443), (444, .stCase 444), (445, .stCase 445), (446, .stCase 446), (447, .stCase 447), (448, .stCase 448), (449, .stCase 449), (450, .stCase 450), (451, .stCase 451), (452, .stCase 452), (453, .stCase 453), (454, .stCase 454), (455, .stCase 455), (456, .stCase 456), (457, .stCase 457), (458, .stCase 458), (459, .stCase 459), (460, .stCase 460), (461, .stCase 461), (462, .stCase 462), (463, .stCase 463), (464, .stCase 464), (465, .stCase 465), (466, .stCase 466), (467, .stCase 467), (468, .stCase 468), (469, .stCase 469), (470, .stCase 470), (471, .stCase 471), (472, .stCase 472), (473, .stCase 473), (474, .stCase 474), (475, .stCase 475), (476, .stCase 476), (477, .stCase 477), (478, .stCase 478), (479, .stCase 479), (480, .stCase 480), (481, .stCase 481), (482, .stCase 482), (483, .stCase 483), (484, .stCase 484), (485, .stCase 485), (41, .stCase 41), (486, .stCase 486), (487, .stCase 487), (488, .stCase 488), (489, .stCase 489), (490, .stCase 490), (491, .stCase 491), (492, .stCase 492), (493, .stCase 493), (494, .stCase 494), (495, .stCase 495), (496, .stCase 496), (497, .stCase 497), (498, .stCase 498), (499, .stCase 499), (500, .stCase 500), (501, .stCase 501), (502, .stCase 502), (503, .stCase 503), (504, .stCase 504), (505, .stCase 505), (506, .stCase 506), (507, .stCase 507), (508, .stCase 508), (509, .stCase 509), (510, .stCase 510), (511, .stCase 511), (512, .stCase 512), (513, .stCase 513), (514, .stCase 514), (515, .stCase 515), (516, .stCase 516), (517, .stCase 517), (42, .stCase 42), (518, .stCase 518), (519, .stCase 519), (520, .stCase 520), (521, .stCase 521), (522, .stCase 522), (523, .stCase 523), (524, .stCase 524), (525, .stCase 525), (526, .stCase 526), (527, .stCase 527), (528, .stCase 528), (529, .stCase 529), (530, .stCase 530), (531, .stCase 531), (532, .stCase 532), (533, .stCase 533), (534, .stCase 534), (535, .stCase 535), (536, .stCase 536), (537, .stCase 537), (538, .stCase 538), (539, .stCase 539), (540, .stCase 540), (541, .stCase 541), (542, .stCase 542), (543, .stCase 543), (544, .stCase 544), (545, .stCase 545), (546, .stCase 546), (547, .stCase 547), (548, .stCase 548), (549, .stCase 549), (43, .stCase 43), (550, .stCase 550), (551, .stCase 551), (552, .stCase 552), (553, .stCase 553), (554, .stCase 554), (555, .stCase 555), (556, .stCase 556), (557, .stCase 557), (558, .stCase 558), (559, .stCase 559), (560, .stCase 560), (561, .stCase 561), (562, .stCase 562), (563, .stCase 563), (564, .stCase 564), (565, .stCase 565), (566, .stCase 566), (567, .stCase 567), (568, .stCase 568), (569, .stCase 569), (570, .stCase 570), (571, .stCase 571), (572, .stCase 572), (573, .stCase 573), (574, .stCase 574), (575, .stCase 575), (576, .stCase 576), (577, .stCase 577), (578, .stCase 578), (579, .stCase 579), (580, .stCase 580), (581, .stCase 581), (582, .stCase 582), (583, .stCase 583), (44, .stCase 44), (45, .stCase 45), (46, .stCase 46), (47, .stCase 47), (48, .stCase 48), (49, .stCase 49), (50, .stCase 50), (51, .stCase 51)]

/-- rfc5424/builder.go:67 -/
def entry : K × Lbl := ⟨.stmt .dataInput (.stmt .pZero (.stmt (.prim .pbZero) (.stmt .peLen (.stmt .eofLen (.stmt (.prim .csFrom) (.stmt (.prim .backslashesNew) (.ifElse .pEqPe (.goto .testEof .done) .done (.jumpCs jumps (.goto .stOut .done))))))))), .stCase 52⟩
/-- rfc5424/builder.go:1251 -/
def stCase52 : K × Lbl := ⟨.goto (.tr 47) .done, .tr 47⟩
/-- rfc5424/builder.go:1253 -/
def tr47 : K × Lbl := ⟨.stmt (.prim .pbP) (.goto (.st 53) .done), .st 53⟩
/-- rfc5424/builder.go:1258 -/
def st53 : K × Lbl := ⟨.stmt .incP (.ifElse .pEqPe (.goto (.testEofN 53) .done) .done .done), .stCase 53⟩
/-- rfc5424/builder.go:1262 -/
def stCase53 : K × Lbl := ⟨.goto (.st 53) .done, .stCase 1⟩
/-- rfc5424/builder.go:1264 -/
def stCase1 : K × Lbl := ⟨.ifElse (.and (.cmp .le (.lit 48) .byte) (.cmp .le .byte (.lit 57))) (.goto (.tr 0) .done) .done (.goto (.st 0) .done), .stCase 0⟩
/-- rfc5424/builder.go:1269 -/
def stCase0 : K × Lbl := ⟨.done, .st 0⟩
/-- rfc5424/builder.go:1270 -/
def st0 : K × Lbl := ⟨.stmt (.setCs 0) (.goto .out .done), .tr 0⟩
/-- rfc5424/builder.go:1273 -/
def tr0 : K × Lbl := ⟨.stmt (.prim .pbP) (.goto (.st 2) .done), .st 2⟩
/-- rfc5424/builder.go:1278 -/
def st2 : K × Lbl := ⟨.stmt .incP (.ifElse .pEqPe (.goto (.testEofN 2) .done) .done .done), .stCase 2⟩
/-- rfc5424/builder.go:1282 -/
def stCase2 : K × Lbl := ⟨.ifElse (.and (.cmp .le (.lit 48) .byte) (.cmp .le .byte (.lit 57))) (.goto (.st 3) .done) .done (.goto (.st 0) .done), .st 3⟩
/-- rfc5424/builder.go:1287 -/
def st3 : K × Lbl := ⟨.stmt .incP (.ifElse .pEqPe (.goto (.testEofN 3) .done) .done .done), .stCase 3⟩
/-- rfc5424/builder.go:1291 -/
def stCase3 : K × Lbl := ⟨.ifElse (.and (.cmp .le (.lit 48) .byte) (.cmp .le .byte (.lit 57))) (.goto (.st 4) .done) .done (.goto (.st 0) .done), .st 4⟩
/-- rfc5424/builder.go:1296 -/
def st4 : K × Lbl := ⟨.stmt .incP (.ifElse .pEqPe (.goto (.testEofN 4) .done) .done .done), .stCase 4⟩
/-- rfc5424/builder.go:1300 -/
def stCase4 : K × Lbl := ⟨.ifElse (.and (.cmp .le (.lit 48) .byte) (.cmp .le .byte (.lit 57))) (.goto (.st 5) .done) .done (.goto (.st 0) .done), .st 5⟩
/-- rfc5424/builder.go:1305 -/
def st5 : K × Lbl := ⟨.stmt .incP (.ifElse .pEqPe (.goto (.testEofN 5) .done) .done .done), .stCase 5⟩
/-- rfc5424/builder.go:1309 -/
def stCase5 : K × Lbl := ⟨.ifElse (.cmp .eq .byte (.lit 45)) (.goto (.st 6) .done) .done (.goto (.st 0) .done), .st 6⟩
/-- rfc5424/builder.go:1314 -/
def st6 : K × Lbl := ⟨.stmt .incP (.ifElse .pEqPe (.goto (.testEofN 6) .done) .done .done), .stCase 6⟩
/-- rfc5424/builder.go:1318 -/
def stCase6 : K × Lbl := ⟨.ifElse (.cmp .eq .byte (.lit 48)) (.goto (.st 7) .done) (.ifElse (.cmp .eq .byte (.lit 49)) (.goto (.st 37) .done) .done .done) (.goto (.st 0) .done), .st 7⟩
/-- rfc5424/builder.go:1326 -/
def st7 : K × Lbl := ⟨.stmt .incP (.ifElse .pEqPe (.goto (.testEofN 7) .done) .done .done), .stCase 7⟩
/-- rfc5424/builder.go:1330 -/
def stCase7 : K × Lbl := ⟨.ifElse (.and (.cmp .le (.lit 49) .byte) (.cmp .le .byte (.lit 57))) (.goto (.st 8) .done) .done (.goto (.st 0) .done), .st 8⟩
/-- rfc5424/builder.go:1335 -/
def st8 : K × Lbl := ⟨.stmt .incP (.ifElse .pEqPe (.goto (.testEofN 8) .done) .done .done), .stCase 8⟩
/-- rfc5424/builder.go:1339 -/
def stCase8 : K × Lbl := ⟨.ifElse (.cmp .eq .byte (.lit 45)) (.goto (.st 9) .done) .done (.goto (.st 0) .done), .st 9⟩
/-- rfc5424/builder.go:1344 -/
def st9 : K × Lbl := ⟨.stmt .incP (.ifElse .pEqPe (.goto (.testEofN 9) .done) .done .done), .stCase 9⟩
/-- rfc5424/builder.go:1348 -/
def stCase9 : K × Lbl := ⟨.ifElse (.cmp .eq .byte (.lit 48)) (.goto (.st 10) .done) (.ifElse (.cmp .eq .byte (.lit 51)) (.goto (.st 36) .done) .done .done) (.ifElse (.and (.cmp .le (.lit 49) .byte) (.cmp .le .byte (.lit 50))) (.goto (.st 35) .done) .done (.goto (.st 0) .done)), .st 10⟩
/-- rfc5424/builder.go:1359 -/
def st10 : K × Lbl := ⟨.stmt .incP (.ifElse .pEqPe (.goto (.testEofN 10) .done) .done .done), .stCase 10⟩
/-- rfc5424/builder.go:1363 -/
def stCase10 : K × Lbl := ⟨.ifElse (.and (.cmp .le (.lit 49) .byte) (.cmp .le .byte (.lit 57))) (.goto (.st 11) .done) .done (.goto (.st 0) .done), .st 11⟩
/-- rfc5424/builder.go:1368 -/
def st11 : K × Lbl := ⟨.stmt .incP (.ifElse .pEqPe (.goto (.testEofN 11) .done) .done .done), .stCase 11⟩
/-- rfc5424/builder.go:1372 -/
def stCase11 : K × Lbl := ⟨.ifElse (.cmp .eq .byte (.lit 84)) (.goto (.st 12) .done) .done (.goto (.st 0) .done), .st 12⟩
/-- rfc5424/builder.go:1377 -/
def st12 : K × Lbl := ⟨.stmt .incP (.ifElse .pEqPe (.goto (.testEofN 12) .done) .done .done), .stCase 12⟩
/-- rfc5424/builder.go:1381 -/
def stCase12 : K × Lbl := ⟨.ifElse (.cmp .eq .byte (.lit 50)) (.goto (.st 34) .done) .done (.ifElse (.and (.cmp .le (.lit 48) .byte) (.cmp .le .byte (.lit 49))) (.goto (.st 13) .done) .done (.goto (.st 0) .done)), .st 13⟩
/-- rfc5424/builder.go:1389 -/
def st13 : K × Lbl := ⟨.stmt .incP (.ifElse .pEqPe (.goto (.testEofN 13) .done) .done .done), .stCase 13⟩
/-- rfc5424/builder.go:1393 -/
def stCase13 : K × Lbl := ⟨.ifElse (.and (.cmp .le (.lit 48) .byte) (.cmp .le .byte (.lit 57))) (.goto (.st 14) .done) .done (.goto (.st 0) .done), .st 14⟩
/-- rfc5424/builder.go:1398 -/
def st14 : K × Lbl := ⟨.stmt .incP (.ifElse .pEqPe (.goto (.testEofN 14) .done) .done .done), .stCase 14⟩
/-- rfc5424/builder.go:1402 -/
def stCase14 : K × Lbl := ⟨.ifElse (.cmp .eq .byte (.lit 58)) (.goto (.st 15) .done) .done (.goto (.st 0) .done), .st 15⟩
/-- rfc5424/builder.go:1407 -/
def st15 : K × Lbl := ⟨.stmt .incP (.ifElse .pEqPe (.goto (.testEofN 15) .done) .done .done), .stCase 15⟩
/-- rfc5424/builder.go:1411 -/
def stCase15 : K × Lbl := ⟨.ifElse (.and (.cmp .le (.lit 48) .byte) (.cmp .le .byte (.lit 53))) (.goto (.st 16) .done) .done (.goto (.st 0) .done), .st 16⟩
/-- rfc5424/builder.go:1416 -/
def st16 : K × Lbl := ⟨.stmt .incP (.ifElse .pEqPe (.goto (.testEofN 16) .done) .done .done), .stCase 16⟩
/-- rfc5424/builder.go:1420 -/
def stCase16 : K × Lbl := ⟨.ifElse (.and (.cmp .le (.lit 48) .byte) (.cmp .le .byte (.lit 57))) (.goto (.st 17) .done) .done (.goto (.st 0) .done), .st 17⟩
/-- rfc5424/builder.go:1425 -/
def st17 : K × Lbl := ⟨.stmt .incP (.ifElse .pEqPe (.goto (.testEofN 17) .done) .done .done), .stCase 17⟩
/-- rfc5424/builder.go:1429 -/
def stCase17 : K × Lbl := ⟨.ifElse (.cmp .eq .byte (.lit 58)) (.goto (.st 18) .done) .done (.goto (.st 0) .done), .st 18⟩
/-- rfc5424/builder.go:1434 -/
def st18 : K × Lbl := ⟨.stmt .incP (.ifElse .pEqPe (.goto (.testEofN 18) .done) .done .done), .stCase 18⟩
/-- rfc5424/builder.go:1438 -/
def stCase18 : K × Lbl := ⟨.ifElse (.and (.cmp .le (.lit 48) .byte) (.cmp .le .byte (.lit 53))) (.goto (.st 19) .done) .done (.goto (.st 0) .done), .st 19⟩
/-- rfc5424/builder.go:1443 -/
def st19 : K × Lbl := ⟨.stmt .incP (.ifElse .pEqPe (.goto (.testEofN 19) .done) .done .done), .stCase 19⟩
/-- rfc5424/builder.go:1447 -/
def stCase19 : K × Lbl := ⟨.ifElse (.and (.cmp .le (.lit 48) .byte) (.cmp .le .byte (.lit 57))) (.goto (.st 20) .done) .done (.goto (.st 0) .done), .st 20⟩
/-- rfc5424/builder.go:1452 -/
def st20 : K × Lbl := ⟨.stmt .incP (.ifElse .pEqPe (.goto (.testEofN 20) .done) .done .done), .stCase 20⟩
/-- rfc5424/builder.go:1456 -/
def stCase20 : K × Lbl := ⟨.ifElse (.cmp .eq .byte (.lit 43)) (.goto (.st 21) .done) (.ifElse (.cmp .eq .byte (.lit 45)) (.goto (.st 21) .done) (.ifElse (.cmp .eq .byte (.lit 46)) (.goto (.st 27) .done) (.ifElse (.cmp .eq .byte (.lit 90)) (.goto (.st 54) .done) .done .done) .done) .done) (.goto (.st 0) .done), .st 21⟩
/-- rfc5424/builder.go:1468 -/
def st21 : K × Lbl := ⟨.stmt .incP (.ifElse .pEqPe (.goto (.testEofN 21) .done) .done .done), .stCase 21⟩
/-- rfc5424/builder.go:1472 -/
def stCase21 : K × Lbl := ⟨.ifElse (.cmp .eq .byte (.lit 50)) (.goto (.st 26) .done) .done (.ifElse (.and (.cmp .le (.lit 48) .byte) (.cmp .le .byte (.lit 49))) (.goto (.st 22) .done) .done (.goto (.st 0) .done)), .st 22⟩
/-- rfc5424/builder.go:1480 -/
def st22 : K × Lbl := ⟨.stmt .incP (.ifElse .pEqPe (.goto (.testEofN 22) .done) .done .done), .stCase 22⟩
/-- rfc5424/builder.go:1484 -/
def stCase22 : K × Lbl := ⟨.ifElse (.and (.cmp .le (.lit 48) .byte) (.cmp .le .byte (.lit 57))) (.goto (.st 23) .done) .done (.goto (.st 0) .done), .st 23⟩
/-- rfc5424/builder.go:1489 -/
def st23 : K × Lbl := ⟨.stmt .incP (.ifElse .pEqPe (.goto (.testEofN 23) .done) .done .done), .stCase 23⟩
/-- rfc5424/builder.go:1493 -/
def stCase23 : K × Lbl := ⟨.ifElse (.cmp .eq .byte (.lit 58)) (.goto (.st 24) .done) .done (.goto (.st 0) .done), .st 24⟩
/-- rfc5424/builder.go:1498 -/
def st24 : K × Lbl := ⟨.stmt .incP (.ifElse .pEqPe (.goto (.testEofN 24) .done) .done .done), .stCase 24⟩
/-- rfc5424/builder.go:1502 -/
def stCase24 : K × Lbl := ⟨.ifElse (.and (.cmp .le (.lit 48) .byte) (.cmp .le .byte (.lit 53))) (.goto (.st 25) .done) .done (.goto (.st 0) .done), .st 25⟩
/-- rfc5424/builder.go:1507 -/
def st25 : K × Lbl := ⟨.stmt .incP (.ifElse .pEqPe (.goto (.testEofN 25) .done) .done .done), .stCase 25⟩
/-- rfc5424/builder.go:1511 -/
def stCase25 : K × Lbl := ⟨.ifElse (.and (.cmp .le (.lit 48) .byte) (.cmp .le .byte (.lit 57))) (.goto (.st 54) .done) .done (.goto (.st 0) .done), .st 54⟩
/-- rfc5424/builder.go:1516 -/
def st54 : K × Lbl := ⟨.stmt .incP (.ifElse .pEqPe (.goto (.testEofN 54) .done) .done .done), .stCase 54⟩
/-- rfc5424/builder.go:1520 -/
def stCase54 : K × Lbl := ⟨.goto (.st 0) .done, .st 26⟩
/-- rfc5424/builder.go:1522 -/
def st26 : K × Lbl := ⟨.stmt .incP (.ifElse .pEqPe (.goto (.testEofN 26) .done) .done .done), .stCase 26⟩
/-- rfc5424/builder.go:1526 -/
def stCase26 : K × Lbl := ⟨.ifElse (.and (.cmp .le (.lit 48) .byte) (.cmp .le .byte (.lit 51))) (.goto (.st 23) .done) .done (.goto (.st 0) .done), .st 27⟩
/-- rfc5424/builder.go:1531 -/
def st27 : K × Lbl := ⟨.stmt .incP (.ifElse .pEqPe (.goto (.testEofN 27) .done) .done .done), .stCase 27⟩
/-- rfc5424/builder.go:1535 -/
def stCase27 : K × Lbl := ⟨.ifElse (.and (.cmp .le (.lit 48) .byte) (.cmp .le .byte (.lit 57))) (.goto (.st 28) .done) .done (.goto (.st 0) .done), .st 28⟩
/-- rfc5424/builder.go:1540 -/
def st28 : K × Lbl := ⟨.stmt .incP (.ifElse .pEqPe (.goto (.testEofN 28) .done) .done .done), .stCase 28⟩
/-- rfc5424/builder.go:1544 -/
def stCase28 : K × Lbl := ⟨.ifElse (.cmp .eq .byte (.lit 43)) (.goto (.st 21) .done) (.ifElse (.cmp .eq .byte (.lit 45)) (.goto (.st 21) .done) (.ifElse (.cmp .eq .byte (.lit 90)) (.goto (.st 54) .done) .done .done) .done) (.ifElse (.and (.cmp .le (.lit 48) .byte) (.cmp .le .byte (.lit 57))) (.goto (.st 29) .done) .done (.goto (.st 0) .done)), .st 29⟩
/-- rfc5424/builder.go:1557 -/
def st29 : K × Lbl := ⟨.stmt .incP (.ifElse .pEqPe (.goto (.testEofN 29) .done) .done .done), .stCase 29⟩
/-- rfc5424/builder.go:1561 -/
def stCase29 : K × Lbl := ⟨.ifElse (.cmp .eq .byte (.lit 43)) (.goto (.st 21) .done) (.ifElse (.cmp .eq .byte (.lit 45)) (.goto (.st 21) .done) (.ifElse (.cmp .eq .byte (.lit 90)) (.goto (.st 54) .done) .done .done) .done) (.ifElse (.and (.cmp .le (.lit 48) .byte) (.cmp .le .byte (.lit 57))) (.goto (.st 30) .done) .done (.goto (.st 0) .done)), .st 30⟩
/-- rfc5424/builder.go:1574 -/
def st30 : K × Lbl := ⟨.stmt .incP (.ifElse .pEqPe (.goto (.testEofN 30) .done) .done .done), .stCase 30⟩
/-- rfc5424/builder.go:1578 -/
def stCase30 : K × Lbl := ⟨.ifElse (.cmp .eq .byte (.lit 43)) (.goto (.st 21) .done) (.ifElse (.cmp .eq .byte (.lit 45)) (.goto (.st 21) .done) (.ifElse (.cmp .eq .byte (.lit 90)) (.goto (.st 54) .done) .done .done) .done) (.ifElse (.and (.cmp .le (.lit 48) .byte) (.cmp .le .byte (.lit 57))) (.goto (.st 31) .done) .done (.goto (.st 0) .done)), .st 31⟩
/-- rfc5424/builder.go:1591 -/
def st31 : K × Lbl := ⟨.stmt .incP (.ifElse .pEqPe (.goto (.testEofN 31) .done) .done .done), .stCase 31⟩
/-- rfc5424/builder.go:1595 -/
def stCase31 : K × Lbl := ⟨.ifElse (.cmp .eq .byte (.lit 43)) (.goto (.st 21) .done) (.ifElse (.cmp .eq .byte (.lit 45)) (.goto (.st 21) .done) (.ifElse (.cmp .eq .byte (.lit 90)) (.goto (.st 54) .done) .done .done) .done) (.ifElse (.and (.cmp .le (.lit 48) .byte) (.cmp .le .byte (.lit 57))) (.goto (.st 32) .done) .done (.goto (.st 0) .done)), .st 32⟩
/-- rfc5424/builder.go:1608 -/
def st32 : K × Lbl := ⟨.stmt .incP (.ifElse .pEqPe (.goto (.testEofN 32) .done) .done .done), .stCase 32⟩
/-- rfc5424/builder.go:1612 -/
def stCase32 : K × Lbl := ⟨.ifElse (.cmp .eq .byte (.lit 43)) (.goto (.st 21) .done) (.ifElse (.cmp .eq .byte (.lit 45)) (.goto (.st 21) .done) (.ifElse (.cmp .eq .byte (.lit 90)) (.goto (.st 54) .done) .done .done) .done) (.ifElse (.and (.cmp .le (.lit 48) .byte) (.cmp .le .byte (.lit 57))) (.goto (.st 33) .done) .done (.goto (.st 0) .done)), .st 33⟩
/-- rfc5424/builder.go:1625 -/
def st33 : K × Lbl := ⟨.stmt .incP (.ifElse .pEqPe (.goto (.testEofN 33) .done) .done .done), .stCase 33⟩
/-- rfc5424/builder.go:1629 -/
def stCase33 : K × Lbl := ⟨.ifElse (.cmp .eq .byte (.lit 43)) (.goto (.st 21) .done) (.ifElse (.cmp .eq .byte (.lit 45)) (.goto (.st 21) .done) (.ifElse (.cmp .eq .byte (.lit 90)) (.goto (.st 54) .done) .done .done) .done) (.goto (.st 0) .done), .st 34⟩
/-- rfc5424/builder.go:1639 -/
def st34 : K × Lbl := ⟨.stmt .incP (.ifElse .pEqPe (.goto (.testEofN 34) .done) .done .done), .stCase 34⟩
/-- rfc5424/builder.go:1643 -/
def stCase34 : K × Lbl := ⟨.ifElse (.and (.cmp .le (.lit 48) .byte) (.cmp .le .byte (.lit 51))) (.goto (.st 14) .done) .done (.goto (.st 0) .done), .st 35⟩
/-- rfc5424/builder.go:1648 -/
def st35 : K × Lbl := ⟨.stmt .incP (.ifElse .pEqPe (.goto (.testEofN 35) .done) .done .done), .stCase 35⟩
/-- rfc5424/builder.go:1652 -/
def stCase35 : K × Lbl := ⟨.ifElse (.and (.cmp .le (.lit 48) .byte) (.cmp .le .byte (.lit 57))) (.goto (.st 11) .done) .done (.goto (.st 0) .done), .st 36⟩
/-- rfc5424/builder.go:1657 -/
def st36 : K × Lbl := ⟨.stmt .incP (.ifElse .pEqPe (.goto (.testEofN 36) .done) .done .done), .stCase 36⟩
/-- rfc5424/builder.go:1661 -/
def stCase36 : K × Lbl := ⟨.ifElse (.and (.cmp .le (.lit 48) .byte) (.cmp .le .byte (.lit 49))) (.goto (.st 11) .done) .done (.goto (.st 0) .done), .st 37⟩
/-- rfc5424/builder.go:1666 -/
def st37 : K × Lbl := ⟨.stmt .incP (.ifElse .pEqPe (.goto (.testEofN 37) .done) .done .done), .stCase 37⟩
/-- rfc5424/builder.go:1670 -/
def stCase37 : K × Lbl := ⟨.ifElse (.and (.cmp .le (.lit 48) .byte) (.cmp .le .byte (.lit 50))) (.goto (.st 8) .done) .done (.goto (.st 0) .done), .stCase 38⟩
/-- rfc5424/builder.go:1675 -/
def stCase38 : K × Lbl := ⟨.ifElse (.and (.cmp .le (.lit 33) .byte) (.cmp .le .byte (.lit 126))) (.goto (.tr 38) .done) .done (.goto (.st 0) .done), .tr 38⟩
/-- rfc5424/builder.go:1680 -/
def tr38 : K × Lbl := ⟨.stmt (.prim .pbP) (.goto (.st 55) .done), .st 55⟩
/-- rfc5424/builder.go:1685 -/
def st55 : K × Lbl := ⟨.stmt .incP (.ifElse .pEqPe (.goto (.testEofN 55) .done) .done .done), .stCase 55⟩
/-- rfc5424/builder.go:1689 -/
def stCase55 : K × Lbl := ⟨.ifElse (.and (.cmp .le (.lit 33) .byte) (.cmp .le .byte (.lit 126))) (.goto (.st 56) .done) .done (.goto (.st 0) .done), .st 56⟩
/-- rfc5424/builder.go:1694 -/
def st56 : K × Lbl := ⟨.stmt .incP (.ifElse .pEqPe (.goto (.testEofN 56) .done) .done .done), .stCase 56⟩
/-- rfc5424/builder.go:1698 -/
def stCase56 : K × Lbl := ⟨.ifElse (.and (.cmp .le (.lit 33) .byte) (.cmp .le .byte (.lit 126))) (.goto (.st 57) .done) .done (.goto (.st 0) .done), .st 57⟩
/-- rfc5424/builder.go:1703 -/
def st57 : K × Lbl := ⟨.stmt .incP (.ifElse .pEqPe (.goto (.testEofN 57) .done) .done .done), .stCase 57⟩
/-- rfc5424/builder.go:1707 -/
def stCase57 : K × Lbl := ⟨.ifElse (.and (.cmp .le (.lit 33) .byte) (.cmp .le .byte (.lit 126))) (.goto (.st 58) .done) .done (.goto (.st 0) .done), .st 58⟩
/-- rfc5424/builder.go:1712 -/
def st58 : K × Lbl := ⟨.stmt .incP (.ifElse .pEqPe (.goto (.testEofN 58) .done) .done .done), .stCase 58⟩
/-- rfc5424/builder.go:1716 -/
def stCase58 : K × Lbl := ⟨.ifElse (.and (.cmp .le (.lit 33) .byte) (.cmp .le .byte (.lit 126))) (.goto (.st 59) .done) .done (.goto (.st 0) .done), .st 59⟩
/-- rfc5424/builder.go:1721 -/
def st59 : K × Lbl := ⟨.stmt .incP (.ifElse .pEqPe (.goto (.testEofN 59) .done) .done .done), .stCase 59⟩
/-- rfc5424/builder.go:1725 -/
def stCase59 : K × Lbl := ⟨.ifElse (.and (.cmp .le (.lit 33) .byte) (.cmp .le .byte (.lit 126))) (.goto (.st 60) .done) .done (.goto (.st 0) .done), .st 60⟩
/-- rfc5424/builder.go:1730 -/
def st60 : K × Lbl := ⟨.stmt .incP (.ifElse .pEqPe (.goto (.testEofN 60) .done) .done .done), .stCase 60⟩
/-- rfc5424/builder.go:1734 -/
def stCase60 : K × Lbl := ⟨.ifElse (.and (.cmp .le (.lit 33) .byte) (.cmp .le .byte (.lit 126))) (.goto (.st 61) .done) .done (.goto (.st 0) .done), .st 61⟩
/-- rfc5424/builder.go:1739 -/
def st61 : K × Lbl := ⟨.stmt .incP (.ifElse .pEqPe (.goto (.testEofN 61) .done) .done .done), .stCase 61⟩
/-- rfc5424/builder.go:1743 -/
def stCase61 : K × Lbl := ⟨.ifElse (.and (.cmp .le (.lit 33) .byte) (.cmp .le .byte (.lit 126))) (.goto (.st 62) .done) .done (.goto (.st 0) .done), .st 62⟩
/-- rfc5424/builder.go:1748 -/
def st62 : K × Lbl := ⟨.stmt .incP (.ifElse .pEqPe (.goto (.testEofN 62) .done) .done .done), .stCase 62⟩
/-- rfc5424/builder.go:1752 -/
def stCase62 : K × Lbl := ⟨.ifElse (.and (.cmp .le (.lit 33) .byte) (.cmp .le .byte (.lit 126))) (.goto (.st 63) .done) .done (.goto (.st 0) .done), .st 63⟩
/-- rfc5424/builder.go:1757 -/
def st63 : K × Lbl := ⟨.stmt .incP (.ifElse .pEqPe (.goto (.testEofN 63) .done) .done .done), .stCase 63⟩
/-- rfc5424/builder.go:1761 -/
def stCase63 : K × Lbl := ⟨.ifElse (.and (.cmp .le (.lit 33) .byte) (.cmp .le .byte (.lit 126))) (.goto (.st 64) .done) .done (.goto (.st 0) .done), .st 64⟩
/-- rfc5424/builder.go:1766 -/
def st64 : K × Lbl := ⟨.stmt .incP (.ifElse .pEqPe (.goto (.testEofN 64) .done) .done .done), .stCase 64⟩
/-- rfc5424/builder.go:1770 -/
def stCase64 : K × Lbl := ⟨.ifElse (.and (.cmp .le (.lit 33) .byte) (.cmp .le .byte (.lit 126))) (.goto (.st 65) .done) .done (.goto (.st 0) .done), .st 65⟩
/-- rfc5424/builder.go:1775 -/
def st65 : K × Lbl := ⟨.stmt .incP (.ifElse .pEqPe (.goto (.testEofN 65) .done) .done .done), .stCase 65⟩
/-- rfc5424/builder.go:1779 -/
def stCase65 : K × Lbl := ⟨.ifElse (.and (.cmp .le (.lit 33) .byte) (.cmp .le .byte (.lit 126))) (.goto (.st 66) .done) .done (.goto (.st 0) .done), .st 66⟩
/-- rfc5424/builder.go:1784 -/
def st66 : K × Lbl := ⟨.stmt .incP (.ifElse .pEqPe (.goto (.testEofN 66) .done) .done .done), .stCase 66⟩
/-- rfc5424/builder.go:1788 -/
def stCase66 : K × Lbl := ⟨.ifElse (.and (.cmp .le (.lit 33) .byte) (.cmp .le .byte (.lit 126))) (.goto (.st 67) .done) .done (.goto (.st 0) .done), .st 67⟩
/-- rfc5424/builder.go:1793 -/
def st67 : K × Lbl := ⟨.stmt .incP (.ifElse .pEqPe (.goto (.testEofN 67) .done) .done .done), .stCase 67⟩
/-- rfc5424/builder.go:1797 -/
def stCase67 : K × Lbl := ⟨.ifElse (.and (.cmp .le (.lit 33) .byte) (.cmp .le .byte (.lit 126))) (.goto (.st 68) .done) .done (.goto (.st 0) .done), .st 68⟩
/-- rfc5424/builder.go:1802 -/
def st68 : K × Lbl := ⟨.stmt .incP (.ifElse .pEqPe (.goto (.testEofN 68) .done) .done .done), .stCase 68⟩
/-- rfc5424/builder.go:1806 -/
def stCase68 : K × Lbl := ⟨.ifElse (.and (.cmp .le (.lit 33) .byte) (.cmp .le .byte (.lit 126))) (.goto (.st 69) .done) .done (.goto (.st 0) .done), .st 69⟩
/-- rfc5424/builder.go:1811 -/
def st69 : K × Lbl := ⟨.stmt .incP (.ifElse .pEqPe (.goto (.testEofN 69) .done) .done .done), .stCase 69⟩
/-- rfc5424/builder.go:1815 -/
def stCase69 : K × Lbl := ⟨.ifElse (.and (.cmp .le (.lit 33) .byte) (.cmp .le .byte (.lit 126))) (.goto (.st 70) .done) .done (.goto (.st 0) .done), .st 70⟩
/-- rfc5424/builder.go:1820 -/
def st70 : K × Lbl := ⟨.stmt .incP (.ifElse .pEqPe (.goto (.testEofN 70) .done) .done .done), .stCase 70⟩
/-- rfc5424/builder.go:1824 -/
def stCase70 : K × Lbl := ⟨.ifElse (.and (.cmp .le (.lit 33) .byte) (.cmp .le .byte (.lit 126))) (.goto (.st 71) .done) .done (.goto (.st 0) .done), .st 71⟩
/-- rfc5424/builder.go:1829 -/
def st71 : K × Lbl := ⟨.stmt .incP (.ifElse .pEqPe (.goto (.testEofN 71) .done) .done .done), .stCase 71⟩
/-- rfc5424/builder.go:1833 -/
def stCase71 : K × Lbl := ⟨.ifElse (.and (.cmp .le (.lit 33) .byte) (.cmp .le .byte (.lit 126))) (.goto (.st 72) .done) .done (.goto (.st 0) .done), .st 72⟩
/-- rfc5424/builder.go:1838 -/
def st72 : K × Lbl := ⟨.stmt .incP (.ifElse .pEqPe (.goto (.testEofN 72) .done) .done .done), .stCase 72⟩
/-- rfc5424/builder.go:1842 -/
def stCase72 : K × Lbl := ⟨.ifElse (.and (.cmp .le (.lit 33) .byte) (.cmp .le .byte (.lit 126))) (.goto (.st 73) .done) .done (.goto (.st 0) .done), .st 73⟩
/-- rfc5424/builder.go:1847 -/
def st73 : K × Lbl := ⟨.stmt .incP (.ifElse .pEqPe (.goto (.testEofN 73) .done) .done .done), .stCase 73⟩
/-- rfc5424/builder.go:1851 -/
def stCase73 : K × Lbl := ⟨.ifElse (.and (.cmp .le (.lit 33) .byte) (.cmp .le .byte (.lit 126))) (.goto (.st 74) .done) .done (.goto (.st 0) .done), .st 74⟩
/-- rfc5424/builder.go:1856 -/
def st74 : K × Lbl := ⟨.stmt .incP (.ifElse .pEqPe (.goto (.testEofN 74) .done) .done .done), .stCase 74⟩
/-- rfc5424/builder.go:1860 -/
def stCase74 : K × Lbl := ⟨.ifElse (.and (.cmp .le (.lit 33) .byte) (.cmp .le .byte (.lit 126))) (.goto (.st 75) .done) .done (.goto (.st 0) .done), .st 75⟩
/-- rfc5424/builder.go:1865 -/
def st75 : K × Lbl := ⟨.stmt .incP (.ifElse .pEqPe (.goto (.testEofN 75) .done) .done .done), .stCase 75⟩
/-- rfc5424/builder.go:1869 -/
def stCase75 : K × Lbl := ⟨.ifElse (.and (.cmp .le (.lit 33) .byte) (.cmp .le .byte (.lit 126))) (.goto (.st 76) .done) .done (.goto (.st 0) .done), .st 76⟩
/-- rfc5424/builder.go:1874 -/
def st76 : K × Lbl := ⟨.stmt .incP (.ifElse .pEqPe (.goto (.testEofN 76) .done) .done .done), .stCase 76⟩
/-- rfc5424/builder.go:1878 -/
def stCase76 : K × Lbl := ⟨.ifElse (.and (.cmp .le (.lit 33) .byte) (.cmp .le .byte (.lit 126))) (.goto (.st 77) .done) .done (.goto (.st 0) .done), .st 77⟩
/-- rfc5424/builder.go:1883 -/
def st77 : K × Lbl := ⟨.stmt .incP (.ifElse .pEqPe (.goto (.testEofN 77) .done) .done .done), .stCase 77⟩
/-- rfc5424/builder.go:1887 -/
def stCase77 : K × Lbl := ⟨.ifElse (.and (.cmp .le (.lit 33) .byte) (.cmp .le .byte (.lit 126))) (.goto (.st 78) .done) .done (.goto (.st 0) .done), .st 78⟩
/-- rfc5424/builder.go:1892 -/
def st78 : K × Lbl := ⟨.stmt .incP (.ifElse .pEqPe (.goto (.testEofN 78) .done) .done .done), .stCase 78⟩
/-- rfc5424/builder.go:1896 -/
def stCase78 : K × Lbl := ⟨.ifElse (.and (.cmp .le (.lit 33) .byte) (.cmp .le .byte (.lit 126))) (.goto (.st 79) .done) .done (.goto (.st 0) .done), .st 79⟩
/-- rfc5424/builder.go:1901 -/
def st79 : K × Lbl := ⟨.stmt .incP (.ifElse .pEqPe (.goto (.testEofN 79) .done) .done .done), .stCase 79⟩
/-- rfc5424/builder.go:1905 -/
def stCase79 : K × Lbl := ⟨.ifElse (.and (.cmp .le (.lit 33) .byte) (.cmp .le .byte (.lit 126))) (.goto (.st 80) .done) .done (.goto (.st 0) .done), .st 80⟩
/-- rfc5424/builder.go:1910 -/
def st80 : K × Lbl := ⟨.stmt .incP (.ifElse .pEqPe (.goto (.testEofN 80) .done) .done .done), .stCase 80⟩
/-- rfc5424/builder.go:1914 -/
def stCase80 : K × Lbl := ⟨.ifElse (.and (.cmp .le (.lit 33) .byte) (.cmp .le .byte (.lit 126))) (.goto (.st 81) .done) .done (.goto (.st 0) .done), .st 81⟩
/-- rfc5424/builder.go:1919 -/
def st81 : K × Lbl := ⟨.stmt .incP (.ifElse .pEqPe (.goto (.testEofN 81) .done) .done .done), .stCase 81⟩
/-- rfc5424/builder.go:1923 -/
def stCase81 : K × Lbl := ⟨.ifElse (.and (.cmp .le (.lit 33) .byte) (.cmp .le .byte (.lit 126))) (.goto (.st 82) .done) .done (.goto (.st 0) .done), .st 82⟩
/-- rfc5424/builder.go:1928 -/
def st82 : K × Lbl := ⟨.stmt .incP (.ifElse .pEqPe (.goto (.testEofN 82) .done) .done .done), .stCase 82⟩
/-- rfc5424/builder.go:1932 -/
def stCase82 : K × Lbl := ⟨.ifElse (.and (.cmp .le (.lit 33) .byte) (.cmp .le .byte (.lit 126))) (.goto (.st 83) .done) .done (.goto (.st 0) .done), .st 83⟩
/-- rfc5424/builder.go:1937 -/
def st83 : K × Lbl := ⟨.stmt .incP (.ifElse .pEqPe (.goto (.testEofN 83) .done) .done .done), .stCase 83⟩
/-- rfc5424/builder.go:1941 -/
def stCase83 : K × Lbl := ⟨.ifElse (.and (.cmp .le (.lit 33) .byte) (.cmp .le .byte (.lit 126))) (.goto (.st 84) .done) .done (.goto (.st 0) .done), .st 84⟩
/-- rfc5424/builder.go:1946 -/
def st84 : K × Lbl := ⟨.stmt .incP (.ifElse .pEqPe (.goto (.testEofN 84) .done) .done .done), .stCase 84⟩
/-- rfc5424/builder.go:1950 -/
def stCase84 : K × Lbl := ⟨.ifElse (.and (.cmp .le (.lit 33) .byte) (.cmp .le .byte (.lit 126))) (.goto (.st 85) .done) .done (.goto (.st 0) .done), .st 85⟩
/-- rfc5424/builder.go:1955 -/
def st85 : K × Lbl := ⟨.stmt .incP (.ifElse .pEqPe (.goto (.testEofN 85) .done) .done .done), .stCase 85⟩
/-- rfc5424/builder.go:1959 -/
def stCase85 : K × Lbl := ⟨.ifElse (.and (.cmp .le (.lit 33) .byte) (.cmp .le .byte (.lit 126))) (.goto (.st 86) .done) .done (.goto (.st 0) .done), .st 86⟩
/-- rfc5424/builder.go:1964 -/
def st86 : K × Lbl := ⟨.stmt .incP (.ifElse .pEqPe (.goto (.testEofN 86) .done) .done .done), .stCase 86⟩
/-- rfc5424/builder.go:1968 -/
def stCase86 : K × Lbl := ⟨.ifElse (.and (.cmp .le (.lit 33) .byte) (.cmp .le .byte (.lit 126))) (.goto (.st 87) .done) .done (.goto (.st 0) .done), .st 87⟩
/-- rfc5424/builder.go:1973 -/
def st87 : K × Lbl := ⟨.stmt .incP (.ifElse .pEqPe (.goto (.testEofN 87) .done) .done .done), .stCase 87⟩
/-- rfc5424/builder.go:1977 -/
def stCase87 : K × Lbl := ⟨.ifElse (.and (.cmp .le (.lit 33) .byte) (.cmp .le .byte (.lit 126))) (.goto (.st 88) .done) .done (.goto (.st 0) .done), .st 88⟩
/-- rfc5424/builder.go:1982 -/
def st88 : K × Lbl := ⟨.stmt .incP (.ifElse .pEqPe (.goto (.testEofN 88) .done) .done .done), .stCase 88⟩
/-- rfc5424/builder.go:1986 -/
def stCase88 : K × Lbl := ⟨.ifElse (.and (.cmp .le (.lit 33) .byte) (.cmp .le .byte (.lit 126))) (.goto (.st 89) .done) .done (.goto (.st 0) .done), .st 89⟩
/-- rfc5424/builder.go:1991 -/
def st89 : K × Lbl := ⟨.stmt .incP (.ifElse .pEqPe (.goto (.testEofN 89) .done) .done .done), .stCase 89⟩
/-- rfc5424/builder.go:1995 -/
def stCase89 : K × Lbl := ⟨.ifElse (.and (.cmp .le (.lit 33) .byte) (.cmp .le .byte (.lit 126))) (.goto (.st 90) .done) .done (.goto (.st 0) .done), .st 90⟩
/-- rfc5424/builder.go:2000 -/
def st90 : K × Lbl := ⟨.stmt .incP (.ifElse .pEqPe (.goto (.testEofN 90) .done) .done .done), .stCase 90⟩
/-- rfc5424/builder.go:2004 -/
def stCase90 : K × Lbl := ⟨.ifElse (.and (.cmp .le (.lit 33) .byte) (.cmp .le .byte (.lit 126))) (.goto (.st 91) .done) .done (.goto (.st 0) .done), .st 91⟩
/-- rfc5424/builder.go:2009 -/
def st91 : K × Lbl := ⟨.stmt .incP (.ifElse .pEqPe (.goto (.testEofN 91) .done) .done .done), .stCase 91⟩
/-- rfc5424/builder.go:2013 -/
def stCase91 : K × Lbl := ⟨.ifElse (.and (.cmp .le (.lit 33) .byte) (.cmp .le .byte (.lit 126))) (.goto (.st 92) .done) .done (.goto (.st 0) .done), .st 92⟩
/-- rfc5424/builder.go:2018 -/
def st92 : K × Lbl := ⟨.stmt .incP (.ifElse .pEqPe (.goto (.testEofN 92) .done) .done .done), .stCase 92⟩
/-- rfc5424/builder.go:2022 -/
def stCase92 : K × Lbl := ⟨.ifElse (.and (.cmp .le (.lit 33) .byte) (.cmp .le .byte (.lit 126))) (.goto (.st 93) .done) .done (.goto (.st 0) .done), .st 93⟩
/-- rfc5424/builder.go:2027 -/
def st93 : K × Lbl := ⟨.stmt .incP (.ifElse .pEqPe (.goto (.testEofN 93) .done) .done .done), .stCase 93⟩
/-- rfc5424/builder.go:2031 -/
def stCase93 : K × Lbl := ⟨.ifElse (.and (.cmp .le (.lit 33) .byte) (.cmp .le .byte (.lit 126))) (.goto (.st 94) .done) .done (.goto (.st 0) .done), .st 94⟩
/-- rfc5424/builder.go:2036 -/
def st94 : K × Lbl := ⟨.stmt .incP (.ifElse .pEqPe (.goto (.testEofN 94) .done) .done .done), .stCase 94⟩
/-- rfc5424/builder.go:2040 -/
def stCase94 : K × Lbl := ⟨.ifElse (.and (.cmp .le (.lit 33) .byte) (.cmp .le .byte (.lit 126))) (.goto (.st 95) .done) .done (.goto (.st 0) .done), .st 95⟩
/-- rfc5424/builder.go:2045 -/
def st95 : K × Lbl := ⟨.stmt .incP (.ifElse .pEqPe (.goto (.testEofN 95) .done) .done .done), .stCase 95⟩
/-- rfc5424/builder.go:2049 -/
def stCase95 : K × Lbl := ⟨.ifElse (.and (.cmp .le (.lit 33) .byte) (.cmp .le .byte (.lit 126))) (.goto (.st 96) .done) .done (.goto (.st 0) .done), .st 96⟩
/-- rfc5424/builder.go:2054 -/
def st96 : K × Lbl := ⟨.stmt .incP (.ifElse .pEqPe (.goto (.testEofN 96) .done) .done .done), .stCase 96⟩
/-- rfc5424/builder.go:2058 -/
def stCase96 : K × Lbl := ⟨.ifElse (.and (.cmp .le (.lit 33) .byte) (.cmp .le .byte (.lit 126))) (.goto (.st 97) .done) .done (.goto (.st 0) .done), .st 97⟩
/-- rfc5424/builder.go:2063 -/
def st97 : K × Lbl := ⟨.stmt .incP (.ifElse .pEqPe (.goto (.testEofN 97) .done) .done .done), .stCase 97⟩
/-- rfc5424/builder.go:2067 -/
def stCase97 : K × Lbl := ⟨.ifElse (.and (.cmp .le (.lit 33) .byte) (.cmp .le .byte (.lit 126))) (.goto (.st 98) .done) .done (.goto (.st 0) .done), .st 98⟩
/-- rfc5424/builder.go:2072 -/
def st98 : K × Lbl := ⟨.stmt .incP (.ifElse .pEqPe (.goto (.testEofN 98) .done) .done .done), .stCase 98⟩
/-- rfc5424/builder.go:2076 -/
def stCase98 : K × Lbl := ⟨.ifElse (.and (.cmp .le (.lit 33) .byte) (.cmp .le .byte (.lit 126))) (.goto (.st 99) .done) .done (.goto (.st 0) .done), .st 99⟩
/-- rfc5424/builder.go:2081 -/
def st99 : K × Lbl := ⟨.stmt .incP (.ifElse .pEqPe (.goto (.testEofN 99) .done) .done .done), .stCase 99⟩
/-- rfc5424/builder.go:2085 -/
def stCase99 : K × Lbl := ⟨.ifElse (.and (.cmp .le (.lit 33) .byte) (.cmp .le .byte (.lit 126))) (.goto (.st 100) .done) .done (.goto (.st 0) .done), .st 100⟩
/-- rfc5424/builder.go:2090 -/
def st100 : K × Lbl := ⟨.stmt .incP (.ifElse .pEqPe (.goto (.testEofN 100) .done) .done .done), .stCase 100⟩
/-- rfc5424/builder.go:2094 -/
def stCase100 : K × Lbl := ⟨.ifElse (.and (.cmp .le (.lit 33) .byte) (.cmp .le .byte (.lit 126))) (.goto (.st 101) .done) .done (.goto (.st 0) .done), .st 101⟩
/-- rfc5424/builder.go:2099 -/
def st101 : K × Lbl := ⟨.stmt .incP (.ifElse .pEqPe (.goto (.testEofN 101) .done) .done .done), .stCase 101⟩
/-- rfc5424/builder.go:2103 -/
def stCase101 : K × Lbl := ⟨.ifElse (.and (.cmp .le (.lit 33) .byte) (.cmp .le .byte (.lit 126))) (.goto (.st 102) .done) .done (.goto (.st 0) .done), .st 102⟩
/-- rfc5424/builder.go:2108 -/
def st102 : K × Lbl := ⟨.stmt .incP (.ifElse .pEqPe (.goto (.testEofN 102) .done) .done .done), .stCase 102⟩
/-- rfc5424/builder.go:2112 -/
def stCase102 : K × Lbl := ⟨.ifElse (.and (.cmp .le (.lit 33) .byte) (.cmp .le .byte (.lit 126))) (.goto (.st 103) .done) .done (.goto (.st 0) .done), .st 103⟩
/-- rfc5424/builder.go:2117 -/
def st103 : K × Lbl := ⟨.stmt .incP (.ifElse .pEqPe (.goto (.testEofN 103) .done) .done .done), .stCase 103⟩
/-- rfc5424/builder.go:2121 -/
def stCase103 : K × Lbl := ⟨.ifElse (.and (.cmp .le (.lit 33) .byte) (.cmp .le .byte (.lit 126))) (.goto (.st 104) .done) .done (.goto (.st 0) .done), .st 104⟩
/-- rfc5424/builder.go:2126 -/
def st104 : K × Lbl := ⟨.stmt .incP (.ifElse .pEqPe (.goto (.testEofN 104) .done) .done .done), .stCase 104⟩
/-- rfc5424/builder.go:2130 -/
def stCase104 : K × Lbl := ⟨.ifElse (.and (.cmp .le (.lit 33) .byte) (.cmp .le .byte (.lit 126))) (.goto (.st 105) .done) .done (.goto (.st 0) .done), .st 105⟩
/-- rfc5424/builder.go:2135 -/
def st105 : K × Lbl := ⟨.stmt .incP (.ifElse .pEqPe (.goto (.testEofN 105) .done) .done .done), .stCase 105⟩
/-- rfc5424/builder.go:2139 -/
def stCase105 : K × Lbl := ⟨.ifElse (.and (.cmp .le (.lit 33) .byte) (.cmp .le .byte (.lit 126))) (.goto (.st 106) .done) .done (.goto (.st 0) .done), .st 106⟩
/-- rfc5424/builder.go:2144 -/
def st106 : K × Lbl := ⟨.stmt .incP (.ifElse .pEqPe (.goto (.testEofN 106) .done) .done .done), .stCase 106⟩
/-- rfc5424/builder.go:2148 -/
def stCase106 : K × Lbl := ⟨.ifElse (.and (.cmp .le (.lit 33) .byte) (.cmp .le .byte (.lit 126))) (.goto (.st 107) .done) .done (.goto (.st 0) .done), .st 107⟩
/-- rfc5424/builder.go:2153 -/
def st107 : K × Lbl := ⟨.stmt .incP (.ifElse .pEqPe (.goto (.testEofN 107) .done) .done .done), .stCase 107⟩
/-- rfc5424/builder.go:2157 -/
def stCase107 : K × Lbl := ⟨.ifElse (.and (.cmp .le (.lit 33) .byte) (.cmp .le .byte (.lit 126))) (.goto (.st 108) .done) .done (.goto (.st 0) .done), .st 108⟩
/-- rfc5424/builder.go:2162 -/
def st108 : K × Lbl := ⟨.stmt .incP (.ifElse .pEqPe (.goto (.testEofN 108) .done) .done .done), .stCase 108⟩
/-- rfc5424/builder.go:2166 -/
def stCase108 : K × Lbl := ⟨.ifElse (.and (.cmp .le (.lit 33) .byte) (.cmp .le .byte (.lit 126))) (.goto (.st 109) .done) .done (.goto (.st 0) .done), .st 109⟩
/-- rfc5424/builder.go:2171 -/
def st109 : K × Lbl := ⟨.stmt .incP (.ifElse .pEqPe (.goto (.testEofN 109) .done) .done .done), .stCase 109⟩
/-- rfc5424/builder.go:2175 -/
def stCase109 : K × Lbl := ⟨.ifElse (.and (.cmp .le (.lit 33) .byte) (.cmp .le .byte (.lit 126))) (.goto (.st 110) .done) .done (.goto (.st 0) .done), .st 110⟩
/-- rfc5424/builder.go:2180 -/
def st110 : K × Lbl := ⟨.stmt .incP (.ifElse .pEqPe (.goto (.testEofN 110) .done) .done .done), .stCase 110⟩
/-- rfc5424/builder.go:2184 -/
def stCase110 : K × Lbl := ⟨.ifElse (.and (.cmp .le (.lit 33) .byte) (.cmp .le .byte (.lit 126))) (.goto (.st 111) .done) .done (.goto (.st 0) .done), .st 111⟩
/-- rfc5424/builder.go:2189 -/
def st111 : K × Lbl := ⟨.stmt .incP (.ifElse .pEqPe (.goto (.testEofN 111) .done) .done .done), .stCase 111⟩
/-- rfc5424/builder.go:2193 -/
def stCase111 : K × Lbl := ⟨.ifElse (.and (.cmp .le (.lit 33) .byte) (.cmp .le .byte (.lit 126))) (.goto (.st 112) .done) .done (.goto (.st 0) .done), .st 112⟩
/-- rfc5424/builder.go:2198 -/
def st112 : K × Lbl := ⟨.stmt .incP (.ifElse .pEqPe (.goto (.testEofN 112) .done) .done .done), .stCase 112⟩
/-- rfc5424/builder.go:2202 -/
def stCase112 : K × Lbl := ⟨.ifElse (.and (.cmp .le (.lit 33) .byte) (.cmp .le .byte (.lit 126))) (.goto (.st 113) .done) .done (.goto (.st 0) .done), .st 113⟩
/-- rfc5424/builder.go:2207 -/
def st113 : K × Lbl := ⟨.stmt .incP (.ifElse .pEqPe (.goto (.testEofN 113) .done) .done .done), .stCase 113⟩
/-- rfc5424/builder.go:2211 -/
def stCase113 : K × Lbl := ⟨.ifElse (.and (.cmp .le (.lit 33) .byte) (.cmp .le .byte (.lit 126))) (.goto (.st 114) .done) .done (.goto (.st 0) .done), .st 114⟩
/-- rfc5424/builder.go:2216 -/
def st114 : K × Lbl := ⟨.stmt .incP (.ifElse .pEqPe (.goto (.testEofN 114) .done) .done .done), .stCase 114⟩
/-- rfc5424/builder.go:2220 -/
def stCase114 : K × Lbl := ⟨.ifElse (.and (.cmp .le (.lit 33) .byte) (.cmp .le .byte (.lit 126))) (.goto (.st 115) .done) .done (.goto (.st 0) .done), .st 115⟩
/-- rfc5424/builder.go:2225 -/
def st115 : K × Lbl := ⟨.stmt .incP (.ifElse .pEqPe (.goto (.testEofN 115) .done) .done .done), .stCase 115⟩
/-- rfc5424/builder.go:2229 -/
def stCase115 : K × Lbl := ⟨.ifElse (.and (.cmp .le (.lit 33) .byte) (.cmp .le .byte (.lit 126))) (.goto (.st 116) .done) .done (.goto (.st 0) .done), .st 116⟩
/-- rfc5424/builder.go:2234 -/
def st116 : K × Lbl := ⟨.stmt .incP (.ifElse .pEqPe (.goto (.testEofN 116) .done) .done .done), .stCase 116⟩
/-- rfc5424/builder.go:2238 -/
def stCase116 : K × Lbl := ⟨.ifElse (.and (.cmp .le (.lit 33) .byte) (.cmp .le .byte (.lit 126))) (.goto (.st 117) .done) .done (.goto (.st 0) .done), .st 117⟩
/-- rfc5424/builder.go:2243 -/
def st117 : K × Lbl := ⟨.stmt .incP (.ifElse .pEqPe (.goto (.testEofN 117) .done) .done .done), .stCase 117⟩
/-- rfc5424/builder.go:2247 -/
def stCase117 : K × Lbl := ⟨.ifElse (.and (.cmp .le (.lit 33) .byte) (.cmp .le .byte (.lit 126))) (.goto (.st 118) .done) .done (.goto (.st 0) .done), .st 118⟩
/-- rfc5424/builder.go:2252 -/
def st118 : K × Lbl := ⟨.stmt .incP (.ifElse .pEqPe (.goto (.testEofN 118) .done) .done .done), .stCase 118⟩
/-- rfc5424/builder.go:2256 -/
def stCase118 : K × Lbl := ⟨.ifElse (.and (.cmp .le (.lit 33) .byte) (.cmp .le .byte (.lit 126))) (.goto (.st 119) .done) .done (.goto (.st 0) .done), .st 119⟩
/-- rfc5424/builder.go:2261 -/
def st119 : K × Lbl := ⟨.stmt .incP (.ifElse .pEqPe (.goto (.testEofN 119) .done) .done .done), .stCase 119⟩
/-- rfc5424/builder.go:2265 -/
def stCase119 : K × Lbl := ⟨.ifElse (.and (.cmp .le (.lit 33) .byte) (.cmp .le .byte (.lit 126))) (.goto (.st 120) .done) .done (.goto (.st 0) .done), .st 120⟩
/-- rfc5424/builder.go:2270 -/
def st120 : K × Lbl := ⟨.stmt .incP (.ifElse .pEqPe (.goto (.testEofN 120) .done) .done .done), .stCase 120⟩
/-- rfc5424/builder.go:2274 -/
def stCase120 : K × Lbl := ⟨.ifElse (.and (.cmp .le (.lit 33) .byte) (.cmp .le .byte (.lit 126))) (.goto (.st 121) .done) .done (.goto (.st 0) .done), .st 121⟩
/-- rfc5424/builder.go:2279 -/
def st121 : K × Lbl := ⟨.stmt .incP (.ifElse .pEqPe (.goto (.testEofN 121) .done) .done .done), .stCase 121⟩
/-- rfc5424/builder.go:2283 -/
def stCase121 : K × Lbl := ⟨.ifElse (.and (.cmp .le (.lit 33) .byte) (.cmp .le .byte (.lit 126))) (.goto (.st 122) .done) .done (.goto (.st 0) .done), .st 122⟩
/-- rfc5424/builder.go:2288 -/
def st122 : K × Lbl := ⟨.stmt .incP (.ifElse .pEqPe (.goto (.testEofN 122) .done) .done .done), .stCase 122⟩
/-- rfc5424/builder.go:2292 -/
def stCase122 : K × Lbl := ⟨.ifElse (.and (.cmp .le (.lit 33) .byte) (.cmp .le .byte (.lit 126))) (.goto (.st 123) .done) .done (.goto (.st 0) .done), .st 123⟩
/-- rfc5424/builder.go:2297 -/
def st123 : K × Lbl := ⟨.stmt .incP (.ifElse .pEqPe (.goto (.testEofN 123) .done) .done .done), .stCase 123⟩
/-- rfc5424/builder.go:2301 -/
def stCase123 : K × Lbl := ⟨.ifElse (.and (.cmp .le (.lit 33) .byte) (.cmp .le .byte (.lit 126))) (.goto (.st 124) .done) .done (.goto (.st 0) .done), .st 124⟩
/-- rfc5424/builder.go:2306 -/
def st124 : K × Lbl := ⟨.stmt .incP (.ifElse .pEqPe (.goto (.testEofN 124) .done) .done .done), .stCase 124⟩
/-- rfc5424/builder.go:2310 -/
def stCase124 : K × Lbl := ⟨.ifElse (.and (.cmp .le (.lit 33) .byte) (.cmp .le .byte (.lit 126))) (.goto (.st 125) .done) .done (.goto (.st 0) .done), .st 125⟩
/-- rfc5424/builder.go:2315 -/
def st125 : K × Lbl := ⟨.stmt .incP (.ifElse .pEqPe (.goto (.testEofN 125) .done) .done .done), .stCase 125⟩
/-- rfc5424/builder.go:2319 -/
def stCase125 : K × Lbl := ⟨.ifElse (.and (.cmp .le (.lit 33) .byte) (.cmp .le .byte (.lit 126))) (.goto (.st 126) .done) .done (.goto (.st 0) .done), .st 126⟩
/-- rfc5424/builder.go:2324 -/
def st126 : K × Lbl := ⟨.stmt .incP (.ifElse .pEqPe (.goto (.testEofN 126) .done) .done .done), .stCase 126⟩
/-- rfc5424/builder.go:2328 -/
def stCase126 : K × Lbl := ⟨.ifElse (.and (.cmp .le (.lit 33) .byte) (.cmp .le .byte (.lit 126))) (.goto (.st 127) .done) .done (.goto (.st 0) .done), .st 127⟩
/-- rfc5424/builder.go:2333 -/
def st127 : K × Lbl := ⟨.stmt .incP (.ifElse .pEqPe (.goto (.testEofN 127) .done) .done .done), .stCase 127⟩
/-- rfc5424/builder.go:2337 -/
def stCase127 : K × Lbl := ⟨.ifElse (.and (.cmp .le (.lit 33) .byte) (.cmp .le .byte (.lit 126))) (.goto (.st 128) .done) .done (.goto (.st 0) .done), .st 128⟩
/-- rfc5424/builder.go:2342 -/
def st128 : K × Lbl := ⟨.stmt .incP (.ifElse .pEqPe (.goto (.testEofN 128) .done) .done .done), .stCase 128⟩
/-- rfc5424/builder.go:2346 -/
def stCase128 : K × Lbl := ⟨.ifElse (.and (.cmp .le (.lit 33) .byte) (.cmp .le .byte (.lit 126))) (.goto (.st 129) .done) .done (.goto (.st 0) .done), .st 129⟩
/-- rfc5424/builder.go:2351 -/
def st129 : K × Lbl := ⟨.stmt .incP (.ifElse .pEqPe (.goto (.testEofN 129) .done) .done .done), .stCase 129⟩
/-- rfc5424/builder.go:2355 -/
def stCase129 : K × Lbl := ⟨.ifElse (.and (.cmp .le (.lit 33) .byte) (.cmp .le .byte (.lit 126))) (.goto (.st 130) .done) .done (.goto (.st 0) .done), .st 130⟩
/-- rfc5424/builder.go:2360 -/
def st130 : K × Lbl := ⟨.stmt .incP (.ifElse .pEqPe (.goto (.testEofN 130) .done) .done .done), .stCase 130⟩
/-- rfc5424/builder.go:2364 -/
def stCase130 : K × Lbl := ⟨.ifElse (.and (.cmp .le (.lit 33) .byte) (.cmp .le .byte (.lit 126))) (.goto (.st 131) .done) .done (.goto (.st 0) .done), .st 131⟩
/-- rfc5424/builder.go:2369 -/
def st131 : K × Lbl := ⟨.stmt .incP (.ifElse .pEqPe (.goto (.testEofN 131) .done) .done .done), .stCase 131⟩
/-- rfc5424/builder.go:2373 -/
def stCase131 : K × Lbl := ⟨.ifElse (.and (.cmp .le (.lit 33) .byte) (.cmp .le .byte (.lit 126))) (.goto (.st 132) .done) .done (.goto (.st 0) .done), .st 132⟩
/-- rfc5424/builder.go:2378 -/
def st132 : K × Lbl := ⟨.stmt .incP (.ifElse .pEqPe (.goto (.testEofN 132) .done) .done .done), .stCase 132⟩
/-- rfc5424/builder.go:2382 -/
def stCase132 : K × Lbl := ⟨.ifElse (.and (.cmp .le (.lit 33) .byte) (.cmp .le .byte (.lit 126))) (.goto (.st 133) .done) .done (.goto (.st 0) .done), .st 133⟩
/-- rfc5424/builder.go:2387 -/
def st133 : K × Lbl := ⟨.stmt .incP (.ifElse .pEqPe (.goto (.testEofN 133) .done) .done .done), .stCase 133⟩
/-- rfc5424/builder.go:2391 -/
def stCase133 : K × Lbl := ⟨.ifElse (.and (.cmp .le (.lit 33) .byte) (.cmp .le .byte (.lit 126))) (.goto (.st 134) .done) .done (.goto (.st 0) .done), .st 134⟩
/-- rfc5424/builder.go:2396 -/
def st134 : K × Lbl := ⟨.stmt .incP (.ifElse .pEqPe (.goto (.testEofN 134) .done) .done .done), .stCase 134⟩
/-- rfc5424/builder.go:2400 -/
def stCase134 : K × Lbl := ⟨.ifElse (.and (.cmp .le (.lit 33) .byte) (.cmp .le .byte (.lit 126))) (.goto (.st 135) .done) .done (.goto (.st 0) .done), .st 135⟩
/-- rfc5424/builder.go:2405 -/
def st135 : K × Lbl := ⟨.stmt .incP (.ifElse .pEqPe (.goto (.testEofN 135) .done) .done .done), .stCase 135⟩
/-- rfc5424/builder.go:2409 -/
def stCase135 : K × Lbl := ⟨.ifElse (.and (.cmp .le (.lit 33) .byte) (.cmp .le .byte (.lit 126))) (.goto (.st 136) .done) .done (.goto (.st 0) .done), .st 136⟩
/-- rfc5424/builder.go:2414 -/
def st136 : K × Lbl := ⟨.stmt .incP (.ifElse .pEqPe (.goto (.testEofN 136) .done) .done .done), .stCase 136⟩
/-- rfc5424/builder.go:2418 -/
def stCase136 : K × Lbl := ⟨.ifElse (.and (.cmp .le (.lit 33) .byte) (.cmp .le .byte (.lit 126))) (.goto (.st 137) .done) .done (.goto (.st 0) .done), .st 137⟩
/-- rfc5424/builder.go:2423 -/
def st137 : K × Lbl := ⟨.stmt .incP (.ifElse .pEqPe (.goto (.testEofN 137) .done) .done .done), .stCase 137⟩
/-- rfc5424/builder.go:2427 -/
def stCase137 : K × Lbl := ⟨.ifElse (.and (.cmp .le (.lit 33) .byte) (.cmp .le .byte (.lit 126))) (.goto (.st 138) .done) .done (.goto (.st 0) .done), .st 138⟩
/-- rfc5424/builder.go:2432 -/
def st138 : K × Lbl := ⟨.stmt .incP (.ifElse .pEqPe (.goto (.testEofN 138) .done) .done .done), .stCase 138⟩
/-- rfc5424/builder.go:2436 -/
def stCase138 : K × Lbl := ⟨.ifElse (.and (.cmp .le (.lit 33) .byte) (.cmp .le .byte (.lit 126))) (.goto (.st 139) .done) .done (.goto (.st 0) .done), .st 139⟩
/-- rfc5424/builder.go:2441 -/
def st139 : K × Lbl := ⟨.stmt .incP (.ifElse .pEqPe (.goto (.testEofN 139) .done) .done .done), .stCase 139⟩
/-- rfc5424/builder.go:2445 -/
def stCase139 : K × Lbl := ⟨.ifElse (.and (.cmp .le (.lit 33) .byte) (.cmp .le .byte (.lit 126))) (.goto (.st 140) .done) .done (.goto (.st 0) .done), .st 140⟩
/-- rfc5424/builder.go:2450 -/
def st140 : K × Lbl := ⟨.stmt .incP (.ifElse .pEqPe (.goto (.testEofN 140) .done) .done .done), .stCase 140⟩
/-- rfc5424/builder.go:2454 -/
def stCase140 : K × Lbl := ⟨.ifElse (.and (.cmp .le (.lit 33) .byte) (.cmp .le .byte (.lit 126))) (.goto (.st 141) .done) .done (.goto (.st 0) .done), .st 141⟩
/-- rfc5424/builder.go:2459 -/
def st141 : K × Lbl := ⟨.stmt .incP (.ifElse .pEqPe (.goto (.testEofN 141) .done) .done .done), .stCase 141⟩
/-- rfc5424/builder.go:2463 -/
def stCase141 : K × Lbl := ⟨.ifElse (.and (.cmp .le (.lit 33) .byte) (.cmp .le .byte (.lit 126))) (.goto (.st 142) .done) .done (.goto (.st 0) .done), .st 142⟩
/-- rfc5424/builder.go:2468 -/
def st142 : K × Lbl := ⟨.stmt .incP (.ifElse .pEqPe (.goto (.testEofN 142) .done) .done .done), .stCase 142⟩
/-- rfc5424/builder.go:2472 -/
def stCase142 : K × Lbl := ⟨.ifElse (.and (.cmp .le (.lit 33) .byte) (.cmp .le .byte (.lit 126))) (.goto (.st 143) .done) .done (.goto (.st 0) .done), .st 143⟩
/-- rfc5424/builder.go:2477 -/
def st143 : K × Lbl := ⟨.stmt .incP (.ifElse .pEqPe (.goto (.testEofN 143) .done) .done .done), .stCase 143⟩
/-- rfc5424/builder.go:2481 -/
def stCase143 : K × Lbl := ⟨.ifElse (.and (.cmp .le (.lit 33) .byte) (.cmp .le .byte (.lit 126))) (.goto (.st 144) .done) .done (.goto (.st 0) .done), .st 144⟩
/-- rfc5424/builder.go:2486 -/
def st144 : K × Lbl := ⟨.stmt .incP (.ifElse .pEqPe (.goto (.testEofN 144) .done) .done .done), .stCase 144⟩
/-- rfc5424/builder.go:2490 -/
def stCase144 : K × Lbl := ⟨.ifElse (.and (.cmp .le (.lit 33) .byte) (.cmp .le .byte (.lit 126))) (.goto (.st 145) .done) .done (.goto (.st 0) .done), .st 145⟩
/-- rfc5424/builder.go:2495 -/
def st145 : K × Lbl := ⟨.stmt .incP (.ifElse .pEqPe (.goto (.testEofN 145) .done) .done .done), .stCase 145⟩
/-- rfc5424/builder.go:2499 -/
def stCase145 : K × Lbl := ⟨.ifElse (.and (.cmp .le (.lit 33) .byte) (.cmp .le .byte (.lit 126))) (.goto (.st 146) .done) .done (.goto (.st 0) .done), .st 146⟩
/-- rfc5424/builder.go:2504 -/
def st146 : K × Lbl := ⟨.stmt .incP (.ifElse .pEqPe (.goto (.testEofN 146) .done) .done .done), .stCase 146⟩
/-- rfc5424/builder.go:2508 -/
def stCase146 : K × Lbl := ⟨.ifElse (.and (.cmp .le (.lit 33) .byte) (.cmp .le .byte (.lit 126))) (.goto (.st 147) .done) .done (.goto (.st 0) .done), .st 147⟩
/-- rfc5424/builder.go:2513 -/
def st147 : K × Lbl := ⟨.stmt .incP (.ifElse .pEqPe (.goto (.testEofN 147) .done) .done .done), .stCase 147⟩
/-- rfc5424/builder.go:2517 -/
def stCase147 : K × Lbl := ⟨.ifElse (.and (.cmp .le (.lit 33) .byte) (.cmp .le .byte (.lit 126))) (.goto (.st 148) .done) .done (.goto (.st 0) .done), .st 148⟩
/-- rfc5424/builder.go:2522 -/
def st148 : K × Lbl := ⟨.stmt .incP (.ifElse .pEqPe (.goto (.testEofN 148) .done) .done .done), .stCase 148⟩
/-- rfc5424/builder.go:2526 -/
def stCase148 : K × Lbl := ⟨.ifElse (.and (.cmp .le (.lit 33) .byte) (.cmp .le .byte (.lit 126))) (.goto (.st 149) .done) .done (.goto (.st 0) .done), .st 149⟩
/-- rfc5424/builder.go:2531 -/
def st149 : K × Lbl := ⟨.stmt .incP (.ifElse .pEqPe (.goto (.testEofN 149) .done) .done .done), .stCase 149⟩
/-- rfc5424/builder.go:2535 -/
def stCase149 : K × Lbl := ⟨.ifElse (.and (.cmp .le (.lit 33) .byte) (.cmp .le .byte (.lit 126))) (.goto (.st 150) .done) .done (.goto (.st 0) .done), .st 150⟩
/-- rfc5424/builder.go:2540 -/
def st150 : K × Lbl := ⟨.stmt .incP (.ifElse .pEqPe (.goto (.testEofN 150) .done) .done .done), .stCase 150⟩
/-- rfc5424/builder.go:2544 -/
def stCase150 : K × Lbl := ⟨.ifElse (.and (.cmp .le (.lit 33) .byte) (.cmp .le .byte (.lit 126))) (.goto (.st 151) .done) .done (.goto (.st 0) .done), .st 151⟩
/-- rfc5424/builder.go:2549 -/
def st151 : K × Lbl := ⟨.stmt .incP (.ifElse .pEqPe (.goto (.testEofN 151) .done) .done .done), .stCase 151⟩
/-- rfc5424/builder.go:2553 -/
def stCase151 : K × Lbl := ⟨.ifElse (.and (.cmp .le (.lit 33) .byte) (.cmp .le .byte (.lit 126))) (.goto (.st 152) .done) .done (.goto (.st 0) .done), .st 152⟩
/-- rfc5424/builder.go:2558 -/
def st152 : K × Lbl := ⟨.stmt .incP (.ifElse .pEqPe (.goto (.testEofN 152) .done) .done .done), .stCase 152⟩
/-- rfc5424/builder.go:2562 -/
def stCase152 : K × Lbl := ⟨.ifElse (.and (.cmp .le (.lit 33) .byte) (.cmp .le .byte (.lit 126))) (.goto (.st 153) .done) .done (.goto (.st 0) .done), .st 153⟩
/-- rfc5424/builder.go:2567 -/
def st153 : K × Lbl := ⟨.stmt .incP (.ifElse .pEqPe (.goto (.testEofN 153) .done) .done .done), .stCase 153⟩
/-- rfc5424/builder.go:2571 -/
def stCase153 : K × Lbl := ⟨.ifElse (.and (.cmp .le (.lit 33) .byte) (.cmp .le .byte (.lit 126))) (.goto (.st 154) .done) .done (.goto (.st 0) .done), .st 154⟩
/-- rfc5424/builder.go:2576 -/
def st154 : K × Lbl := ⟨.stmt .incP (.ifElse .pEqPe (.goto (.testEofN 154) .done) .done .done), .stCase 154⟩
/-- rfc5424/builder.go:2580 -/
def stCase154 : K × Lbl := ⟨.ifElse (.and (.cmp .le (.lit 33) .byte) (.cmp .le .byte (.lit 126))) (.goto (.st 155) .done) .done (.goto (.st 0) .done), .st 155⟩
/-- rfc5424/builder.go:2585 -/
def st155 : K × Lbl := ⟨.stmt .incP (.ifElse .pEqPe (.goto (.testEofN 155) .done) .done .done), .stCase 155⟩
/-- rfc5424/builder.go:2589 -/
def stCase155 : K × Lbl := ⟨.ifElse (.and (.cmp .le (.lit 33) .byte) (.cmp .le .byte (.lit 126))) (.goto (.st 156) .done) .done (.goto (.st 0) .done), .st 156⟩
/-- rfc5424/builder.go:2594 -/
def st156 : K × Lbl := ⟨.stmt .incP (.ifElse .pEqPe (.goto (.testEofN 156) .done) .done .done), .stCase 156⟩
/-- rfc5424/builder.go:2598 -/
def stCase156 : K × Lbl := ⟨.ifElse (.and (.cmp .le (.lit 33) .byte) (.cmp .le .byte (.lit 126))) (.goto (.st 157) .done) .done (.goto (.st 0) .done), .st 157⟩
/-- rfc5424/builder.go:2603 -/
def st157 : K × Lbl := ⟨.stmt .incP (.ifElse .pEqPe (.goto (.testEofN 157) .done) .done .done), .stCase 157⟩
/-- rfc5424/builder.go:2607 -/
def stCase157 : K × Lbl := ⟨.ifElse (.and (.cmp .le (.lit 33) .byte) (.cmp .le .byte (.lit 126))) (.goto (.st 158) .done) .done (.goto (.st 0) .done), .st 158⟩
/-- rfc5424/builder.go:2612 -/
def st158 : K × Lbl := ⟨.stmt .incP (.ifElse .pEqPe (.goto (.testEofN 158) .done) .done .done), .stCase 158⟩
/-- rfc5424/builder.go:2616 -/
def stCase158 : K × Lbl := ⟨.ifElse (.and (.cmp .le (.lit 33) .byte) (.cmp .le .byte (.lit 126))) (.goto (.st 159) .done) .done (.goto (.st 0) .done), .st 159⟩
/-- rfc5424/builder.go:2621 -/
def st159 : K × Lbl := ⟨.stmt .incP (.ifElse .pEqPe (.goto (.testEofN 159) .done) .done .done), .stCase 159⟩
/-- rfc5424/builder.go:2625 -/
def stCase159 : K × Lbl := ⟨.ifElse (.and (.cmp .le (.lit 33) .byte) (.cmp .le .byte (.lit 126))) (.goto (.st 160) .done) .done (.goto (.st 0) .done), .st 160⟩
/-- rfc5424/builder.go:2630 -/
def st160 : K × Lbl := ⟨.stmt .incP (.ifElse .pEqPe (.goto (.testEofN 160) .done) .done .done), .stCase 160⟩
/-- rfc5424/builder.go:2634 -/
def stCase160 : K × Lbl := ⟨.ifElse (.and (.cmp .le (.lit 33) .byte) (.cmp .le .byte (.lit 126))) (.goto (.st 161) .done) .done (.goto (.st 0) .done), .st 161⟩
/-- rfc5424/builder.go:2639 -/
def st161 : K × Lbl := ⟨.stmt .incP (.ifElse .pEqPe (.goto (.testEofN 161) .done) .done .done), .stCase 161⟩
/-- rfc5424/builder.go:2643 -/
def stCase161 : K × Lbl := ⟨.ifElse (.and (.cmp .le (.lit 33) .byte) (.cmp .le .byte (.lit 126))) (.goto (.st 162) .done) .done (.goto (.st 0) .done), .st 162⟩
/-- rfc5424/builder.go:2648 -/
def st162 : K × Lbl := ⟨.stmt .incP (.ifElse .pEqPe (.goto (.testEofN 162) .done) .done .done), .stCase 162⟩
/-- rfc5424/builder.go:2652 -/
def stCase162 : K × Lbl := ⟨.ifElse (.and (.cmp .le (.lit 33) .byte) (.cmp .le .byte (.lit 126))) (.goto (.st 163) .done) .done (.goto (.st 0) .done), .st 163⟩
/-- rfc5424/builder.go:2657 -/
def st163 : K × Lbl := ⟨.stmt .incP (.ifElse .pEqPe (.goto (.testEofN 163) .done) .done .done), .stCase 163⟩
/-- rfc5424/builder.go:2661 -/
def stCase163 : K × Lbl := ⟨.ifElse (.and (.cmp .le (.lit 33) .byte) (.cmp .le .byte (.lit 126))) (.goto (.st 164) .done) .done (.goto (.st 0) .done), .st 164⟩
/-- rfc5424/builder.go:2666 -/
def st164 : K × Lbl := ⟨.stmt .incP (.ifElse .pEqPe (.goto (.testEofN 164) .done) .done .done), .stCase 164⟩
/-- rfc5424/builder.go:2670 -/
def stCase164 : K × Lbl := ⟨.ifElse (.and (.cmp .le (.lit 33) .byte) (.cmp .le .byte (.lit 126))) (.goto (.st 165) .done) .done (.goto (.st 0) .done), .st 165⟩
/-- rfc5424/builder.go:2675 -/
def st165 : K × Lbl := ⟨.stmt .incP (.ifElse .pEqPe (.goto (.testEofN 165) .done) .done .done), .stCase 165⟩
/-- rfc5424/builder.go:2679 -/
def stCase165 : K × Lbl := ⟨.ifElse (.and (.cmp .le (.lit 33) .byte) (.cmp .le .byte (.lit 126))) (.goto (.st 166) .done) .done (.goto (.st 0) .done), .st 166⟩
/-- rfc5424/builder.go:2684 -/
def st166 : K × Lbl := ⟨.stmt .incP (.ifElse .pEqPe (.goto (.testEofN 166) .done) .done .done), .stCase 166⟩
/-- rfc5424/builder.go:2688 -/
def stCase166 : K × Lbl := ⟨.ifElse (.and (.cmp .le (.lit 33) .byte) (.cmp .le .byte (.lit 126))) (.goto (.st 167) .done) .done (.goto (.st 0) .done), .st 167⟩
/-- rfc5424/builder.go:2693 -/
def st167 : K × Lbl := ⟨.stmt .incP (.ifElse .pEqPe (.goto (.testEofN 167) .done) .done .done), .stCase 167⟩
/-- rfc5424/builder.go:2697 -/
def stCase167 : K × Lbl := ⟨.ifElse (.and (.cmp .le (.lit 33) .byte) (.cmp .le .byte (.lit 126))) (.goto (.st 168) .done) .done (.goto (.st 0) .done), .st 168⟩
/-- rfc5424/builder.go:2702 -/
def st168 : K × Lbl := ⟨.stmt .incP (.ifElse .pEqPe (.goto (.testEofN 168) .done) .done .done), .stCase 168⟩
/-- rfc5424/builder.go:2706 -/
def stCase168 : K × Lbl := ⟨.ifElse (.and (.cmp .le (.lit 33) .byte) (.cmp .le .byte (.lit 126))) (.goto (.st 169) .done) .done (.goto (.st 0) .done), .st 169⟩
/-- rfc5424/builder.go:2711 -/
def st169 : K × Lbl := ⟨.stmt .incP (.ifElse .pEqPe (.goto (.testEofN 169) .done) .done .done), .stCase 169⟩
/-- rfc5424/builder.go:2715 -/
def stCase169 : K × Lbl := ⟨.ifElse (.and (.cmp .le (.lit 33) .byte) (.cmp .le .byte (.lit 126))) (.goto (.st 170) .done) .done (.goto (.st 0) .done), .st 170⟩
/-- rfc5424/builder.go:2720 -/
def st170 : K × Lbl := ⟨.stmt .incP (.ifElse .pEqPe (.goto (.testEofN 170) .done) .done .done), .stCase 170⟩
/-- rfc5424/builder.go:2724 -/
def stCase170 : K × Lbl := ⟨.ifElse (.and (.cmp .le (.lit 33) .byte) (.cmp .le .byte (.lit 126))) (.goto (.st 171) .done) .done (.goto (.st 0) .done), .st 171⟩
/-- rfc5424/builder.go:2729 -/
def st171 : K × Lbl := ⟨.stmt .incP (.ifElse .pEqPe (.goto (.testEofN 171) .done) .done .done), .stCase 171⟩
/-- rfc5424/builder.go:2733 -/
def stCase171 : K × Lbl := ⟨.ifElse (.and (.cmp .le (.lit 33) .byte) (.cmp .le .byte (.lit 126))) (.goto (.st 172) .done) .done (.goto (.st 0) .done), .st 172⟩
/-- rfc5424/builder.go:2738 -/
def st172 : K × Lbl := ⟨.stmt .incP (.ifElse .pEqPe (.goto (.testEofN 172) .done) .done .done), .stCase 172⟩
/-- rfc5424/builder.go:2742 -/
def stCase172 : K × Lbl := ⟨.ifElse (.and (.cmp .le (.lit 33) .byte) (.cmp .le .byte (.lit 126))) (.goto (.st 173) .done) .done (.goto (.st 0) .done), .st 173⟩
/-- rfc5424/builder.go:2747 -/
def st173 : K × Lbl := ⟨.stmt .incP (.ifElse .pEqPe (.goto (.testEofN 173) .done) .done .done), .stCase 173⟩
/-- rfc5424/builder.go:2751 -/
def stCase173 : K × Lbl := ⟨.ifElse (.and (.cmp .le (.lit 33) .byte) (.cmp .le .byte (.lit 126))) (.goto (.st 174) .done) .done (.goto (.st 0) .done), .st 174⟩
/-- rfc5424/builder.go:2756 -/
def st174 : K × Lbl := ⟨.stmt .incP (.ifElse .pEqPe (.goto (.testEofN 174) .done) .done .done), .stCase 174⟩
/-- rfc5424/builder.go:2760 -/
def stCase174 : K × Lbl := ⟨.ifElse (.and (.cmp .le (.lit 33) .byte) (.cmp .le .byte (.lit 126))) (.goto (.st 175) .done) .done (.goto (.st 0) .done), .st 175⟩
/-- rfc5424/builder.go:2765 -/
def st175 : K × Lbl := ⟨.stmt .incP (.ifElse .pEqPe (.goto (.testEofN 175) .done) .done .done), .stCase 175⟩
/-- rfc5424/builder.go:2769 -/
def stCase175 : K × Lbl := ⟨.ifElse (.and (.cmp .le (.lit 33) .byte) (.cmp .le .byte (.lit 126))) (.goto (.st 176) .done) .done (.goto (.st 0) .done), .st 176⟩
/-- rfc5424/builder.go:2774 -/
def st176 : K × Lbl := ⟨.stmt .incP (.ifElse .pEqPe (.goto (.testEofN 176) .done) .done .done), .stCase 176⟩
/-- rfc5424/builder.go:2778 -/
def stCase176 : K × Lbl := ⟨.ifElse (.and (.cmp .le (.lit 33) .byte) (.cmp .le .byte (.lit 126))) (.goto (.st 177) .done) .done (.goto (.st 0) .done), .st 177⟩
/-- rfc5424/builder.go:2783 -/
def st177 : K × Lbl := ⟨.stmt .incP (.ifElse .pEqPe (.goto (.testEofN 177) .done) .done .done), .stCase 177⟩
/-- rfc5424/builder.go:2787 -/
def stCase177 : K × Lbl := ⟨.ifElse (.and (.cmp .le (.lit 33) .byte) (.cmp .le .byte (.lit 126))) (.goto (.st 178) .done) .done (.goto (.st 0) .done), .st 178⟩
/-- rfc5424/builder.go:2792 -/
def st178 : K × Lbl := ⟨.stmt .incP (.ifElse .pEqPe (.goto (.testEofN 178) .done) .done .done), .stCase 178⟩
/-- rfc5424/builder.go:2796 -/
def stCase178 : K × Lbl := ⟨.ifElse (.and (.cmp .le (.lit 33) .byte) (.cmp .le .byte (.lit 126))) (.goto (.st 179) .done) .done (.goto (.st 0) .done), .st 179⟩
/-- rfc5424/builder.go:2801 -/
def st179 : K × Lbl := ⟨.stmt .incP (.ifElse .pEqPe (.goto (.testEofN 179) .done) .done .done), .stCase 179⟩
/-- rfc5424/builder.go:2805 -/
def stCase179 : K × Lbl := ⟨.ifElse (.and (.cmp .le (.lit 33) .byte) (.cmp .le .byte (.lit 126))) (.goto (.st 180) .done) .done (.goto (.st 0) .done), .st 180⟩
/-- rfc5424/builder.go:2810 -/
def st180 : K × Lbl := ⟨.stmt .incP (.ifElse .pEqPe (.goto (.testEofN 180) .done) .done .done), .stCase 180⟩
/-- rfc5424/builder.go:2814 -/
def stCase180 : K × Lbl := ⟨.ifElse (.and (.cmp .le (.lit 33) .byte) (.cmp .le .byte (.lit 126))) (.goto (.st 181) .done) .done (.goto (.st 0) .done), .st 181⟩
/-- rfc5424/builder.go:2819 -/
def st181 : K × Lbl := ⟨.stmt .incP (.ifElse .pEqPe (.goto (.testEofN 181) .done) .done .done), .stCase 181⟩
/-- rfc5424/builder.go:2823 -/
def stCase181 : K × Lbl := ⟨.ifElse (.and (.cmp .le (.lit 33) .byte) (.cmp .le .byte (.lit 126))) (.goto (.st 182) .done) .done (.goto (.st 0) .done), .st 182⟩
/-- rfc5424/builder.go:2828 -/
def st182 : K × Lbl := ⟨.stmt .incP (.ifElse .pEqPe (.goto (.testEofN 182) .done) .done .done), .stCase 182⟩
/-- rfc5424/builder.go:2832 -/
def stCase182 : K × Lbl := ⟨.ifElse (.and (.cmp .le (.lit 33) .byte) (.cmp .le .byte (.lit 126))) (.goto (.st 183) .done) .done (.goto (.st 0) .done), .st 183⟩
/-- rfc5424/builder.go:2837 -/
def st183 : K × Lbl := ⟨.stmt .incP (.ifElse .pEqPe (.goto (.testEofN 183) .done) .done .done), .stCase 183⟩
/-- rfc5424/builder.go:2841 -/
def stCase183 : K × Lbl := ⟨.ifElse (.and (.cmp .le (.lit 33) .byte) (.cmp .le .byte (.lit 126))) (.goto (.st 184) .done) .done (.goto (.st 0) .done), .st 184⟩
/-- rfc5424/builder.go:2846 -/
def st184 : K × Lbl := ⟨.stmt .incP (.ifElse .pEqPe (.goto (.testEofN 184) .done) .done .done), .stCase 184⟩
/-- rfc5424/builder.go:2850 -/
def stCase184 : K × Lbl := ⟨.ifElse (.and (.cmp .le (.lit 33) .byte) (.cmp .le .byte (.lit 126))) (.goto (.st 185) .done) .done (.goto (.st 0) .done), .st 185⟩
/-- rfc5424/builder.go:2855 -/
def st185 : K × Lbl := ⟨.stmt .incP (.ifElse .pEqPe (.goto (.testEofN 185) .done) .done .done), .stCase 185⟩
/-- rfc5424/builder.go:2859 -/
def stCase185 : K × Lbl := ⟨.ifElse (.and (.cmp .le (.lit 33) .byte) (.cmp .le .byte (.lit 126))) (.goto (.st 186) .done) .done (.goto (.st 0) .done), .st 186⟩
/-- rfc5424/builder.go:2864 -/
def st186 : K × Lbl := ⟨.stmt .incP (.ifElse .pEqPe (.goto (.testEofN 186) .done) .done .done), .stCase 186⟩
/-- rfc5424/builder.go:2868 -/
def stCase186 : K × Lbl := ⟨.ifElse (.and (.cmp .le (.lit 33) .byte) (.cmp .le .byte (.lit 126))) (.goto (.st 187) .done) .done (.goto (.st 0) .done), .st 187⟩
/-- rfc5424/builder.go:2873 -/
def st187 : K × Lbl := ⟨.stmt .incP (.ifElse .pEqPe (.goto (.testEofN 187) .done) .done .done), .stCase 187⟩
/-- rfc5424/builder.go:2877 -/
def stCase187 : K × Lbl := ⟨.ifElse (.and (.cmp .le (.lit 33) .byte) (.cmp .le .byte (.lit 126))) (.goto (.st 188) .done) .done (.goto (.st 0) .done), .st 188⟩
/-- rfc5424/builder.go:2882 -/
def st188 : K × Lbl := ⟨.stmt .incP (.ifElse .pEqPe (.goto (.testEofN 188) .done) .done .done), .stCase 188⟩
/-- rfc5424/builder.go:2886 -/
def stCase188 : K × Lbl := ⟨.ifElse (.and (.cmp .le (.lit 33) .byte) (.cmp .le .byte (.lit 126))) (.goto (.st 189) .done) .done (.goto (.st 0) .done), .st 189⟩
/-- rfc5424/builder.go:2891 -/
def st189 : K × Lbl := ⟨.stmt .incP (.ifElse .pEqPe (.goto (.testEofN 189) .done) .done .done), .stCase 189⟩
/-- rfc5424/builder.go:2895 -/
def stCase189 : K × Lbl := ⟨.ifElse (.and (.cmp .le (.lit 33) .byte) (.cmp .le .byte (.lit 126))) (.goto (.st 190) .done) .done (.goto (.st 0) .done), .st 190⟩
/-- rfc5424/builder.go:2900 -/
def st190 : K × Lbl := ⟨.stmt .incP (.ifElse .pEqPe (.goto (.testEofN 190) .done) .done .done), .stCase 190⟩
/-- rfc5424/builder.go:2904 -/
def stCase190 : K × Lbl := ⟨.ifElse (.and (.cmp .le (.lit 33) .byte) (.cmp .le .byte (.lit 126))) (.goto (.st 191) .done) .done (.goto (.st 0) .done), .st 191⟩
/-- rfc5424/builder.go:2909 -/
def st191 : K × Lbl := ⟨.stmt .incP (.ifElse .pEqPe (.goto (.testEofN 191) .done) .done .done), .stCase 191⟩
/-- rfc5424/builder.go:2913 -/
def stCase191 : K × Lbl := ⟨.ifElse (.and (.cmp .le (.lit 33) .byte) (.cmp .le .byte (.lit 126))) (.goto (.st 192) .done) .done (.goto (.st 0) .done), .st 192⟩
/-- rfc5424/builder.go:2918 -/
def st192 : K × Lbl := ⟨.stmt .incP (.ifElse .pEqPe (.goto (.testEofN 192) .done) .done .done), .stCase 192⟩
/-- rfc5424/builder.go:2922 -/
def stCase192 : K × Lbl := ⟨.ifElse (.and (.cmp .le (.lit 33) .byte) (.cmp .le .byte (.lit 126))) (.goto (.st 193) .done) .done (.goto (.st 0) .done), .st 193⟩
/-- rfc5424/builder.go:2927 -/
def st193 : K × Lbl := ⟨.stmt .incP (.ifElse .pEqPe (.goto (.testEofN 193) .done) .done .done), .stCase 193⟩
/-- rfc5424/builder.go:2931 -/
def stCase193 : K × Lbl := ⟨.ifElse (.and (.cmp .le (.lit 33) .byte) (.cmp .le .byte (.lit 126))) (.goto (.st 194) .done) .done (.goto (.st 0) .done), .st 194⟩
/-- rfc5424/builder.go:2936 -/
def st194 : K × Lbl := ⟨.stmt .incP (.ifElse .pEqPe (.goto (.testEofN 194) .done) .done .done), .stCase 194⟩
/-- rfc5424/builder.go:2940 -/
def stCase194 : K × Lbl := ⟨.ifElse (.and (.cmp .le (.lit 33) .byte) (.cmp .le .byte (.lit 126))) (.goto (.st 195) .done) .done (.goto (.st 0) .done), .st 195⟩
/-- rfc5424/builder.go:2945 -/
def st195 : K × Lbl := ⟨.stmt .incP (.ifElse .pEqPe (.goto (.testEofN 195) .done) .done .done), .stCase 195⟩
/-- rfc5424/builder.go:2949 -/
def stCase195 : K × Lbl := ⟨.ifElse (.and (.cmp .le (.lit 33) .byte) (.cmp .le .byte (.lit 126))) (.goto (.st 196) .done) .done (.goto (.st 0) .done), .st 196⟩
/-- rfc5424/builder.go:2954 -/
def st196 : K × Lbl := ⟨.stmt .incP (.ifElse .pEqPe (.goto (.testEofN 196) .done) .done .done), .stCase 196⟩
/-- rfc5424/builder.go:2958 -/
def stCase196 : K × Lbl := ⟨.ifElse (.and (.cmp .le (.lit 33) .byte) (.cmp .le .byte (.lit 126))) (.goto (.st 197) .done) .done (.goto (.st 0) .done), .st 197⟩
/-- rfc5424/builder.go:2963 -/
def st197 : K × Lbl := ⟨.stmt .incP (.ifElse .pEqPe (.goto (.testEofN 197) .done) .done .done), .stCase 197⟩
/-- rfc5424/builder.go:2967 -/
def stCase197 : K × Lbl := ⟨.ifElse (.and (.cmp .le (.lit 33) .byte) (.cmp .le .byte (.lit 126))) (.goto (.st 198) .done) .done (.goto (.st 0) .done), .st 198⟩
/-- rfc5424/builder.go:2972 -/
def st198 : K × Lbl := ⟨.stmt .incP (.ifElse .pEqPe (.goto (.testEofN 198) .done) .done .done), .stCase 198⟩
/-- rfc5424/builder.go:2976 -/
def stCase198 : K × Lbl := ⟨.ifElse (.and (.cmp .le (.lit 33) .byte) (.cmp .le .byte (.lit 126))) (.goto (.st 199) .done) .done (.goto (.st 0) .done), .st 199⟩
/-- rfc5424/builder.go:2981 -/
def st199 : K × Lbl := ⟨.stmt .incP (.ifElse .pEqPe (.goto (.testEofN 199) .done) .done .done), .stCase 199⟩
/-- rfc5424/builder.go:2985 -/
def stCase199 : K × Lbl := ⟨.ifElse (.and (.cmp .le (.lit 33) .byte) (.cmp .le .byte (.lit 126))) (.goto (.st 200) .done) .done (.goto (.st 0) .done), .st 200⟩
/-- rfc5424/builder.go:2990 -/
def st200 : K × Lbl := ⟨.stmt .incP (.ifElse .pEqPe (.goto (.testEofN 200) .done) .done .done), .stCase 200⟩
/-- rfc5424/builder.go:2994 -/
def stCase200 : K × Lbl := ⟨.ifElse (.and (.cmp .le (.lit 33) .byte) (.cmp .le .byte (.lit 126))) (.goto (.st 201) .done) .done (.goto (.st 0) .done), .st 201⟩
/-- rfc5424/builder.go:2999 -/
def st201 : K × Lbl := ⟨.stmt .incP (.ifElse .pEqPe (.goto (.testEofN 201) .done) .done .done), .stCase 201⟩
/-- rfc5424/builder.go:3003 -/
def stCase201 : K × Lbl := ⟨.ifElse (.and (.cmp .le (.lit 33) .byte) (.cmp .le .byte (.lit 126))) (.goto (.st 202) .done) .done (.goto (.st 0) .done), .st 202⟩
/-- rfc5424/builder.go:3008 -/
def st202 : K × Lbl := ⟨.stmt .incP (.ifElse .pEqPe (.goto (.testEofN 202) .done) .done .done), .stCase 202⟩
/-- rfc5424/builder.go:3012 -/
def stCase202 : K × Lbl := ⟨.ifElse (.and (.cmp .le (.lit 33) .byte) (.cmp .le .byte (.lit 126))) (.goto (.st 203) .done) .done (.goto (.st 0) .done), .st 203⟩
/-- rfc5424/builder.go:3017 -/
def st203 : K × Lbl := ⟨.stmt .incP (.ifElse .pEqPe (.goto (.testEofN 203) .done) .done .done), .stCase 203⟩
/-- rfc5424/builder.go:3021 -/
def stCase203 : K × Lbl := ⟨.ifElse (.and (.cmp .le (.lit 33) .byte) (.cmp .le .byte (.lit 126))) (.goto (.st 204) .done) .done (.goto (.st 0) .done), .st 204⟩
/-- rfc5424/builder.go:3026 -/
def st204 : K × Lbl := ⟨.stmt .incP (.ifElse .pEqPe (.goto (.testEofN 204) .done) .done .done), .stCase 204⟩
/-- rfc5424/builder.go:3030 -/
def stCase204 : K × Lbl := ⟨.ifElse (.and (.cmp .le (.lit 33) .byte) (.cmp .le .byte (.lit 126))) (.goto (.st 205) .done) .done (.goto (.st 0) .done), .st 205⟩
/-- rfc5424/builder.go:3035 -/
def st205 : K × Lbl := ⟨.stmt .incP (.ifElse .pEqPe (.goto (.testEofN 205) .done) .done .done), .stCase 205⟩
/-- rfc5424/builder.go:3039 -/
def stCase205 : K × Lbl := ⟨.ifElse (.and (.cmp .le (.lit 33) .byte) (.cmp .le .byte (.lit 126))) (.goto (.st 206) .done) .done (.goto (.st 0) .done), .st 206⟩
/-- rfc5424/builder.go:3044 -/
def st206 : K × Lbl := ⟨.stmt .incP (.ifElse .pEqPe (.goto (.testEofN 206) .done) .done .done), .stCase 206⟩
/-- rfc5424/builder.go:3048 -/
def stCase206 : K × Lbl := ⟨.ifElse (.and (.cmp .le (.lit 33) .byte) (.cmp .le .byte (.lit 126))) (.goto (.st 207) .done) .done (.goto (.st 0) .done), .st 207⟩
/-- rfc5424/builder.go:3053 -/
def st207 : K × Lbl := ⟨.stmt .incP (.ifElse .pEqPe (.goto (.testEofN 207) .done) .done .done), .stCase 207⟩
/-- rfc5424/builder.go:3057 -/
def stCase207 : K × Lbl := ⟨.ifElse (.and (.cmp .le (.lit 33) .byte) (.cmp .le .byte (.lit 126))) (.goto (.st 208) .done) .done (.goto (.st 0) .done), .st 208⟩
/-- rfc5424/builder.go:3062 -/
def st208 : K × Lbl := ⟨.stmt .incP (.ifElse .pEqPe (.goto (.testEofN 208) .done) .done .done), .stCase 208⟩
/-- rfc5424/builder.go:3066 -/
def stCase208 : K × Lbl := ⟨.ifElse (.and (.cmp .le (.lit 33) .byte) (.cmp .le .byte (.lit 126))) (.goto (.st 209) .done) .done (.goto (.st 0) .done), .st 209⟩
/-- rfc5424/builder.go:3071 -/
def st209 : K × Lbl := ⟨.stmt .incP (.ifElse .pEqPe (.goto (.testEofN 209) .done) .done .done), .stCase 209⟩
/-- rfc5424/builder.go:3075 -/
def stCase209 : K × Lbl := ⟨.ifElse (.and (.cmp .le (.lit 33) .byte) (.cmp .le .byte (.lit 126))) (.goto (.st 210) .done) .done (.goto (.st 0) .done), .st 210⟩
/-- rfc5424/builder.go:3080 -/
def st210 : K × Lbl := ⟨.stmt .incP (.ifElse .pEqPe (.goto (.testEofN 210) .done) .done .done), .stCase 210⟩
/-- rfc5424/builder.go:3084 -/
def stCase210 : K × Lbl := ⟨.ifElse (.and (.cmp .le (.lit 33) .byte) (.cmp .le .byte (.lit 126))) (.goto (.st 211) .done) .done (.goto (.st 0) .done), .st 211⟩
/-- rfc5424/builder.go:3089 -/
def st211 : K × Lbl := ⟨.stmt .incP (.ifElse .pEqPe (.goto (.testEofN 211) .done) .done .done), .stCase 211⟩
/-- rfc5424/builder.go:3093 -/
def stCase211 : K × Lbl := ⟨.ifElse (.and (.cmp .le (.lit 33) .byte) (.cmp .le .byte (.lit 126))) (.goto (.st 212) .done) .done (.goto (.st 0) .done), .st 212⟩
/-- rfc5424/builder.go:3098 -/
def st212 : K × Lbl := ⟨.stmt .incP (.ifElse .pEqPe (.goto (.testEofN 212) .done) .done .done), .stCase 212⟩
/-- rfc5424/builder.go:3102 -/
def stCase212 : K × Lbl := ⟨.ifElse (.and (.cmp .le (.lit 33) .byte) (.cmp .le .byte (.lit 126))) (.goto (.st 213) .done) .done (.goto (.st 0) .done), .st 213⟩
/-- rfc5424/builder.go:3107 -/
def st213 : K × Lbl := ⟨.stmt .incP (.ifElse .pEqPe (.goto (.testEofN 213) .done) .done .done), .stCase 213⟩
/-- rfc5424/builder.go:3111 -/
def stCase213 : K × Lbl := ⟨.ifElse (.and (.cmp .le (.lit 33) .byte) (.cmp .le .byte (.lit 126))) (.goto (.st 214) .done) .done (.goto (.st 0) .done), .st 214⟩
/-- rfc5424/builder.go:3116 -/
def st214 : K × Lbl := ⟨.stmt .incP (.ifElse .pEqPe (.goto (.testEofN 214) .done) .done .done), .stCase 214⟩
/-- rfc5424/builder.go:3120 -/
def stCase214 : K × Lbl := ⟨.ifElse (.and (.cmp .le (.lit 33) .byte) (.cmp .le .byte (.lit 126))) (.goto (.st 215) .done) .done (.goto (.st 0) .done), .st 215⟩
/-- rfc5424/builder.go:3125 -/
def st215 : K × Lbl := ⟨.stmt .incP (.ifElse .pEqPe (.goto (.testEofN 215) .done) .done .done), .stCase 215⟩
/-- rfc5424/builder.go:3129 -/
def stCase215 : K × Lbl := ⟨.ifElse (.and (.cmp .le (.lit 33) .byte) (.cmp .le .byte (.lit 126))) (.goto (.st 216) .done) .done (.goto (.st 0) .done), .st 216⟩
/-- rfc5424/builder.go:3134 -/
def st216 : K × Lbl := ⟨.stmt .incP (.ifElse .pEqPe (.goto (.testEofN 216) .done) .done .done), .stCase 216⟩
/-- rfc5424/builder.go:3138 -/
def stCase216 : K × Lbl := ⟨.ifElse (.and (.cmp .le (.lit 33) .byte) (.cmp .le .byte (.lit 126))) (.goto (.st 217) .done) .done (.goto (.st 0) .done), .st 217⟩
/-- rfc5424/builder.go:3143 -/
def st217 : K × Lbl := ⟨.stmt .incP (.ifElse .pEqPe (.goto (.testEofN 217) .done) .done .done), .stCase 217⟩
/-- rfc5424/builder.go:3147 -/
def stCase217 : K × Lbl := ⟨.ifElse (.and (.cmp .le (.lit 33) .byte) (.cmp .le .byte (.lit 126))) (.goto (.st 218) .done) .done (.goto (.st 0) .done), .st 218⟩
/-- rfc5424/builder.go:3152 -/
def st218 : K × Lbl := ⟨.stmt .incP (.ifElse .pEqPe (.goto (.testEofN 218) .done) .done .done), .stCase 218⟩
/-- rfc5424/builder.go:3156 -/
def stCase218 : K × Lbl := ⟨.ifElse (.and (.cmp .le (.lit 33) .byte) (.cmp .le .byte (.lit 126))) (.goto (.st 219) .done) .done (.goto (.st 0) .done), .st 219⟩
/-- rfc5424/builder.go:3161 -/
def st219 : K × Lbl := ⟨.stmt .incP (.ifElse .pEqPe (.goto (.testEofN 219) .done) .done .done), .stCase 219⟩
/-- rfc5424/builder.go:3165 -/
def stCase219 : K × Lbl := ⟨.ifElse (.and (.cmp .le (.lit 33) .byte) (.cmp .le .byte (.lit 126))) (.goto (.st 220) .done) .done (.goto (.st 0) .done), .st 220⟩
/-- rfc5424/builder.go:3170 -/
def st220 : K × Lbl := ⟨.stmt .incP (.ifElse .pEqPe (.goto (.testEofN 220) .done) .done .done), .stCase 220⟩
/-- rfc5424/builder.go:3174 -/
def stCase220 : K × Lbl := ⟨.ifElse (.and (.cmp .le (.lit 33) .byte) (.cmp .le .byte (.lit 126))) (.goto (.st 221) .done) .done (.goto (.st 0) .done), .st 221⟩
/-- rfc5424/builder.go:3179 -/
def st221 : K × Lbl := ⟨.stmt .incP (.ifElse .pEqPe (.goto (.testEofN 221) .done) .done .done), .stCase 221⟩
/-- rfc5424/builder.go:3183 -/
def stCase221 : K × Lbl := ⟨.ifElse (.and (.cmp .le (.lit 33) .byte) (.cmp .le .byte (.lit 126))) (.goto (.st 222) .done) .done (.goto (.st 0) .done), .st 222⟩
/-- rfc5424/builder.go:3188 -/
def st222 : K × Lbl := ⟨.stmt .incP (.ifElse .pEqPe (.goto (.testEofN 222) .done) .done .done), .stCase 222⟩
/-- rfc5424/builder.go:3192 -/
def stCase222 : K × Lbl := ⟨.ifElse (.and (.cmp .le (.lit 33) .byte) (.cmp .le .byte (.lit 126))) (.goto (.st 223) .done) .done (.goto (.st 0) .done), .st 223⟩
/-- rfc5424/builder.go:3197 -/
def st223 : K × Lbl := ⟨.stmt .incP (.ifElse .pEqPe (.goto (.testEofN 223) .done) .done .done), .stCase 223⟩
/-- rfc5424/builder.go:3201 -/
def stCase223 : K × Lbl := ⟨.ifElse (.and (.cmp .le (.lit 33) .byte) (.cmp .le .byte (.lit 126))) (.goto (.st 224) .done) .done (.goto (.st 0) .done), .st 224⟩
/-- rfc5424/builder.go:3206 -/
def st224 : K × Lbl := ⟨.stmt .incP (.ifElse .pEqPe (.goto (.testEofN 224) .done) .done .done), .stCase 224⟩
/-- rfc5424/builder.go:3210 -/
def stCase224 : K × Lbl := ⟨.ifElse (.and (.cmp .le (.lit 33) .byte) (.cmp .le .byte (.lit 126))) (.goto (.st 225) .done) .done (.goto (.st 0) .done), .st 225⟩
/-- rfc5424/builder.go:3215 -/
def st225 : K × Lbl := ⟨.stmt .incP (.ifElse .pEqPe (.goto (.testEofN 225) .done) .done .done), .stCase 225⟩
/-- rfc5424/builder.go:3219 -/
def stCase225 : K × Lbl := ⟨.ifElse (.and (.cmp .le (.lit 33) .byte) (.cmp .le .byte (.lit 126))) (.goto (.st 226) .done) .done (.goto (.st 0) .done), .st 226⟩
/-- rfc5424/builder.go:3224 -/
def st226 : K × Lbl := ⟨.stmt .incP (.ifElse .pEqPe (.goto (.testEofN 226) .done) .done .done), .stCase 226⟩
/-- rfc5424/builder.go:3228 -/
def stCase226 : K × Lbl := ⟨.ifElse (.and (.cmp .le (.lit 33) .byte) (.cmp .le .byte (.lit 126))) (.goto (.st 227) .done) .done (.goto (.st 0) .done), .st 227⟩
/-- rfc5424/builder.go:3233 -/
def st227 : K × Lbl := ⟨.stmt .incP (.ifElse .pEqPe (.goto (.testEofN 227) .done) .done .done), .stCase 227⟩
/-- rfc5424/builder.go:3237 -/
def stCase227 : K × Lbl := ⟨.ifElse (.and (.cmp .le (.lit 33) .byte) (.cmp .le .byte (.lit 126))) (.goto (.st 228) .done) .done (.goto (.st 0) .done), .st 228⟩
/-- rfc5424/builder.go:3242 -/
def st228 : K × Lbl := ⟨.stmt .incP (.ifElse .pEqPe (.goto (.testEofN 228) .done) .done .done), .stCase 228⟩
/-- rfc5424/builder.go:3246 -/
def stCase228 : K × Lbl := ⟨.ifElse (.and (.cmp .le (.lit 33) .byte) (.cmp .le .byte (.lit 126))) (.goto (.st 229) .done) .done (.goto (.st 0) .done), .st 229⟩
/-- rfc5424/builder.go:3251 -/
def st229 : K × Lbl := ⟨.stmt .incP (.ifElse .pEqPe (.goto (.testEofN 229) .done) .done .done), .stCase 229⟩
/-- rfc5424/builder.go:3255 -/
def stCase229 : K × Lbl := ⟨.ifElse (.and (.cmp .le (.lit 33) .byte) (.cmp .le .byte (.lit 126))) (.goto (.st 230) .done) .done (.goto (.st 0) .done), .st 230⟩
/-- rfc5424/builder.go:3260 -/
def st230 : K × Lbl := ⟨.stmt .incP (.ifElse .pEqPe (.goto (.testEofN 230) .done) .done .done), .stCase 230⟩
/-- rfc5424/builder.go:3264 -/
def stCase230 : K × Lbl := ⟨.ifElse (.and (.cmp .le (.lit 33) .byte) (.cmp .le .byte (.lit 126))) (.goto (.st 231) .done) .done (.goto (.st 0) .done), .st 231⟩
/-- rfc5424/builder.go:3269 -/
def st231 : K × Lbl := ⟨.stmt .incP (.ifElse .pEqPe (.goto (.testEofN 231) .done) .done .done), .stCase 231⟩
/-- rfc5424/builder.go:3273 -/
def stCase231 : K × Lbl := ⟨.ifElse (.and (.cmp .le (.lit 33) .byte) (.cmp .le .byte (.lit 126))) (.goto (.st 232) .done) .done (.goto (.st 0) .done), .st 232⟩
/-- rfc5424/builder.go:3278 -/
def st232 : K × Lbl := ⟨.stmt .incP (.ifElse .pEqPe (.goto (.testEofN 232) .done) .done .done), .stCase 232⟩
/-- rfc5424/builder.go:3282 -/
def stCase232 : K × Lbl := ⟨.ifElse (.and (.cmp .le (.lit 33) .byte) (.cmp .le .byte (.lit 126))) (.goto (.st 233) .done) .done (.goto (.st 0) .done), .st 233⟩
/-- rfc5424/builder.go:3287 -/
def st233 : K × Lbl := ⟨.stmt .incP (.ifElse .pEqPe (.goto (.testEofN 233) .done) .done .done), .stCase 233⟩
/-- rfc5424/builder.go:3291 -/
def stCase233 : K × Lbl := ⟨.ifElse (.and (.cmp .le (.lit 33) .byte) (.cmp .le .byte (.lit 126))) (.goto (.st 234) .done) .done (.goto (.st 0) .done), .st 234⟩
/-- rfc5424/builder.go:3296 -/
def st234 : K × Lbl := ⟨.stmt .incP (.ifElse .pEqPe (.goto (.testEofN 234) .done) .done .done), .stCase 234⟩
/-- rfc5424/builder.go:3300 -/
def stCase234 : K × Lbl := ⟨.ifElse (.and (.cmp .le (.lit 33) .byte) (.cmp .le .byte (.lit 126))) (.goto (.st 235) .done) .done (.goto (.st 0) .done), .st 235⟩
/-- rfc5424/builder.go:3305 -/
def st235 : K × Lbl := ⟨.stmt .incP (.ifElse .pEqPe (.goto (.testEofN 235) .done) .done .done), .stCase 235⟩
/-- rfc5424/builder.go:3309 -/
def stCase235 : K × Lbl := ⟨.ifElse (.and (.cmp .le (.lit 33) .byte) (.cmp .le .byte (.lit 126))) (.goto (.st 236) .done) .done (.goto (.st 0) .done), .st 236⟩
/-- rfc5424/builder.go:3314 -/
def st236 : K × Lbl := ⟨.stmt .incP (.ifElse .pEqPe (.goto (.testEofN 236) .done) .done .done), .stCase 236⟩
/-- rfc5424/builder.go:3318 -/
def stCase236 : K × Lbl := ⟨.ifElse (.and (.cmp .le (.lit 33) .byte) (.cmp .le .byte (.lit 126))) (.goto (.st 237) .done) .done (.goto (.st 0) .done), .st 237⟩
/-- rfc5424/builder.go:3323 -/
def st237 : K × Lbl := ⟨.stmt .incP (.ifElse .pEqPe (.goto (.testEofN 237) .done) .done .done), .stCase 237⟩
/-- rfc5424/builder.go:3327 -/
def stCase237 : K × Lbl := ⟨.ifElse (.and (.cmp .le (.lit 33) .byte) (.cmp .le .byte (.lit 126))) (.goto (.st 238) .done) .done (.goto (.st 0) .done), .st 238⟩
/-- rfc5424/builder.go:3332 -/
def st238 : K × Lbl := ⟨.stmt .incP (.ifElse .pEqPe (.goto (.testEofN 238) .done) .done .done), .stCase 238⟩
/-- rfc5424/builder.go:3336 -/
def stCase238 : K × Lbl := ⟨.ifElse (.and (.cmp .le (.lit 33) .byte) (.cmp .le .byte (.lit 126))) (.goto (.st 239) .done) .done (.goto (.st 0) .done), .st 239⟩
/-- rfc5424/builder.go:3341 -/
def st239 : K × Lbl := ⟨.stmt .incP (.ifElse .pEqPe (.goto (.testEofN 239) .done) .done .done), .stCase 239⟩
/-- rfc5424/builder.go:3345 -/
def stCase239 : K × Lbl := ⟨.ifElse (.and (.cmp .le (.lit 33) .byte) (.cmp .le .byte (.lit 126))) (.goto (.st 240) .done) .done (.goto (.st 0) .done), .st 240⟩
/-- rfc5424/builder.go:3350 -/
def st240 : K × Lbl := ⟨.stmt .incP (.ifElse .pEqPe (.goto (.testEofN 240) .done) .done .done), .stCase 240⟩
/-- rfc5424/builder.go:3354 -/
def stCase240 : K × Lbl := ⟨.ifElse (.and (.cmp .le (.lit 33) .byte) (.cmp .le .byte (.lit 126))) (.goto (.st 241) .done) .done (.goto (.st 0) .done), .st 241⟩
/-- rfc5424/builder.go:3359 -/
def st241 : K × Lbl := ⟨.stmt .incP (.ifElse .pEqPe (.goto (.testEofN 241) .done) .done .done), .stCase 241⟩
/-- rfc5424/builder.go:3363 -/
def stCase241 : K × Lbl := ⟨.ifElse (.and (.cmp .le (.lit 33) .byte) (.cmp .le .byte (.lit 126))) (.goto (.st 242) .done) .done (.goto (.st 0) .done), .st 242⟩
/-- rfc5424/builder.go:3368 -/
def st242 : K × Lbl := ⟨.stmt .incP (.ifElse .pEqPe (.goto (.testEofN 242) .done) .done .done), .stCase 242⟩
/-- rfc5424/builder.go:3372 -/
def stCase242 : K × Lbl := ⟨.ifElse (.and (.cmp .le (.lit 33) .byte) (.cmp .le .byte (.lit 126))) (.goto (.st 243) .done) .done (.goto (.st 0) .done), .st 243⟩
/-- rfc5424/builder.go:3377 -/
def st243 : K × Lbl := ⟨.stmt .incP (.ifElse .pEqPe (.goto (.testEofN 243) .done) .done .done), .stCase 243⟩
/-- rfc5424/builder.go:3381 -/
def stCase243 : K × Lbl := ⟨.ifElse (.and (.cmp .le (.lit 33) .byte) (.cmp .le .byte (.lit 126))) (.goto (.st 244) .done) .done (.goto (.st 0) .done), .st 244⟩
/-- rfc5424/builder.go:3386 -/
def st244 : K × Lbl := ⟨.stmt .incP (.ifElse .pEqPe (.goto (.testEofN 244) .done) .done .done), .stCase 244⟩
/-- rfc5424/builder.go:3390 -/
def stCase244 : K × Lbl := ⟨.ifElse (.and (.cmp .le (.lit 33) .byte) (.cmp .le .byte (.lit 126))) (.goto (.st 245) .done) .done (.goto (.st 0) .done), .st 245⟩
/-- rfc5424/builder.go:3395 -/
def st245 : K × Lbl := ⟨.stmt .incP (.ifElse .pEqPe (.goto (.testEofN 245) .done) .done .done), .stCase 245⟩
/-- rfc5424/builder.go:3399 -/
def stCase245 : K × Lbl := ⟨.ifElse (.and (.cmp .le (.lit 33) .byte) (.cmp .le .byte (.lit 126))) (.goto (.st 246) .done) .done (.goto (.st 0) .done), .st 246⟩
/-- rfc5424/builder.go:3404 -/
def st246 : K × Lbl := ⟨.stmt .incP (.ifElse .pEqPe (.goto (.testEofN 246) .done) .done .done), .stCase 246⟩
/-- rfc5424/builder.go:3408 -/
def stCase246 : K × Lbl := ⟨.ifElse (.and (.cmp .le (.lit 33) .byte) (.cmp .le .byte (.lit 126))) (.goto (.st 247) .done) .done (.goto (.st 0) .done), .st 247⟩
/-- rfc5424/builder.go:3413 -/
def st247 : K × Lbl := ⟨.stmt .incP (.ifElse .pEqPe (.goto (.testEofN 247) .done) .done .done), .stCase 247⟩
/-- rfc5424/builder.go:3417 -/
def stCase247 : K × Lbl := ⟨.ifElse (.and (.cmp .le (.lit 33) .byte) (.cmp .le .byte (.lit 126))) (.goto (.st 248) .done) .done (.goto (.st 0) .done), .st 248⟩
/-- rfc5424/builder.go:3422 -/
def st248 : K × Lbl := ⟨.stmt .incP (.ifElse .pEqPe (.goto (.testEofN 248) .done) .done .done), .stCase 248⟩
/-- rfc5424/builder.go:3426 -/
def stCase248 : K × Lbl := ⟨.ifElse (.and (.cmp .le (.lit 33) .byte) (.cmp .le .byte (.lit 126))) (.goto (.st 249) .done) .done (.goto (.st 0) .done), .st 249⟩
/-- rfc5424/builder.go:3431 -/
def st249 : K × Lbl := ⟨.stmt .incP (.ifElse .pEqPe (.goto (.testEofN 249) .done) .done .done), .stCase 249⟩
/-- rfc5424/builder.go:3435 -/
def stCase249 : K × Lbl := ⟨.ifElse (.and (.cmp .le (.lit 33) .byte) (.cmp .le .byte (.lit 126))) (.goto (.st 250) .done) .done (.goto (.st 0) .done), .st 250⟩
/-- rfc5424/builder.go:3440 -/
def st250 : K × Lbl := ⟨.stmt .incP (.ifElse .pEqPe (.goto (.testEofN 250) .done) .done .done), .stCase 250⟩
/-- rfc5424/builder.go:3444 -/
def stCase250 : K × Lbl := ⟨.ifElse (.and (.cmp .le (.lit 33) .byte) (.cmp .le .byte (.lit 126))) (.goto (.st 251) .done) .done (.goto (.st 0) .done), .st 251⟩
/-- rfc5424/builder.go:3449 -/
def st251 : K × Lbl := ⟨.stmt .incP (.ifElse .pEqPe (.goto (.testEofN 251) .done) .done .done), .stCase 251⟩
/-- rfc5424/builder.go:3453 -/
def stCase251 : K × Lbl := ⟨.ifElse (.and (.cmp .le (.lit 33) .byte) (.cmp .le .byte (.lit 126))) (.goto (.st 252) .done) .done (.goto (.st 0) .done), .st 252⟩
/-- rfc5424/builder.go:3458 -/
def st252 : K × Lbl := ⟨.stmt .incP (.ifElse .pEqPe (.goto (.testEofN 252) .done) .done .done), .stCase 252⟩
/-- rfc5424/builder.go:3462 -/
def stCase252 : K × Lbl := ⟨.ifElse (.and (.cmp .le (.lit 33) .byte) (.cmp .le .byte (.lit 126))) (.goto (.st 253) .done) .done (.goto (.st 0) .done), .st 253⟩
/-- rfc5424/builder.go:3467 -/
def st253 : K × Lbl := ⟨.stmt .incP (.ifElse .pEqPe (.goto (.testEofN 253) .done) .done .done), .stCase 253⟩
/-- rfc5424/builder.go:3471 -/
def stCase253 : K × Lbl := ⟨.ifElse (.and (.cmp .le (.lit 33) .byte) (.cmp .le .byte (.lit 126))) (.goto (.st 254) .done) .done (.goto (.st 0) .done), .st 254⟩
/-- rfc5424/builder.go:3476 -/
def st254 : K × Lbl := ⟨.stmt .incP (.ifElse .pEqPe (.goto (.testEofN 254) .done) .done .done), .stCase 254⟩
/-- rfc5424/builder.go:3480 -/
def stCase254 : K × Lbl := ⟨.ifElse (.and (.cmp .le (.lit 33) .byte) (.cmp .le .byte (.lit 126))) (.goto (.st 255) .done) .done (.goto (.st 0) .done), .st 255⟩
/-- rfc5424/builder.go:3485 -/
def st255 : K × Lbl := ⟨.stmt .incP (.ifElse .pEqPe (.goto (.testEofN 255) .done) .done .done), .stCase 255⟩
/-- rfc5424/builder.go:3489 -/
def stCase255 : K × Lbl := ⟨.ifElse (.and (.cmp .le (.lit 33) .byte) (.cmp .le .byte (.lit 126))) (.goto (.st 256) .done) .done (.goto (.st 0) .done), .st 256⟩
/-- rfc5424/builder.go:3494 -/
def st256 : K × Lbl := ⟨.stmt .incP (.ifElse .pEqPe (.goto (.testEofN 256) .done) .done .done), .stCase 256⟩
/-- rfc5424/builder.go:3498 -/
def stCase256 : K × Lbl := ⟨.ifElse (.and (.cmp .le (.lit 33) .byte) (.cmp .le .byte (.lit 126))) (.goto (.st 257) .done) .done (.goto (.st 0) .done), .st 257⟩
/-- rfc5424/builder.go:3503 -/
def st257 : K × Lbl := ⟨.stmt .incP (.ifElse .pEqPe (.goto (.testEofN 257) .done) .done .done), .stCase 257⟩
/-- rfc5424/builder.go:3507 -/
def stCase257 : K × Lbl := ⟨.ifElse (.and (.cmp .le (.lit 33) .byte) (.cmp .le .byte (.lit 126))) (.goto (.st 258) .done) .done (.goto (.st 0) .done), .st 258⟩
/-- rfc5424/builder.go:3512 -/
def st258 : K × Lbl := ⟨.stmt .incP (.ifElse .pEqPe (.goto (.testEofN 258) .done) .done .done), .stCase 258⟩
/-- rfc5424/builder.go:3516 -/
def stCase258 : K × Lbl := ⟨.ifElse (.and (.cmp .le (.lit 33) .byte) (.cmp .le .byte (.lit 126))) (.goto (.st 259) .done) .done (.goto (.st 0) .done), .st 259⟩
/-- rfc5424/builder.go:3521 -/
def st259 : K × Lbl := ⟨.stmt .incP (.ifElse .pEqPe (.goto (.testEofN 259) .done) .done .done), .stCase 259⟩
/-- rfc5424/builder.go:3525 -/
def stCase259 : K × Lbl := ⟨.ifElse (.and (.cmp .le (.lit 33) .byte) (.cmp .le .byte (.lit 126))) (.goto (.st 260) .done) .done (.goto (.st 0) .done), .st 260⟩
/-- rfc5424/builder.go:3530 -/
def st260 : K × Lbl := ⟨.stmt .incP (.ifElse .pEqPe (.goto (.testEofN 260) .done) .done .done), .stCase 260⟩
/-- rfc5424/builder.go:3534 -/
def stCase260 : K × Lbl := ⟨.ifElse (.and (.cmp .le (.lit 33) .byte) (.cmp .le .byte (.lit 126))) (.goto (.st 261) .done) .done (.goto (.st 0) .done), .st 261⟩
/-- rfc5424/builder.go:3539 -/
def st261 : K × Lbl := ⟨.stmt .incP (.ifElse .pEqPe (.goto (.testEofN 261) .done) .done .done), .stCase 261⟩
/-- rfc5424/builder.go:3543 -/
def stCase261 : K × Lbl := ⟨.ifElse (.and (.cmp .le (.lit 33) .byte) (.cmp .le .byte (.lit 126))) (.goto (.st 262) .done) .done (.goto (.st 0) .done), .st 262⟩
/-- rfc5424/builder.go:3548 -/
def st262 : K × Lbl := ⟨.stmt .incP (.ifElse .pEqPe (.goto (.testEofN 262) .done) .done .done), .stCase 262⟩
/-- rfc5424/builder.go:3552 -/
def stCase262 : K × Lbl := ⟨.ifElse (.and (.cmp .le (.lit 33) .byte) (.cmp .le .byte (.lit 126))) (.goto (.st 263) .done) .done (.goto (.st 0) .done), .st 263⟩
/-- rfc5424/builder.go:3557 -/
def st263 : K × Lbl := ⟨.stmt .incP (.ifElse .pEqPe (.goto (.testEofN 263) .done) .done .done), .stCase 263⟩
/-- rfc5424/builder.go:3561 -/
def stCase263 : K × Lbl := ⟨.ifElse (.and (.cmp .le (.lit 33) .byte) (.cmp .le .byte (.lit 126))) (.goto (.st 264) .done) .done (.goto (.st 0) .done), .st 264⟩
/-- rfc5424/builder.go:3566 -/
def st264 : K × Lbl := ⟨.stmt .incP (.ifElse .pEqPe (.goto (.testEofN 264) .done) .done .done), .stCase 264⟩
/-- rfc5424/builder.go:3570 -/
def stCase264 : K × Lbl := ⟨.ifElse (.and (.cmp .le (.lit 33) .byte) (.cmp .le .byte (.lit 126))) (.goto (.st 265) .done) .done (.goto (.st 0) .done), .st 265⟩
/-- rfc5424/builder.go:3575 -/
def st265 : K × Lbl := ⟨.stmt .incP (.ifElse .pEqPe (.goto (.testEofN 265) .done) .done .done), .stCase 265⟩
/-- rfc5424/builder.go:3579 -/
def stCase265 : K × Lbl := ⟨.ifElse (.and (.cmp .le (.lit 33) .byte) (.cmp .le .byte (.lit 126))) (.goto (.st 266) .done) .done (.goto (.st 0) .done), .st 266⟩
/-- rfc5424/builder.go:3584 -/
def st266 : K × Lbl := ⟨.stmt .incP (.ifElse .pEqPe (.goto (.testEofN 266) .done) .done .done), .stCase 266⟩
/-- rfc5424/builder.go:3588 -/
def stCase266 : K × Lbl := ⟨.ifElse (.and (.cmp .le (.lit 33) .byte) (.cmp .le .byte (.lit 126))) (.goto (.st 267) .done) .done (.goto (.st 0) .done), .st 267⟩
/-- rfc5424/builder.go:3593 -/
def st267 : K × Lbl := ⟨.stmt .incP (.ifElse .pEqPe (.goto (.testEofN 267) .done) .done .done), .stCase 267⟩
/-- rfc5424/builder.go:3597 -/
def stCase267 : K × Lbl := ⟨.ifElse (.and (.cmp .le (.lit 33) .byte) (.cmp .le .byte (.lit 126))) (.goto (.st 268) .done) .done (.goto (.st 0) .done), .st 268⟩
/-- rfc5424/builder.go:3602 -/
def st268 : K × Lbl := ⟨.stmt .incP (.ifElse .pEqPe (.goto (.testEofN 268) .done) .done .done), .stCase 268⟩
/-- rfc5424/builder.go:3606 -/
def stCase268 : K × Lbl := ⟨.ifElse (.and (.cmp .le (.lit 33) .byte) (.cmp .le .byte (.lit 126))) (.goto (.st 269) .done) .done (.goto (.st 0) .done), .st 269⟩
/-- rfc5424/builder.go:3611 -/
def st269 : K × Lbl := ⟨.stmt .incP (.ifElse .pEqPe (.goto (.testEofN 269) .done) .done .done), .stCase 269⟩
/-- rfc5424/builder.go:3615 -/
def stCase269 : K × Lbl := ⟨.ifElse (.and (.cmp .le (.lit 33) .byte) (.cmp .le .byte (.lit 126))) (.goto (.st 270) .done) .done (.goto (.st 0) .done), .st 270⟩
/-- rfc5424/builder.go:3620 -/
def st270 : K × Lbl := ⟨.stmt .incP (.ifElse .pEqPe (.goto (.testEofN 270) .done) .done .done), .stCase 270⟩
/-- rfc5424/builder.go:3624 -/
def stCase270 : K × Lbl := ⟨.ifElse (.and (.cmp .le (.lit 33) .byte) (.cmp .le .byte (.lit 126))) (.goto (.st 271) .done) .done (.goto (.st 0) .done), .st 271⟩
/-- rfc5424/builder.go:3629 -/
def st271 : K × Lbl := ⟨.stmt .incP (.ifElse .pEqPe (.goto (.testEofN 271) .done) .done .done), .stCase 271⟩
/-- rfc5424/builder.go:3633 -/
def stCase271 : K × Lbl := ⟨.ifElse (.and (.cmp .le (.lit 33) .byte) (.cmp .le .byte (.lit 126))) (.goto (.st 272) .done) .done (.goto (.st 0) .done), .st 272⟩
/-- rfc5424/builder.go:3638 -/
def st272 : K × Lbl := ⟨.stmt .incP (.ifElse .pEqPe (.goto (.testEofN 272) .done) .done .done), .stCase 272⟩
/-- rfc5424/builder.go:3642 -/
def stCase272 : K × Lbl := ⟨.ifElse (.and (.cmp .le (.lit 33) .byte) (.cmp .le .byte (.lit 126))) (.goto (.st 273) .done) .done (.goto (.st 0) .done), .st 273⟩
/-- rfc5424/builder.go:3647 -/
def st273 : K × Lbl := ⟨.stmt .incP (.ifElse .pEqPe (.goto (.testEofN 273) .done) .done .done), .stCase 273⟩
/-- rfc5424/builder.go:3651 -/
def stCase273 : K × Lbl := ⟨.ifElse (.and (.cmp .le (.lit 33) .byte) (.cmp .le .byte (.lit 126))) (.goto (.st 274) .done) .done (.goto (.st 0) .done), .st 274⟩
/-- rfc5424/builder.go:3656 -/
def st274 : K × Lbl := ⟨.stmt .incP (.ifElse .pEqPe (.goto (.testEofN 274) .done) .done .done), .stCase 274⟩
/-- rfc5424/builder.go:3660 -/
def stCase274 : K × Lbl := ⟨.ifElse (.and (.cmp .le (.lit 33) .byte) (.cmp .le .byte (.lit 126))) (.goto (.st 275) .done) .done (.goto (.st 0) .done), .st 275⟩
/-- rfc5424/builder.go:3665 -/
def st275 : K × Lbl := ⟨.stmt .incP (.ifElse .pEqPe (.goto (.testEofN 275) .done) .done .done), .stCase 275⟩
/-- rfc5424/builder.go:3669 -/
def stCase275 : K × Lbl := ⟨.ifElse (.and (.cmp .le (.lit 33) .byte) (.cmp .le .byte (.lit 126))) (.goto (.st 276) .done) .done (.goto (.st 0) .done), .st 276⟩
/-- rfc5424/builder.go:3674 -/
def st276 : K × Lbl := ⟨.stmt .incP (.ifElse .pEqPe (.goto (.testEofN 276) .done) .done .done), .stCase 276⟩
/-- rfc5424/builder.go:3678 -/
def stCase276 : K × Lbl := ⟨.ifElse (.and (.cmp .le (.lit 33) .byte) (.cmp .le .byte (.lit 126))) (.goto (.st 277) .done) .done (.goto (.st 0) .done), .st 277⟩
/-- rfc5424/builder.go:3683 -/
def st277 : K × Lbl := ⟨.stmt .incP (.ifElse .pEqPe (.goto (.testEofN 277) .done) .done .done), .stCase 277⟩
/-- rfc5424/builder.go:3687 -/
def stCase277 : K × Lbl := ⟨.ifElse (.and (.cmp .le (.lit 33) .byte) (.cmp .le .byte (.lit 126))) (.goto (.st 278) .done) .done (.goto (.st 0) .done), .st 278⟩
/-- rfc5424/builder.go:3692 -/
def st278 : K × Lbl := ⟨.stmt .incP (.ifElse .pEqPe (.goto (.testEofN 278) .done) .done .done), .stCase 278⟩
/-- rfc5424/builder.go:3696 -/
def stCase278 : K × Lbl := ⟨.ifElse (.and (.cmp .le (.lit 33) .byte) (.cmp .le .byte (.lit 126))) (.goto (.st 279) .done) .done (.goto (.st 0) .done), .st 279⟩
/-- rfc5424/builder.go:3701 -/
def st279 : K × Lbl := ⟨.stmt .incP (.ifElse .pEqPe (.goto (.testEofN 279) .done) .done .done), .stCase 279⟩
/-- rfc5424/builder.go:3705 -/
def stCase279 : K × Lbl := ⟨.ifElse (.and (.cmp .le (.lit 33) .byte) (.cmp .le .byte (.lit 126))) (.goto (.st 280) .done) .done (.goto (.st 0) .done), .st 280⟩
/-- rfc5424/builder.go:3710 -/
def st280 : K × Lbl := ⟨.stmt .incP (.ifElse .pEqPe (.goto (.testEofN 280) .done) .done .done), .stCase 280⟩
/-- rfc5424/builder.go:3714 -/
def stCase280 : K × Lbl := ⟨.ifElse (.and (.cmp .le (.lit 33) .byte) (.cmp .le .byte (.lit 126))) (.goto (.st 281) .done) .done (.goto (.st 0) .done), .st 281⟩
/-- rfc5424/builder.go:3719 -/
def st281 : K × Lbl := ⟨.stmt .incP (.ifElse .pEqPe (.goto (.testEofN 281) .done) .done .done), .stCase 281⟩
/-- rfc5424/builder.go:3723 -/
def stCase281 : K × Lbl := ⟨.ifElse (.and (.cmp .le (.lit 33) .byte) (.cmp .le .byte (.lit 126))) (.goto (.st 282) .done) .done (.goto (.st 0) .done), .st 282⟩
/-- rfc5424/builder.go:3728 -/
def st282 : K × Lbl := ⟨.stmt .incP (.ifElse .pEqPe (.goto (.testEofN 282) .done) .done .done), .stCase 282⟩
/-- rfc5424/builder.go:3732 -/
def stCase282 : K × Lbl := ⟨.ifElse (.and (.cmp .le (.lit 33) .byte) (.cmp .le .byte (.lit 126))) (.goto (.st 283) .done) .done (.goto (.st 0) .done), .st 283⟩
/-- rfc5424/builder.go:3737 -/
def st283 : K × Lbl := ⟨.stmt .incP (.ifElse .pEqPe (.goto (.testEofN 283) .done) .done .done), .stCase 283⟩
/-- rfc5424/builder.go:3741 -/
def stCase283 : K × Lbl := ⟨.ifElse (.and (.cmp .le (.lit 33) .byte) (.cmp .le .byte (.lit 126))) (.goto (.st 284) .done) .done (.goto (.st 0) .done), .st 284⟩
/-- rfc5424/builder.go:3746 -/
def st284 : K × Lbl := ⟨.stmt .incP (.ifElse .pEqPe (.goto (.testEofN 284) .done) .done .done), .stCase 284⟩
/-- rfc5424/builder.go:3750 -/
def stCase284 : K × Lbl := ⟨.ifElse (.and (.cmp .le (.lit 33) .byte) (.cmp .le .byte (.lit 126))) (.goto (.st 285) .done) .done (.goto (.st 0) .done), .st 285⟩
/-- rfc5424/builder.go:3755 -/
def st285 : K × Lbl := ⟨.stmt .incP (.ifElse .pEqPe (.goto (.testEofN 285) .done) .done .done), .stCase 285⟩
/-- rfc5424/builder.go:3759 -/
def stCase285 : K × Lbl := ⟨.ifElse (.and (.cmp .le (.lit 33) .byte) (.cmp .le .byte (.lit 126))) (.goto (.st 286) .done) .done (.goto (.st 0) .done), .st 286⟩
/-- rfc5424/builder.go:3764 -/
def st286 : K × Lbl := ⟨.stmt .incP (.ifElse .pEqPe (.goto (.testEofN 286) .done) .done .done), .stCase 286⟩
/-- rfc5424/builder.go:3768 -/
def stCase286 : K × Lbl := ⟨.ifElse (.and (.cmp .le (.lit 33) .byte) (.cmp .le .byte (.lit 126))) (.goto (.st 287) .done) .done (.goto (.st 0) .done), .st 287⟩
/-- rfc5424/builder.go:3773 -/
def st287 : K × Lbl := ⟨.stmt .incP (.ifElse .pEqPe (.goto (.testEofN 287) .done) .done .done), .stCase 287⟩
/-- rfc5424/builder.go:3777 -/
def stCase287 : K × Lbl := ⟨.ifElse (.and (.cmp .le (.lit 33) .byte) (.cmp .le .byte (.lit 126))) (.goto (.st 288) .done) .done (.goto (.st 0) .done), .st 288⟩
/-- rfc5424/builder.go:3782 -/
def st288 : K × Lbl := ⟨.stmt .incP (.ifElse .pEqPe (.goto (.testEofN 288) .done) .done .done), .stCase 288⟩
/-- rfc5424/builder.go:3786 -/
def stCase288 : K × Lbl := ⟨.ifElse (.and (.cmp .le (.lit 33) .byte) (.cmp .le .byte (.lit 126))) (.goto (.st 289) .done) .done (.goto (.st 0) .done), .st 289⟩
/-- rfc5424/builder.go:3791 -/
def st289 : K × Lbl := ⟨.stmt .incP (.ifElse .pEqPe (.goto (.testEofN 289) .done) .done .done), .stCase 289⟩
/-- rfc5424/builder.go:3795 -/
def stCase289 : K × Lbl := ⟨.ifElse (.and (.cmp .le (.lit 33) .byte) (.cmp .le .byte (.lit 126))) (.goto (.st 290) .done) .done (.goto (.st 0) .done), .st 290⟩
/-- rfc5424/builder.go:3800 -/
def st290 : K × Lbl := ⟨.stmt .incP (.ifElse .pEqPe (.goto (.testEofN 290) .done) .done .done), .stCase 290⟩
/-- rfc5424/builder.go:3804 -/
def stCase290 : K × Lbl := ⟨.ifElse (.and (.cmp .le (.lit 33) .byte) (.cmp .le .byte (.lit 126))) (.goto (.st 291) .done) .done (.goto (.st 0) .done), .st 291⟩
/-- rfc5424/builder.go:3809 -/
def st291 : K × Lbl := ⟨.stmt .incP (.ifElse .pEqPe (.goto (.testEofN 291) .done) .done .done), .stCase 291⟩
/-- rfc5424/builder.go:3813 -/
def stCase291 : K × Lbl := ⟨.ifElse (.and (.cmp .le (.lit 33) .byte) (.cmp .le .byte (.lit 126))) (.goto (.st 292) .done) .done (.goto (.st 0) .done), .st 292⟩
/-- rfc5424/builder.go:3818 -/
def st292 : K × Lbl := ⟨.stmt .incP (.ifElse .pEqPe (.goto (.testEofN 292) .done) .done .done), .stCase 292⟩
/-- rfc5424/builder.go:3822 -/
def stCase292 : K × Lbl := ⟨.ifElse (.and (.cmp .le (.lit 33) .byte) (.cmp .le .byte (.lit 126))) (.goto (.st 293) .done) .done (.goto (.st 0) .done), .st 293⟩
/-- rfc5424/builder.go:3827 -/
def st293 : K × Lbl := ⟨.stmt .incP (.ifElse .pEqPe (.goto (.testEofN 293) .done) .done .done), .stCase 293⟩
/-- rfc5424/builder.go:3831 -/
def stCase293 : K × Lbl := ⟨.ifElse (.and (.cmp .le (.lit 33) .byte) (.cmp .le .byte (.lit 126))) (.goto (.st 294) .done) .done (.goto (.st 0) .done), .st 294⟩
/-- rfc5424/builder.go:3836 -/
def st294 : K × Lbl := ⟨.stmt .incP (.ifElse .pEqPe (.goto (.testEofN 294) .done) .done .done), .stCase 294⟩
/-- rfc5424/builder.go:3840 -/
def stCase294 : K × Lbl := ⟨.ifElse (.and (.cmp .le (.lit 33) .byte) (.cmp .le .byte (.lit 126))) (.goto (.st 295) .done) .done (.goto (.st 0) .done), .st 295⟩
/-- rfc5424/builder.go:3845 -/
def st295 : K × Lbl := ⟨.stmt .incP (.ifElse .pEqPe (.goto (.testEofN 295) .done) .done .done), .stCase 295⟩
/-- rfc5424/builder.go:3849 -/
def stCase295 : K × Lbl := ⟨.ifElse (.and (.cmp .le (.lit 33) .byte) (.cmp .le .byte (.lit 126))) (.goto (.st 296) .done) .done (.goto (.st 0) .done), .st 296⟩
/-- rfc5424/builder.go:3854 -/
def st296 : K × Lbl := ⟨.stmt .incP (.ifElse .pEqPe (.goto (.testEofN 296) .done) .done .done), .stCase 296⟩
/-- rfc5424/builder.go:3858 -/
def stCase296 : K × Lbl := ⟨.ifElse (.and (.cmp .le (.lit 33) .byte) (.cmp .le .byte (.lit 126))) (.goto (.st 297) .done) .done (.goto (.st 0) .done), .st 297⟩
/-- rfc5424/builder.go:3863 -/
def st297 : K × Lbl := ⟨.stmt .incP (.ifElse .pEqPe (.goto (.testEofN 297) .done) .done .done), .stCase 297⟩
/-- rfc5424/builder.go:3867 -/
def stCase297 : K × Lbl := ⟨.ifElse (.and (.cmp .le (.lit 33) .byte) (.cmp .le .byte (.lit 126))) (.goto (.st 298) .done) .done (.goto (.st 0) .done), .st 298⟩
/-- rfc5424/builder.go:3872 -/
def st298 : K × Lbl := ⟨.stmt .incP (.ifElse .pEqPe (.goto (.testEofN 298) .done) .done .done), .stCase 298⟩
/-- rfc5424/builder.go:3876 -/
def stCase298 : K × Lbl := ⟨.ifElse (.and (.cmp .le (.lit 33) .byte) (.cmp .le .byte (.lit 126))) (.goto (.st 299) .done) .done (.goto (.st 0) .done), .st 299⟩
/-- rfc5424/builder.go:3881 -/
def st299 : K × Lbl := ⟨.stmt .incP (.ifElse .pEqPe (.goto (.testEofN 299) .done) .done .done), .stCase 299⟩
/-- rfc5424/builder.go:3885 -/
def stCase299 : K × Lbl := ⟨.ifElse (.and (.cmp .le (.lit 33) .byte) (.cmp .le .byte (.lit 126))) (.goto (.st 300) .done) .done (.goto (.st 0) .done), .st 300⟩
/-- rfc5424/builder.go:3890 -/
def st300 : K × Lbl := ⟨.stmt .incP (.ifElse .pEqPe (.goto (.testEofN 300) .done) .done .done), .stCase 300⟩
/-- rfc5424/builder.go:3894 -/
def stCase300 : K × Lbl := ⟨.ifElse (.and (.cmp .le (.lit 33) .byte) (.cmp .le .byte (.lit 126))) (.goto (.st 301) .done) .done (.goto (.st 0) .done), .st 301⟩
/-- rfc5424/builder.go:3899 -/
def st301 : K × Lbl := ⟨.stmt .incP (.ifElse .pEqPe (.goto (.testEofN 301) .done) .done .done), .stCase 301⟩
/-- rfc5424/builder.go:3903 -/
def stCase301 : K × Lbl := ⟨.ifElse (.and (.cmp .le (.lit 33) .byte) (.cmp .le .byte (.lit 126))) (.goto (.st 302) .done) .done (.goto (.st 0) .done), .st 302⟩
/-- rfc5424/builder.go:3908 -/
def st302 : K × Lbl := ⟨.stmt .incP (.ifElse .pEqPe (.goto (.testEofN 302) .done) .done .done), .stCase 302⟩
/-- rfc5424/builder.go:3912 -/
def stCase302 : K × Lbl := ⟨.ifElse (.and (.cmp .le (.lit 33) .byte) (.cmp .le .byte (.lit 126))) (.goto (.st 303) .done) .done (.goto (.st 0) .done), .st 303⟩
/-- rfc5424/builder.go:3917 -/
def st303 : K × Lbl := ⟨.stmt .incP (.ifElse .pEqPe (.goto (.testEofN 303) .done) .done .done), .stCase 303⟩
/-- rfc5424/builder.go:3921 -/
def stCase303 : K × Lbl := ⟨.ifElse (.and (.cmp .le (.lit 33) .byte) (.cmp .le .byte (.lit 126))) (.goto (.st 304) .done) .done (.goto (.st 0) .done), .st 304⟩
/-- rfc5424/builder.go:3926 -/
def st304 : K × Lbl := ⟨.stmt .incP (.ifElse .pEqPe (.goto (.testEofN 304) .done) .done .done), .stCase 304⟩
/-- rfc5424/builder.go:3930 -/
def stCase304 : K × Lbl := ⟨.ifElse (.and (.cmp .le (.lit 33) .byte) (.cmp .le .byte (.lit 126))) (.goto (.st 305) .done) .done (.goto (.st 0) .done), .st 305⟩
/-- rfc5424/builder.go:3935 -/
def st305 : K × Lbl := ⟨.stmt .incP (.ifElse .pEqPe (.goto (.testEofN 305) .done) .done .done), .stCase 305⟩
/-- rfc5424/builder.go:3939 -/
def stCase305 : K × Lbl := ⟨.ifElse (.and (.cmp .le (.lit 33) .byte) (.cmp .le .byte (.lit 126))) (.goto (.st 306) .done) .done (.goto (.st 0) .done), .st 306⟩
/-- rfc5424/builder.go:3944 -/
def st306 : K × Lbl := ⟨.stmt .incP (.ifElse .pEqPe (.goto (.testEofN 306) .done) .done .done), .stCase 306⟩
/-- rfc5424/builder.go:3948 -/
def stCase306 : K × Lbl := ⟨.ifElse (.and (.cmp .le (.lit 33) .byte) (.cmp .le .byte (.lit 126))) (.goto (.st 307) .done) .done (.goto (.st 0) .done), .st 307⟩
/-- rfc5424/builder.go:3953 -/
def st307 : K × Lbl := ⟨.stmt .incP (.ifElse .pEqPe (.goto (.testEofN 307) .done) .done .done), .stCase 307⟩
/-- rfc5424/builder.go:3957 -/
def stCase307 : K × Lbl := ⟨.ifElse (.and (.cmp .le (.lit 33) .byte) (.cmp .le .byte (.lit 126))) (.goto (.st 308) .done) .done (.goto (.st 0) .done), .st 308⟩
/-- rfc5424/builder.go:3962 -/
def st308 : K × Lbl := ⟨.stmt .incP (.ifElse .pEqPe (.goto (.testEofN 308) .done) .done .done), .stCase 308⟩
/-- rfc5424/builder.go:3966 -/
def stCase308 : K × Lbl := ⟨.ifElse (.and (.cmp .le (.lit 33) .byte) (.cmp .le .byte (.lit 126))) (.goto (.st 309) .done) .done (.goto (.st 0) .done), .st 309⟩
/-- rfc5424/builder.go:3971 -/
def st309 : K × Lbl := ⟨.stmt .incP (.ifElse .pEqPe (.goto (.testEofN 309) .done) .done .done), .stCase 309⟩
/-- rfc5424/builder.go:3975 -/
def stCase309 : K × Lbl := ⟨.goto (.st 0) .done, .stCase 39⟩
/-- rfc5424/builder.go:3977 -/
def stCase39 : K × Lbl := ⟨.ifElse (.and (.cmp .le (.lit 33) .byte) (.cmp .le .byte (.lit 126))) (.goto (.tr 39) .done) .done (.goto (.st 0) .done), .tr 39⟩
/-- rfc5424/builder.go:3982 -/
def tr39 : K × Lbl := ⟨.stmt (.prim .pbP) (.goto (.st 310) .done), .st 310⟩
/-- rfc5424/builder.go:3987 -/
def st310 : K × Lbl := ⟨.stmt .incP (.ifElse .pEqPe (.goto (.testEofN 310) .done) .done .done), .stCase 310⟩
/-- rfc5424/builder.go:3991 -/
def stCase310 : K × Lbl := ⟨.ifElse (.and (.cmp .le (.lit 33) .byte) (.cmp .le .byte (.lit 126))) (.goto (.st 311) .done) .done (.goto (.st 0) .done), .st 311⟩
/-- rfc5424/builder.go:3996 -/
def st311 : K × Lbl := ⟨.stmt .incP (.ifElse .pEqPe (.goto (.testEofN 311) .done) .done .done), .stCase 311⟩
/-- rfc5424/builder.go:4000 -/
def stCase311 : K × Lbl := ⟨.ifElse (.and (.cmp .le (.lit 33) .byte) (.cmp .le .byte (.lit 126))) (.goto (.st 312) .done) .done (.goto (.st 0) .done), .st 312⟩
/-- rfc5424/builder.go:4005 -/
def st312 : K × Lbl := ⟨.stmt .incP (.ifElse .pEqPe (.goto (.testEofN 312) .done) .done .done), .stCase 312⟩
/-- rfc5424/builder.go:4009 -/
def stCase312 : K × Lbl := ⟨.ifElse (.and (.cmp .le (.lit 33) .byte) (.cmp .le .byte (.lit 126))) (.goto (.st 313) .done) .done (.goto (.st 0) .done), .st 313⟩
/-- rfc5424/builder.go:4014 -/
def st313 : K × Lbl := ⟨.stmt .incP (.ifElse .pEqPe (.goto (.testEofN 313) .done) .done .done), .stCase 313⟩
/-- rfc5424/builder.go:4018 -/
def stCase313 : K × Lbl := ⟨.ifElse (.and (.cmp .le (.lit 33) .byte) (.cmp .le .byte (.lit 126))) (.goto (.st 314) .done) .done (.goto (.st 0) .done), .st 314⟩
/-- rfc5424/builder.go:4023 -/
def st314 : K × Lbl := ⟨.stmt .incP (.ifElse .pEqPe (.goto (.testEofN 314) .done) .done .done), .stCase 314⟩
/-- rfc5424/builder.go:4027 -/
def stCase314 : K × Lbl := ⟨.ifElse (.and (.cmp .le (.lit 33) .byte) (.cmp .le .byte (.lit 126))) (.goto (.st 315) .done) .done (.goto (.st 0) .done), .st 315⟩
/-- rfc5424/builder.go:4032 -/
def st315 : K × Lbl := ⟨.stmt .incP (.ifElse .pEqPe (.goto (.testEofN 315) .done) .done .done), .stCase 315⟩
/-- rfc5424/builder.go:4036 -/
def stCase315 : K × Lbl := ⟨.ifElse (.and (.cmp .le (.lit 33) .byte) (.cmp .le .byte (.lit 126))) (.goto (.st 316) .done) .done (.goto (.st 0) .done), .st 316⟩
/-- rfc5424/builder.go:4041 -/
def st316 : K × Lbl := ⟨.stmt .incP (.ifElse .pEqPe (.goto (.testEofN 316) .done) .done .done), .stCase 316⟩
/-- rfc5424/builder.go:4045 -/
def stCase316 : K × Lbl := ⟨.ifElse (.and (.cmp .le (.lit 33) .byte) (.cmp .le .byte (.lit 126))) (.goto (.st 317) .done) .done (.goto (.st 0) .done), .st 317⟩
/-- rfc5424/builder.go:4050 -/
def st317 : K × Lbl := ⟨.stmt .incP (.ifElse .pEqPe (.goto (.testEofN 317) .done) .done .done), .stCase 317⟩
/-- rfc5424/builder.go:4054 -/
def stCase317 : K × Lbl := ⟨.ifElse (.and (.cmp .le (.lit 33) .byte) (.cmp .le .byte (.lit 126))) (.goto (.st 318) .done) .done (.goto (.st 0) .done), .st 318⟩
/-- rfc5424/builder.go:4059 -/
def st318 : K × Lbl := ⟨.stmt .incP (.ifElse .pEqPe (.goto (.testEofN 318) .done) .done .done), .stCase 318⟩
/-- rfc5424/builder.go:4063 -/
def stCase318 : K × Lbl := ⟨.ifElse (.and (.cmp .le (.lit 33) .byte) (.cmp .le .byte (.lit 126))) (.goto (.st 319) .done) .done (.goto (.st 0) .done), .st 319⟩
/-- rfc5424/builder.go:4068 -/
def st319 : K × Lbl := ⟨.stmt .incP (.ifElse .pEqPe (.goto (.testEofN 319) .done) .done .done), .stCase 319⟩
/-- rfc5424/builder.go:4072 -/
def stCase319 : K × Lbl := ⟨.ifElse (.and (.cmp .le (.lit 33) .byte) (.cmp .le .byte (.lit 126))) (.goto (.st 320) .done) .done (.goto (.st 0) .done), .st 320⟩
/-- rfc5424/builder.go:4077 -/
def st320 : K × Lbl := ⟨.stmt .incP (.ifElse .pEqPe (.goto (.testEofN 320) .done) .done .done), .stCase 320⟩
/-- rfc5424/builder.go:4081 -/
def stCase320 : K × Lbl := ⟨.ifElse (.and (.cmp .le (.lit 33) .byte) (.cmp .le .byte (.lit 126))) (.goto (.st 321) .done) .done (.goto (.st 0) .done), .st 321⟩
/-- rfc5424/builder.go:4086 -/
def st321 : K × Lbl := ⟨.stmt .incP (.ifElse .pEqPe (.goto (.testEofN 321) .done) .done .done), .stCase 321⟩
/-- rfc5424/builder.go:4090 -/
def stCase321 : K × Lbl := ⟨.ifElse (.and (.cmp .le (.lit 33) .byte) (.cmp .le .byte (.lit 126))) (.goto (.st 322) .done) .done (.goto (.st 0) .done), .st 322⟩
/-- rfc5424/builder.go:4095 -/
def st322 : K × Lbl := ⟨.stmt .incP (.ifElse .pEqPe (.goto (.testEofN 322) .done) .done .done), .stCase 322⟩
/-- rfc5424/builder.go:4099 -/
def stCase322 : K × Lbl := ⟨.ifElse (.and (.cmp .le (.lit 33) .byte) (.cmp .le .byte (.lit 126))) (.goto (.st 323) .done) .done (.goto (.st 0) .done), .st 323⟩
/-- rfc5424/builder.go:4104 -/
def st323 : K × Lbl := ⟨.stmt .incP (.ifElse .pEqPe (.goto (.testEofN 323) .done) .done .done), .stCase 323⟩
/-- rfc5424/builder.go:4108 -/
def stCase323 : K × Lbl := ⟨.ifElse (.and (.cmp .le (.lit 33) .byte) (.cmp .le .byte (.lit 126))) (.goto (.st 324) .done) .done (.goto (.st 0) .done), .st 324⟩
/-- rfc5424/builder.go:4113 -/
def st324 : K × Lbl := ⟨.stmt .incP (.ifElse .pEqPe (.goto (.testEofN 324) .done) .done .done), .stCase 324⟩
/-- rfc5424/builder.go:4117 -/
def stCase324 : K × Lbl := ⟨.ifElse (.and (.cmp .le (.lit 33) .byte) (.cmp .le .byte (.lit 126))) (.goto (.st 325) .done) .done (.goto (.st 0) .done), .st 325⟩
/-- rfc5424/builder.go:4122 -/
def st325 : K × Lbl := ⟨.stmt .incP (.ifElse .pEqPe (.goto (.testEofN 325) .done) .done .done), .stCase 325⟩
/-- rfc5424/builder.go:4126 -/
def stCase325 : K × Lbl := ⟨.ifElse (.and (.cmp .le (.lit 33) .byte) (.cmp .le .byte (.lit 126))) (.goto (.st 326) .done) .done (.goto (.st 0) .done), .st 326⟩
/-- rfc5424/builder.go:4131 -/
def st326 : K × Lbl := ⟨.stmt .incP (.ifElse .pEqPe (.goto (.testEofN 326) .done) .done .done), .stCase 326⟩
/-- rfc5424/builder.go:4135 -/
def stCase326 : K × Lbl := ⟨.ifElse (.and (.cmp .le (.lit 33) .byte) (.cmp .le .byte (.lit 126))) (.goto (.st 327) .done) .done (.goto (.st 0) .done), .st 327⟩
/-- rfc5424/builder.go:4140 -/
def st327 : K × Lbl := ⟨.stmt .incP (.ifElse .pEqPe (.goto (.testEofN 327) .done) .done .done), .stCase 327⟩
/-- rfc5424/builder.go:4144 -/
def stCase327 : K × Lbl := ⟨.ifElse (.and (.cmp .le (.lit 33) .byte) (.cmp .le .byte (.lit 126))) (.goto (.st 328) .done) .done (.goto (.st 0) .done), .st 328⟩
/-- rfc5424/builder.go:4149 -/
def st328 : K × Lbl := ⟨.stmt .incP (.ifElse .pEqPe (.goto (.testEofN 328) .done) .done .done), .stCase 328⟩
/-- rfc5424/builder.go:4153 -/
def stCase328 : K × Lbl := ⟨.ifElse (.and (.cmp .le (.lit 33) .byte) (.cmp .le .byte (.lit 126))) (.goto (.st 329) .done) .done (.goto (.st 0) .done), .st 329⟩
/-- rfc5424/builder.go:4158 -/
def st329 : K × Lbl := ⟨.stmt .incP (.ifElse .pEqPe (.goto (.testEofN 329) .done) .done .done), .stCase 329⟩
/-- rfc5424/builder.go:4162 -/
def stCase329 : K × Lbl := ⟨.ifElse (.and (.cmp .le (.lit 33) .byte) (.cmp .le .byte (.lit 126))) (.goto (.st 330) .done) .done (.goto (.st 0) .done), .st 330⟩
/-- rfc5424/builder.go:4167 -/
def st330 : K × Lbl := ⟨.stmt .incP (.ifElse .pEqPe (.goto (.testEofN 330) .done) .done .done), .stCase 330⟩
/-- rfc5424/builder.go:4171 -/
def stCase330 : K × Lbl := ⟨.ifElse (.and (.cmp .le (.lit 33) .byte) (.cmp .le .byte (.lit 126))) (.goto (.st 331) .done) .done (.goto (.st 0) .done), .st 331⟩
/-- rfc5424/builder.go:4176 -/
def st331 : K × Lbl := ⟨.stmt .incP (.ifElse .pEqPe (.goto (.testEofN 331) .done) .done .done), .stCase 331⟩
/-- rfc5424/builder.go:4180 -/
def stCase331 : K × Lbl := ⟨.ifElse (.and (.cmp .le (.lit 33) .byte) (.cmp .le .byte (.lit 126))) (.goto (.st 332) .done) .done (.goto (.st 0) .done), .st 332⟩
/-- rfc5424/builder.go:4185 -/
def st332 : K × Lbl := ⟨.stmt .incP (.ifElse .pEqPe (.goto (.testEofN 332) .done) .done .done), .stCase 332⟩
/-- rfc5424/builder.go:4189 -/
def stCase332 : K × Lbl := ⟨.ifElse (.and (.cmp .le (.lit 33) .byte) (.cmp .le .byte (.lit 126))) (.goto (.st 333) .done) .done (.goto (.st 0) .done), .st 333⟩
/-- rfc5424/builder.go:4194 -/
def st333 : K × Lbl := ⟨.stmt .incP (.ifElse .pEqPe (.goto (.testEofN 333) .done) .done .done), .stCase 333⟩
/-- rfc5424/builder.go:4198 -/
def stCase333 : K × Lbl := ⟨.ifElse (.and (.cmp .le (.lit 33) .byte) (.cmp .le .byte (.lit 126))) (.goto (.st 334) .done) .done (.goto (.st 0) .done), .st 334⟩
/-- rfc5424/builder.go:4203 -/
def st334 : K × Lbl := ⟨.stmt .incP (.ifElse .pEqPe (.goto (.testEofN 334) .done) .done .done), .stCase 334⟩
/-- rfc5424/builder.go:4207 -/
def stCase334 : K × Lbl := ⟨.ifElse (.and (.cmp .le (.lit 33) .byte) (.cmp .le .byte (.lit 126))) (.goto (.st 335) .done) .done (.goto (.st 0) .done), .st 335⟩
/-- rfc5424/builder.go:4212 -/
def st335 : K × Lbl := ⟨.stmt .incP (.ifElse .pEqPe (.goto (.testEofN 335) .done) .done .done), .stCase 335⟩
/-- rfc5424/builder.go:4216 -/
def stCase335 : K × Lbl := ⟨.ifElse (.and (.cmp .le (.lit 33) .byte) (.cmp .le .byte (.lit 126))) (.goto (.st 336) .done) .done (.goto (.st 0) .done), .st 336⟩
/-- rfc5424/builder.go:4221 -/
def st336 : K × Lbl := ⟨.stmt .incP (.ifElse .pEqPe (.goto (.testEofN 336) .done) .done .done), .stCase 336⟩
/-- rfc5424/builder.go:4225 -/
def stCase336 : K × Lbl := ⟨.ifElse (.and (.cmp .le (.lit 33) .byte) (.cmp .le .byte (.lit 126))) (.goto (.st 337) .done) .done (.goto (.st 0) .done), .st 337⟩
/-- rfc5424/builder.go:4230 -/
def st337 : K × Lbl := ⟨.stmt .incP (.ifElse .pEqPe (.goto (.testEofN 337) .done) .done .done), .stCase 337⟩
/-- rfc5424/builder.go:4234 -/
def stCase337 : K × Lbl := ⟨.ifElse (.and (.cmp .le (.lit 33) .byte) (.cmp .le .byte (.lit 126))) (.goto (.st 338) .done) .done (.goto (.st 0) .done), .st 338⟩
/-- rfc5424/builder.go:4239 -/
def st338 : K × Lbl := ⟨.stmt .incP (.ifElse .pEqPe (.goto (.testEofN 338) .done) .done .done), .stCase 338⟩
/-- rfc5424/builder.go:4243 -/
def stCase338 : K × Lbl := ⟨.ifElse (.and (.cmp .le (.lit 33) .byte) (.cmp .le .byte (.lit 126))) (.goto (.st 339) .done) .done (.goto (.st 0) .done), .st 339⟩
/-- rfc5424/builder.go:4248 -/
def st339 : K × Lbl := ⟨.stmt .incP (.ifElse .pEqPe (.goto (.testEofN 339) .done) .done .done), .stCase 339⟩
/-- rfc5424/builder.go:4252 -/
def stCase339 : K × Lbl := ⟨.ifElse (.and (.cmp .le (.lit 33) .byte) (.cmp .le .byte (.lit 126))) (.goto (.st 340) .done) .done (.goto (.st 0) .done), .st 340⟩
/-- rfc5424/builder.go:4257 -/
def st340 : K × Lbl := ⟨.stmt .incP (.ifElse .pEqPe (.goto (.testEofN 340) .done) .done .done), .stCase 340⟩
/-- rfc5424/builder.go:4261 -/
def stCase340 : K × Lbl := ⟨.ifElse (.and (.cmp .le (.lit 33) .byte) (.cmp .le .byte (.lit 126))) (.goto (.st 341) .done) .done (.goto (.st 0) .done), .st 341⟩
/-- rfc5424/builder.go:4266 -/
def st341 : K × Lbl := ⟨.stmt .incP (.ifElse .pEqPe (.goto (.testEofN 341) .done) .done .done), .stCase 341⟩
/-- rfc5424/builder.go:4270 -/
def stCase341 : K × Lbl := ⟨.ifElse (.and (.cmp .le (.lit 33) .byte) (.cmp .le .byte (.lit 126))) (.goto (.st 342) .done) .done (.goto (.st 0) .done), .st 342⟩
/-- rfc5424/builder.go:4275 -/
def st342 : K × Lbl := ⟨.stmt .incP (.ifElse .pEqPe (.goto (.testEofN 342) .done) .done .done), .stCase 342⟩
/-- rfc5424/builder.go:4279 -/
def stCase342 : K × Lbl := ⟨.ifElse (.and (.cmp .le (.lit 33) .byte) (.cmp .le .byte (.lit 126))) (.goto (.st 343) .done) .done (.goto (.st 0) .done), .st 343⟩
/-- rfc5424/builder.go:4284 -/
def st343 : K × Lbl := ⟨.stmt .incP (.ifElse .pEqPe (.goto (.testEofN 343) .done) .done .done), .stCase 343⟩
/-- rfc5424/builder.go:4288 -/
def stCase343 : K × Lbl := ⟨.ifElse (.and (.cmp .le (.lit 33) .byte) (.cmp .le .byte (.lit 126))) (.goto (.st 344) .done) .done (.goto (.st 0) .done), .st 344⟩
/-- rfc5424/builder.go:4293 -/
def st344 : K × Lbl := ⟨.stmt .incP (.ifElse .pEqPe (.goto (.testEofN 344) .done) .done .done), .stCase 344⟩
/-- rfc5424/builder.go:4297 -/
def stCase344 : K × Lbl := ⟨.ifElse (.and (.cmp .le (.lit 33) .byte) (.cmp .le .byte (.lit 126))) (.goto (.st 345) .done) .done (.goto (.st 0) .done), .st 345⟩
/-- rfc5424/builder.go:4302 -/
def st345 : K × Lbl := ⟨.stmt .incP (.ifElse .pEqPe (.goto (.testEofN 345) .done) .done .done), .stCase 345⟩
/-- rfc5424/builder.go:4306 -/
def stCase345 : K × Lbl := ⟨.ifElse (.and (.cmp .le (.lit 33) .byte) (.cmp .le .byte (.lit 126))) (.goto (.st 346) .done) .done (.goto (.st 0) .done), .st 346⟩
/-- rfc5424/builder.go:4311 -/
def st346 : K × Lbl := ⟨.stmt .incP (.ifElse .pEqPe (.goto (.testEofN 346) .done) .done .done), .stCase 346⟩
/-- rfc5424/builder.go:4315 -/
def stCase346 : K × Lbl := ⟨.ifElse (.and (.cmp .le (.lit 33) .byte) (.cmp .le .byte (.lit 126))) (.goto (.st 347) .done) .done (.goto (.st 0) .done), .st 347⟩
/-- rfc5424/builder.go:4320 -/
def st347 : K × Lbl := ⟨.stmt .incP (.ifElse .pEqPe (.goto (.testEofN 347) .done) .done .done), .stCase 347⟩
/-- rfc5424/builder.go:4324 -/
def stCase347 : K × Lbl := ⟨.ifElse (.and (.cmp .le (.lit 33) .byte) (.cmp .le .byte (.lit 126))) (.goto (.st 348) .done) .done (.goto (.st 0) .done), .st 348⟩
/-- rfc5424/builder.go:4329 -/
def st348 : K × Lbl := ⟨.stmt .incP (.ifElse .pEqPe (.goto (.testEofN 348) .done) .done .done), .stCase 348⟩
/-- rfc5424/builder.go:4333 -/
def stCase348 : K × Lbl := ⟨.ifElse (.and (.cmp .le (.lit 33) .byte) (.cmp .le .byte (.lit 126))) (.goto (.st 349) .done) .done (.goto (.st 0) .done), .st 349⟩
/-- rfc5424/builder.go:4338 -/
def st349 : K × Lbl := ⟨.stmt .incP (.ifElse .pEqPe (.goto (.testEofN 349) .done) .done .done), .stCase 349⟩
/-- rfc5424/builder.go:4342 -/
def stCase349 : K × Lbl := ⟨.ifElse (.and (.cmp .le (.lit 33) .byte) (.cmp .le .byte (.lit 126))) (.goto (.st 350) .done) .done (.goto (.st 0) .done), .st 350⟩
/-- rfc5424/builder.go:4347 -/
def st350 : K × Lbl := ⟨.stmt .incP (.ifElse .pEqPe (.goto (.testEofN 350) .done) .done .done), .stCase 350⟩
/-- rfc5424/builder.go:4351 -/
def stCase350 : K × Lbl := ⟨.ifElse (.and (.cmp .le (.lit 33) .byte) (.cmp .le .byte (.lit 126))) (.goto (.st 351) .done) .done (.goto (.st 0) .done), .st 351⟩
/-- rfc5424/builder.go:4356 -/
def st351 : K × Lbl := ⟨.stmt .incP (.ifElse .pEqPe (.goto (.testEofN 351) .done) .done .done), .stCase 351⟩
/-- rfc5424/builder.go:4360 -/
def stCase351 : K × Lbl := ⟨.ifElse (.and (.cmp .le (.lit 33) .byte) (.cmp .le .byte (.lit 126))) (.goto (.st 352) .done) .done (.goto (.st 0) .done), .st 352⟩
/-- rfc5424/builder.go:4365 -/
def st352 : K × Lbl := ⟨.stmt .incP (.ifElse .pEqPe (.goto (.testEofN 352) .done) .done .done), .stCase 352⟩
/-- rfc5424/builder.go:4369 -/
def stCase352 : K × Lbl := ⟨.ifElse (.and (.cmp .le (.lit 33) .byte) (.cmp .le .byte (.lit 126))) (.goto (.st 353) .done) .done (.goto (.st 0) .done), .st 353⟩
/-- rfc5424/builder.go:4374 -/
def st353 : K × Lbl := ⟨.stmt .incP (.ifElse .pEqPe (.goto (.testEofN 353) .done) .done .done), .stCase 353⟩
/-- rfc5424/builder.go:4378 -/
def stCase353 : K × Lbl := ⟨.ifElse (.and (.cmp .le (.lit 33) .byte) (.cmp .le .byte (.lit 126))) (.goto (.st 354) .done) .done (.goto (.st 0) .done), .st 354⟩
/-- rfc5424/builder.go:4383 -/
def st354 : K × Lbl := ⟨.stmt .incP (.ifElse .pEqPe (.goto (.testEofN 354) .done) .done .done), .stCase 354⟩
/-- rfc5424/builder.go:4387 -/
def stCase354 : K × Lbl := ⟨.ifElse (.and (.cmp .le (.lit 33) .byte) (.cmp .le .byte (.lit 126))) (.goto (.st 355) .done) .done (.goto (.st 0) .done), .st 355⟩
/-- rfc5424/builder.go:4392 -/
def st355 : K × Lbl := ⟨.stmt .incP (.ifElse .pEqPe (.goto (.testEofN 355) .done) .done .done), .stCase 355⟩
/-- rfc5424/builder.go:4396 -/
def stCase355 : K × Lbl := ⟨.ifElse (.and (.cmp .le (.lit 33) .byte) (.cmp .le .byte (.lit 126))) (.goto (.st 356) .done) .done (.goto (.st 0) .done), .st 356⟩
/-- rfc5424/builder.go:4401 -/
def st356 : K × Lbl := ⟨.stmt .incP (.ifElse .pEqPe (.goto (.testEofN 356) .done) .done .done), .stCase 356⟩
/-- rfc5424/builder.go:4405 -/
def stCase356 : K × Lbl := ⟨.ifElse (.and (.cmp .le (.lit 33) .byte) (.cmp .le .byte (.lit 126))) (.goto (.st 357) .done) .done (.goto (.st 0) .done), .st 357⟩
/-- rfc5424/builder.go:4410 -/
def st357 : K × Lbl := ⟨.stmt .incP (.ifElse .pEqPe (.goto (.testEofN 357) .done) .done .done), .stCase 357⟩
/-- rfc5424/builder.go:4414 -/
def stCase357 : K × Lbl := ⟨.goto (.st 0) .done, .stCase 40⟩
/-- rfc5424/builder.go:4416 -/
def stCase40 : K × Lbl := ⟨.ifElse (.and (.cmp .le (.lit 33) .byte) (.cmp .le .byte (.lit 126))) (.goto (.tr 40) .done) .done (.goto (.st 0) .done), .tr 40⟩
/-- rfc5424/builder.go:4421 -/
def tr40 : K × Lbl := ⟨.stmt (.prim .pbP) (.goto (.st 358) .done), .st 358⟩
/-- rfc5424/builder.go:4426 -/
def st358 : K × Lbl := ⟨.stmt .incP (.ifElse .pEqPe (.goto (.testEofN 358) .done) .done .done), .stCase 358⟩
/-- rfc5424/builder.go:4430 -/
def stCase358 : K × Lbl := ⟨.ifElse (.and (.cmp .le (.lit 33) .byte) (.cmp .le .byte (.lit 126))) (.goto (.st 359) .done) .done (.goto (.st 0) .done), .st 359⟩
/-- rfc5424/builder.go:4435 -/
def st359 : K × Lbl := ⟨.stmt .incP (.ifElse .pEqPe (.goto (.testEofN 359) .done) .done .done), .stCase 359⟩
/-- rfc5424/builder.go:4439 -/
def stCase359 : K × Lbl := ⟨.ifElse (.and (.cmp .le (.lit 33) .byte) (.cmp .le .byte (.lit 126))) (.goto (.st 360) .done) .done (.goto (.st 0) .done), .st 360⟩
/-- rfc5424/builder.go:4444 -/
def st360 : K × Lbl := ⟨.stmt .incP (.ifElse .pEqPe (.goto (.testEofN 360) .done) .done .done), .stCase 360⟩
/-- rfc5424/builder.go:4448 -/
def stCase360 : K × Lbl := ⟨.ifElse (.and (.cmp .le (.lit 33) .byte) (.cmp .le .byte (.lit 126))) (.goto (.st 361) .done) .done (.goto (.st 0) .done), .st 361⟩
/-- rfc5424/builder.go:4453 -/
def st361 : K × Lbl := ⟨.stmt .incP (.ifElse .pEqPe (.goto (.testEofN 361) .done) .done .done), .stCase 361⟩
/-- rfc5424/builder.go:4457 -/
def stCase361 : K × Lbl := ⟨.ifElse (.and (.cmp .le (.lit 33) .byte) (.cmp .le .byte (.lit 126))) (.goto (.st 362) .done) .done (.goto (.st 0) .done), .st 362⟩
/-- rfc5424/builder.go:4462 -/
def st362 : K × Lbl := ⟨.stmt .incP (.ifElse .pEqPe (.goto (.testEofN 362) .done) .done .done), .stCase 362⟩
/-- rfc5424/builder.go:4466 -/
def stCase362 : K × Lbl := ⟨.ifElse (.and (.cmp .le (.lit 33) .byte) (.cmp .le .byte (.lit 126))) (.goto (.st 363) .done) .done (.goto (.st 0) .done), .st 363⟩
/-- rfc5424/builder.go:4471 -/
def st363 : K × Lbl := ⟨.stmt .incP (.ifElse .pEqPe (.goto (.testEofN 363) .done) .done .done), .stCase 363⟩
/-- rfc5424/builder.go:4475 -/
def stCase363 : K × Lbl := ⟨.ifElse (.and (.cmp .le (.lit 33) .byte) (.cmp .le .byte (.lit 126))) (.goto (.st 364) .done) .done (.goto (.st 0) .done), .st 364⟩
/-- rfc5424/builder.go:4480 -/
def st364 : K × Lbl := ⟨.stmt .incP (.ifElse .pEqPe (.goto (.testEofN 364) .done) .done .done), .stCase 364⟩
/-- rfc5424/builder.go:4484 -/
def stCase364 : K × Lbl := ⟨.ifElse (.and (.cmp .le (.lit 33) .byte) (.cmp .le .byte (.lit 126))) (.goto (.st 365) .done) .done (.goto (.st 0) .done), .st 365⟩
/-- rfc5424/builder.go:4489 -/
def st365 : K × Lbl := ⟨.stmt .incP (.ifElse .pEqPe (.goto (.testEofN 365) .done) .done .done), .stCase 365⟩
/-- rfc5424/builder.go:4493 -/
def stCase365 : K × Lbl := ⟨.ifElse (.and (.cmp .le (.lit 33) .byte) (.cmp .le .byte (.lit 126))) (.goto (.st 366) .done) .done (.goto (.st 0) .done), .st 366⟩
/-- rfc5424/builder.go:4498 -/
def st366 : K × Lbl := ⟨.stmt .incP (.ifElse .pEqPe (.goto (.testEofN 366) .done) .done .done), .stCase 366⟩
/-- rfc5424/builder.go:4502 -/
def stCase366 : K × Lbl := ⟨.ifElse (.and (.cmp .le (.lit 33) .byte) (.cmp .le .byte (.lit 126))) (.goto (.st 367) .done) .done (.goto (.st 0) .done), .st 367⟩
/-- rfc5424/builder.go:4507 -/
def st367 : K × Lbl := ⟨.stmt .incP (.ifElse .pEqPe (.goto (.testEofN 367) .done) .done .done), .stCase 367⟩
/-- rfc5424/builder.go:4511 -/
def stCase367 : K × Lbl := ⟨.ifElse (.and (.cmp .le (.lit 33) .byte) (.cmp .le .byte (.lit 126))) (.goto (.st 368) .done) .done (.goto (.st 0) .done), .st 368⟩
/-- rfc5424/builder.go:4516 -/
def st368 : K × Lbl := ⟨.stmt .incP (.ifElse .pEqPe (.goto (.testEofN 368) .done) .done .done), .stCase 368⟩
/-- rfc5424/builder.go:4520 -/
def stCase368 : K × Lbl := ⟨.ifElse (.and (.cmp .le (.lit 33) .byte) (.cmp .le .byte (.lit 126))) (.goto (.st 369) .done) .done (.goto (.st 0) .done), .st 369⟩
/-- rfc5424/builder.go:4525 -/
def st369 : K × Lbl := ⟨.stmt .incP (.ifElse .pEqPe (.goto (.testEofN 369) .done) .done .done), .stCase 369⟩
/-- rfc5424/builder.go:4529 -/
def stCase369 : K × Lbl := ⟨.ifElse (.and (.cmp .le (.lit 33) .byte) (.cmp .le .byte (.lit 126))) (.goto (.st 370) .done) .done (.goto (.st 0) .done), .st 370⟩
/-- rfc5424/builder.go:4534 -/
def st370 : K × Lbl := ⟨.stmt .incP (.ifElse .pEqPe (.goto (.testEofN 370) .done) .done .done), .stCase 370⟩
/-- rfc5424/builder.go:4538 -/
def stCase370 : K × Lbl := ⟨.ifElse (.and (.cmp .le (.lit 33) .byte) (.cmp .le .byte (.lit 126))) (.goto (.st 371) .done) .done (.goto (.st 0) .done), .st 371⟩
/-- rfc5424/builder.go:4543 -/
def st371 : K × Lbl := ⟨.stmt .incP (.ifElse .pEqPe (.goto (.testEofN 371) .done) .done .done), .stCase 371⟩
/-- rfc5424/builder.go:4547 -/
def stCase371 : K × Lbl := ⟨.ifElse (.and (.cmp .le (.lit 33) .byte) (.cmp .le .byte (.lit 126))) (.goto (.st 372) .done) .done (.goto (.st 0) .done), .st 372⟩
/-- rfc5424/builder.go:4552 -/
def st372 : K × Lbl := ⟨.stmt .incP (.ifElse .pEqPe (.goto (.testEofN 372) .done) .done .done), .stCase 372⟩
/-- rfc5424/builder.go:4556 -/
def stCase372 : K × Lbl := ⟨.ifElse (.and (.cmp .le (.lit 33) .byte) (.cmp .le .byte (.lit 126))) (.goto (.st 373) .done) .done (.goto (.st 0) .done), .st 373⟩
/-- rfc5424/builder.go:4561 -/
def st373 : K × Lbl := ⟨.stmt .incP (.ifElse .pEqPe (.goto (.testEofN 373) .done) .done .done), .stCase 373⟩
/-- rfc5424/builder.go:4565 -/
def stCase373 : K × Lbl := ⟨.ifElse (.and (.cmp .le (.lit 33) .byte) (.cmp .le .byte (.lit 126))) (.goto (.st 374) .done) .done (.goto (.st 0) .done), .st 374⟩
/-- rfc5424/builder.go:4570 -/
def st374 : K × Lbl := ⟨.stmt .incP (.ifElse .pEqPe (.goto (.testEofN 374) .done) .done .done), .stCase 374⟩
/-- rfc5424/builder.go:4574 -/
def stCase374 : K × Lbl := ⟨.ifElse (.and (.cmp .le (.lit 33) .byte) (.cmp .le .byte (.lit 126))) (.goto (.st 375) .done) .done (.goto (.st 0) .done), .st 375⟩
/-- rfc5424/builder.go:4579 -/
def st375 : K × Lbl := ⟨.stmt .incP (.ifElse .pEqPe (.goto (.testEofN 375) .done) .done .done), .stCase 375⟩
/-- rfc5424/builder.go:4583 -/
def stCase375 : K × Lbl := ⟨.ifElse (.and (.cmp .le (.lit 33) .byte) (.cmp .le .byte (.lit 126))) (.goto (.st 376) .done) .done (.goto (.st 0) .done), .st 376⟩
/-- rfc5424/builder.go:4588 -/
def st376 : K × Lbl := ⟨.stmt .incP (.ifElse .pEqPe (.goto (.testEofN 376) .done) .done .done), .stCase 376⟩
/-- rfc5424/builder.go:4592 -/
def stCase376 : K × Lbl := ⟨.ifElse (.and (.cmp .le (.lit 33) .byte) (.cmp .le .byte (.lit 126))) (.goto (.st 377) .done) .done (.goto (.st 0) .done), .st 377⟩
/-- rfc5424/builder.go:4597 -/
def st377 : K × Lbl := ⟨.stmt .incP (.ifElse .pEqPe (.goto (.testEofN 377) .done) .done .done), .stCase 377⟩
/-- rfc5424/builder.go:4601 -/
def stCase377 : K × Lbl := ⟨.ifElse (.and (.cmp .le (.lit 33) .byte) (.cmp .le .byte (.lit 126))) (.goto (.st 378) .done) .done (.goto (.st 0) .done), .st 378⟩
/-- rfc5424/builder.go:4606 -/
def st378 : K × Lbl := ⟨.stmt .incP (.ifElse .pEqPe (.goto (.testEofN 378) .done) .done .done), .stCase 378⟩
/-- rfc5424/builder.go:4610 -/
def stCase378 : K × Lbl := ⟨.ifElse (.and (.cmp .le (.lit 33) .byte) (.cmp .le .byte (.lit 126))) (.goto (.st 379) .done) .done (.goto (.st 0) .done), .st 379⟩
/-- rfc5424/builder.go:4615 -/
def st379 : K × Lbl := ⟨.stmt .incP (.ifElse .pEqPe (.goto (.testEofN 379) .done) .done .done), .stCase 379⟩
/-- rfc5424/builder.go:4619 -/
def stCase379 : K × Lbl := ⟨.ifElse (.and (.cmp .le (.lit 33) .byte) (.cmp .le .byte (.lit 126))) (.goto (.st 380) .done) .done (.goto (.st 0) .done), .st 380⟩
/-- rfc5424/builder.go:4624 -/
def st380 : K × Lbl := ⟨.stmt .incP (.ifElse .pEqPe (.goto (.testEofN 380) .done) .done .done), .stCase 380⟩
/-- rfc5424/builder.go:4628 -/
def stCase380 : K × Lbl := ⟨.ifElse (.and (.cmp .le (.lit 33) .byte) (.cmp .le .byte (.lit 126))) (.goto (.st 381) .done) .done (.goto (.st 0) .done), .st 381⟩
/-- rfc5424/builder.go:4633 -/
def st381 : K × Lbl := ⟨.stmt .incP (.ifElse .pEqPe (.goto (.testEofN 381) .done) .done .done), .stCase 381⟩
/-- rfc5424/builder.go:4637 -/
def stCase381 : K × Lbl := ⟨.ifElse (.and (.cmp .le (.lit 33) .byte) (.cmp .le .byte (.lit 126))) (.goto (.st 382) .done) .done (.goto (.st 0) .done), .st 382⟩
/-- rfc5424/builder.go:4642 -/
def st382 : K × Lbl := ⟨.stmt .incP (.ifElse .pEqPe (.goto (.testEofN 382) .done) .done .done), .stCase 382⟩
/-- rfc5424/builder.go:4646 -/
def stCase382 : K × Lbl := ⟨.ifElse (.and (.cmp .le (.lit 33) .byte) (.cmp .le .byte (.lit 126))) (.goto (.st 383) .done) .done (.goto (.st 0) .done), .st 383⟩
/-- rfc5424/builder.go:4651 -/
def st383 : K × Lbl := ⟨.stmt .incP (.ifElse .pEqPe (.goto (.testEofN 383) .done) .done .done), .stCase 383⟩
/-- rfc5424/builder.go:4655 -/
def stCase383 : K × Lbl := ⟨.ifElse (.and (.cmp .le (.lit 33) .byte) (.cmp .le .byte (.lit 126))) (.goto (.st 384) .done) .done (.goto (.st 0) .done), .st 384⟩
/-- rfc5424/builder.go:4660 -/
def st384 : K × Lbl := ⟨.stmt .incP (.ifElse .pEqPe (.goto (.testEofN 384) .done) .done .done), .stCase 384⟩
/-- rfc5424/builder.go:4664 -/
def stCase384 : K × Lbl := ⟨.ifElse (.and (.cmp .le (.lit 33) .byte) (.cmp .le .byte (.lit 126))) (.goto (.st 385) .done) .done (.goto (.st 0) .done), .st 385⟩
/-- rfc5424/builder.go:4669 -/
def st385 : K × Lbl := ⟨.stmt .incP (.ifElse .pEqPe (.goto (.testEofN 385) .done) .done .done), .stCase 385⟩
/-- rfc5424/builder.go:4673 -/
def stCase385 : K × Lbl := ⟨.ifElse (.and (.cmp .le (.lit 33) .byte) (.cmp .le .byte (.lit 126))) (.goto (.st 386) .done) .done (.goto (.st 0) .done), .st 386⟩
/-- rfc5424/builder.go:4678 -/
def st386 : K × Lbl := ⟨.stmt .incP (.ifElse .pEqPe (.goto (.testEofN 386) .done) .done .done), .stCase 386⟩
/-- rfc5424/builder.go:4682 -/
def stCase386 : K × Lbl := ⟨.ifElse (.and (.cmp .le (.lit 33) .byte) (.cmp .le .byte (.lit 126))) (.goto (.st 387) .done) .done (.goto (.st 0) .done), .st 387⟩
/-- rfc5424/builder.go:4687 -/
def st387 : K × Lbl := ⟨.stmt .incP (.ifElse .pEqPe (.goto (.testEofN 387) .done) .done .done), .stCase 387⟩
/-- rfc5424/builder.go:4691 -/
def stCase387 : K × Lbl := ⟨.ifElse (.and (.cmp .le (.lit 33) .byte) (.cmp .le .byte (.lit 126))) (.goto (.st 388) .done) .done (.goto (.st 0) .done), .st 388⟩
/-- rfc5424/builder.go:4696 -/
def st388 : K × Lbl := ⟨.stmt .incP (.ifElse .pEqPe (.goto (.testEofN 388) .done) .done .done), .stCase 388⟩
/-- rfc5424/builder.go:4700 -/
def stCase388 : K × Lbl := ⟨.ifElse (.and (.cmp .le (.lit 33) .byte) (.cmp .le .byte (.lit 126))) (.goto (.st 389) .done) .done (.goto (.st 0) .done), .st 389⟩
/-- rfc5424/builder.go:4705 -/
def st389 : K × Lbl := ⟨.stmt .incP (.ifElse .pEqPe (.goto (.testEofN 389) .done) .done .done), .stCase 389⟩
/-- rfc5424/builder.go:4709 -/
def stCase389 : K × Lbl := ⟨.ifElse (.and (.cmp .le (.lit 33) .byte) (.cmp .le .byte (.lit 126))) (.goto (.st 390) .done) .done (.goto (.st 0) .done), .st 390⟩
/-- rfc5424/builder.go:4714 -/
def st390 : K × Lbl := ⟨.stmt .incP (.ifElse .pEqPe (.goto (.testEofN 390) .done) .done .done), .stCase 390⟩
/-- rfc5424/builder.go:4718 -/
def stCase390 : K × Lbl := ⟨.ifElse (.and (.cmp .le (.lit 33) .byte) (.cmp .le .byte (.lit 126))) (.goto (.st 391) .done) .done (.goto (.st 0) .done), .st 391⟩
/-- rfc5424/builder.go:4723 -/
def st391 : K × Lbl := ⟨.stmt .incP (.ifElse .pEqPe (.goto (.testEofN 391) .done) .done .done), .stCase 391⟩
/-- rfc5424/builder.go:4727 -/
def stCase391 : K × Lbl := ⟨.ifElse (.and (.cmp .le (.lit 33) .byte) (.cmp .le .byte (.lit 126))) (.goto (.st 392) .done) .done (.goto (.st 0) .done), .st 392⟩
/-- rfc5424/builder.go:4732 -/
def st392 : K × Lbl := ⟨.stmt .incP (.ifElse .pEqPe (.goto (.testEofN 392) .done) .done .done), .stCase 392⟩
/-- rfc5424/builder.go:4736 -/
def stCase392 : K × Lbl := ⟨.ifElse (.and (.cmp .le (.lit 33) .byte) (.cmp .le .byte (.lit 126))) (.goto (.st 393) .done) .done (.goto (.st 0) .done), .st 393⟩
/-- rfc5424/builder.go:4741 -/
def st393 : K × Lbl := ⟨.stmt .incP (.ifElse .pEqPe (.goto (.testEofN 393) .done) .done .done), .stCase 393⟩
/-- rfc5424/builder.go:4745 -/
def stCase393 : K × Lbl := ⟨.ifElse (.and (.cmp .le (.lit 33) .byte) (.cmp .le .byte (.lit 126))) (.goto (.st 394) .done) .done (.goto (.st 0) .done), .st 394⟩
/-- rfc5424/builder.go:4750 -/
def st394 : K × Lbl := ⟨.stmt .incP (.ifElse .pEqPe (.goto (.testEofN 394) .done) .done .done), .stCase 394⟩
/-- rfc5424/builder.go:4754 -/
def stCase394 : K × Lbl := ⟨.ifElse (.and (.cmp .le (.lit 33) .byte) (.cmp .le .byte (.lit 126))) (.goto (.st 395) .done) .done (.goto (.st 0) .done), .st 395⟩
/-- rfc5424/builder.go:4759 -/
def st395 : K × Lbl := ⟨.stmt .incP (.ifElse .pEqPe (.goto (.testEofN 395) .done) .done .done), .stCase 395⟩
/-- rfc5424/builder.go:4763 -/
def stCase395 : K × Lbl := ⟨.ifElse (.and (.cmp .le (.lit 33) .byte) (.cmp .le .byte (.lit 126))) (.goto (.st 396) .done) .done (.goto (.st 0) .done), .st 396⟩
/-- rfc5424/builder.go:4768 -/
def st396 : K × Lbl := ⟨.stmt .incP (.ifElse .pEqPe (.goto (.testEofN 396) .done) .done .done), .stCase 396⟩
/-- rfc5424/builder.go:4772 -/
def stCase396 : K × Lbl := ⟨.ifElse (.and (.cmp .le (.lit 33) .byte) (.cmp .le .byte (.lit 126))) (.goto (.st 397) .done) .done (.goto (.st 0) .done), .st 397⟩
/-- rfc5424/builder.go:4777 -/
def st397 : K × Lbl := ⟨.stmt .incP (.ifElse .pEqPe (.goto (.testEofN 397) .done) .done .done), .stCase 397⟩
/-- rfc5424/builder.go:4781 -/
def stCase397 : K × Lbl := ⟨.ifElse (.and (.cmp .le (.lit 33) .byte) (.cmp .le .byte (.lit 126))) (.goto (.st 398) .done) .done (.goto (.st 0) .done), .st 398⟩
/-- rfc5424/builder.go:4786 -/
def st398 : K × Lbl := ⟨.stmt .incP (.ifElse .pEqPe (.goto (.testEofN 398) .done) .done .done), .stCase 398⟩
/-- rfc5424/builder.go:4790 -/
def stCase398 : K × Lbl := ⟨.ifElse (.and (.cmp .le (.lit 33) .byte) (.cmp .le .byte (.lit 126))) (.goto (.st 399) .done) .done (.goto (.st 0) .done), .st 399⟩
/-- rfc5424/builder.go:4795 -/
def st399 : K × Lbl := ⟨.stmt .incP (.ifElse .pEqPe (.goto (.testEofN 399) .done) .done .done), .stCase 399⟩
/-- rfc5424/builder.go:4799 -/
def stCase399 : K × Lbl := ⟨.ifElse (.and (.cmp .le (.lit 33) .byte) (.cmp .le .byte (.lit 126))) (.goto (.st 400) .done) .done (.goto (.st 0) .done), .st 400⟩
/-- rfc5424/builder.go:4804 -/
def st400 : K × Lbl := ⟨.stmt .incP (.ifElse .pEqPe (.goto (.testEofN 400) .done) .done .done), .stCase 400⟩
/-- rfc5424/builder.go:4808 -/
def stCase400 : K × Lbl := ⟨.ifElse (.and (.cmp .le (.lit 33) .byte) (.cmp .le .byte (.lit 126))) (.goto (.st 401) .done) .done (.goto (.st 0) .done), .st 401⟩
/-- rfc5424/builder.go:4813 -/
def st401 : K × Lbl := ⟨.stmt .incP (.ifElse .pEqPe (.goto (.testEofN 401) .done) .done .done), .stCase 401⟩
/-- rfc5424/builder.go:4817 -/
def stCase401 : K × Lbl := ⟨.ifElse (.and (.cmp .le (.lit 33) .byte) (.cmp .le .byte (.lit 126))) (.goto (.st 402) .done) .done (.goto (.st 0) .done), .st 402⟩
/-- rfc5424/builder.go:4822 -/
def st402 : K × Lbl := ⟨.stmt .incP (.ifElse .pEqPe (.goto (.testEofN 402) .done) .done .done), .stCase 402⟩
/-- rfc5424/builder.go:4826 -/
def stCase402 : K × Lbl := ⟨.ifElse (.and (.cmp .le (.lit 33) .byte) (.cmp .le .byte (.lit 126))) (.goto (.st 403) .done) .done (.goto (.st 0) .done), .st 403⟩
/-- rfc5424/builder.go:4831 -/
def st403 : K × Lbl := ⟨.stmt .incP (.ifElse .pEqPe (.goto (.testEofN 403) .done) .done .done), .stCase 403⟩
/-- rfc5424/builder.go:4835 -/
def stCase403 : K × Lbl := ⟨.ifElse (.and (.cmp .le (.lit 33) .byte) (.cmp .le .byte (.lit 126))) (.goto (.st 404) .done) .done (.goto (.st 0) .done), .st 404⟩
/-- rfc5424/builder.go:4840 -/
def st404 : K × Lbl := ⟨.stmt .incP (.ifElse .pEqPe (.goto (.testEofN 404) .done) .done .done), .stCase 404⟩
/-- rfc5424/builder.go:4844 -/
def stCase404 : K × Lbl := ⟨.ifElse (.and (.cmp .le (.lit 33) .byte) (.cmp .le .byte (.lit 126))) (.goto (.st 405) .done) .done (.goto (.st 0) .done), .st 405⟩
/-- rfc5424/builder.go:4849 -/
def st405 : K × Lbl := ⟨.stmt .incP (.ifElse .pEqPe (.goto (.testEofN 405) .done) .done .done), .stCase 405⟩
/-- rfc5424/builder.go:4853 -/
def stCase405 : K × Lbl := ⟨.ifElse (.and (.cmp .le (.lit 33) .byte) (.cmp .le .byte (.lit 126))) (.goto (.st 406) .done) .done (.goto (.st 0) .done), .st 406⟩
/-- rfc5424/builder.go:4858 -/
def st406 : K × Lbl := ⟨.stmt .incP (.ifElse .pEqPe (.goto (.testEofN 406) .done) .done .done), .stCase 406⟩
/-- rfc5424/builder.go:4862 -/
def stCase406 : K × Lbl := ⟨.ifElse (.and (.cmp .le (.lit 33) .byte) (.cmp .le .byte (.lit 126))) (.goto (.st 407) .done) .done (.goto (.st 0) .done), .st 407⟩
/-- rfc5424/builder.go:4867 -/
def st407 : K × Lbl := ⟨.stmt .incP (.ifElse .pEqPe (.goto (.testEofN 407) .done) .done .done), .stCase 407⟩
/-- rfc5424/builder.go:4871 -/
def stCase407 : K × Lbl := ⟨.ifElse (.and (.cmp .le (.lit 33) .byte) (.cmp .le .byte (.lit 126))) (.goto (.st 408) .done) .done (.goto (.st 0) .done), .st 408⟩
/-- rfc5424/builder.go:4876 -/
def st408 : K × Lbl := ⟨.stmt .incP (.ifElse .pEqPe (.goto (.testEofN 408) .done) .done .done), .stCase 408⟩
/-- rfc5424/builder.go:4880 -/
def stCase408 : K × Lbl := ⟨.ifElse (.and (.cmp .le (.lit 33) .byte) (.cmp .le .byte (.lit 126))) (.goto (.st 409) .done) .done (.goto (.st 0) .done), .st 409⟩
/-- rfc5424/builder.go:4885 -/
def st409 : K × Lbl := ⟨.stmt .incP (.ifElse .pEqPe (.goto (.testEofN 409) .done) .done .done), .stCase 409⟩
/-- rfc5424/builder.go:4889 -/
def stCase409 : K × Lbl := ⟨.ifElse (.and (.cmp .le (.lit 33) .byte) (.cmp .le .byte (.lit 126))) (.goto (.st 410) .done) .done (.goto (.st 0) .done), .st 410⟩
/-- rfc5424/builder.go:4894 -/
def st410 : K × Lbl := ⟨.stmt .incP (.ifElse .pEqPe (.goto (.testEofN 410) .done) .done .done), .stCase 410⟩
/-- rfc5424/builder.go:4898 -/
def stCase410 : K × Lbl := ⟨.ifElse (.and (.cmp .le (.lit 33) .byte) (.cmp .le .byte (.lit 126))) (.goto (.st 411) .done) .done (.goto (.st 0) .done), .st 411⟩
/-- rfc5424/builder.go:4903 -/
def st411 : K × Lbl := ⟨.stmt .incP (.ifElse .pEqPe (.goto (.testEofN 411) .done) .done .done), .stCase 411⟩
/-- rfc5424/builder.go:4907 -/
def stCase411 : K × Lbl := ⟨.ifElse (.and (.cmp .le (.lit 33) .byte) (.cmp .le .byte (.lit 126))) (.goto (.st 412) .done) .done (.goto (.st 0) .done), .st 412⟩
/-- rfc5424/builder.go:4912 -/
def st412 : K × Lbl := ⟨.stmt .incP (.ifElse .pEqPe (.goto (.testEofN 412) .done) .done .done), .stCase 412⟩
/-- rfc5424/builder.go:4916 -/
def stCase412 : K × Lbl := ⟨.ifElse (.and (.cmp .le (.lit 33) .byte) (.cmp .le .byte (.lit 126))) (.goto (.st 413) .done) .done (.goto (.st 0) .done), .st 413⟩
/-- rfc5424/builder.go:4921 -/
def st413 : K × Lbl := ⟨.stmt .incP (.ifElse .pEqPe (.goto (.testEofN 413) .done) .done .done), .stCase 413⟩
/-- rfc5424/builder.go:4925 -/
def stCase413 : K × Lbl := ⟨.ifElse (.and (.cmp .le (.lit 33) .byte) (.cmp .le .byte (.lit 126))) (.goto (.st 414) .done) .done (.goto (.st 0) .done), .st 414⟩
/-- rfc5424/builder.go:4930 -/
def st414 : K × Lbl := ⟨.stmt .incP (.ifElse .pEqPe (.goto (.testEofN 414) .done) .done .done), .stCase 414⟩
/-- rfc5424/builder.go:4934 -/
def stCase414 : K × Lbl := ⟨.ifElse (.and (.cmp .le (.lit 33) .byte) (.cmp .le .byte (.lit 126))) (.goto (.st 415) .done) .done (.goto (.st 0) .done), .st 415⟩
/-- rfc5424/builder.go:4939 -/
def st415 : K × Lbl := ⟨.stmt .incP (.ifElse .pEqPe (.goto (.testEofN 415) .done) .done .done), .stCase 415⟩
/-- rfc5424/builder.go:4943 -/
def stCase415 : K × Lbl := ⟨.ifElse (.and (.cmp .le (.lit 33) .byte) (.cmp .le .byte (.lit 126))) (.goto (.st 416) .done) .done (.goto (.st 0) .done), .st 416⟩
/-- rfc5424/builder.go:4948 -/
def st416 : K × Lbl := ⟨.stmt .incP (.ifElse .pEqPe (.goto (.testEofN 416) .done) .done .done), .stCase 416⟩
/-- rfc5424/builder.go:4952 -/
def stCase416 : K × Lbl := ⟨.ifElse (.and (.cmp .le (.lit 33) .byte) (.cmp .le .byte (.lit 126))) (.goto (.st 417) .done) .done (.goto (.st 0) .done), .st 417⟩
/-- rfc5424/builder.go:4957 -/
def st417 : K × Lbl := ⟨.stmt .incP (.ifElse .pEqPe (.goto (.testEofN 417) .done) .done .done), .stCase 417⟩
/-- rfc5424/builder.go:4961 -/
def stCase417 : K × Lbl := ⟨.ifElse (.and (.cmp .le (.lit 33) .byte) (.cmp .le .byte (.lit 126))) (.goto (.st 418) .done) .done (.goto (.st 0) .done), .st 418⟩
/-- rfc5424/builder.go:4966 -/
def st418 : K × Lbl := ⟨.stmt .incP (.ifElse .pEqPe (.goto (.testEofN 418) .done) .done .done), .stCase 418⟩
/-- rfc5424/builder.go:4970 -/
def stCase418 : K × Lbl := ⟨.ifElse (.and (.cmp .le (.lit 33) .byte) (.cmp .le .byte (.lit 126))) (.goto (.st 419) .done) .done (.goto (.st 0) .done), .st 419⟩
/-- rfc5424/builder.go:4975 -/
def st419 : K × Lbl := ⟨.stmt .incP (.ifElse .pEqPe (.goto (.testEofN 419) .done) .done .done), .stCase 419⟩
/-- rfc5424/builder.go:4979 -/
def stCase419 : K × Lbl := ⟨.ifElse (.and (.cmp .le (.lit 33) .byte) (.cmp .le .byte (.lit 126))) (.goto (.st 420) .done) .done (.goto (.st 0) .done), .st 420⟩
/-- rfc5424/builder.go:4984 -/
def st420 : K × Lbl := ⟨.stmt .incP (.ifElse .pEqPe (.goto (.testEofN 420) .done) .done .done), .stCase 420⟩
/-- rfc5424/builder.go:4988 -/
def stCase420 : K × Lbl := ⟨.ifElse (.and (.cmp .le (.lit 33) .byte) (.cmp .le .byte (.lit 126))) (.goto (.st 421) .done) .done (.goto (.st 0) .done), .st 421⟩
/-- rfc5424/builder.go:4993 -/
def st421 : K × Lbl := ⟨.stmt .incP (.ifElse .pEqPe (.goto (.testEofN 421) .done) .done .done), .stCase 421⟩
/-- rfc5424/builder.go:4997 -/
def stCase421 : K × Lbl := ⟨.ifElse (.and (.cmp .le (.lit 33) .byte) (.cmp .le .byte (.lit 126))) (.goto (.st 422) .done) .done (.goto (.st 0) .done), .st 422⟩
/-- rfc5424/builder.go:5002 -/
def st422 : K × Lbl := ⟨.stmt .incP (.ifElse .pEqPe (.goto (.testEofN 422) .done) .done .done), .stCase 422⟩
/-- rfc5424/builder.go:5006 -/
def stCase422 : K × Lbl := ⟨.ifElse (.and (.cmp .le (.lit 33) .byte) (.cmp .le .byte (.lit 126))) (.goto (.st 423) .done) .done (.goto (.st 0) .done), .st 423⟩
/-- rfc5424/builder.go:5011 -/
def st423 : K × Lbl := ⟨.stmt .incP (.ifElse .pEqPe (.goto (.testEofN 423) .done) .done .done), .stCase 423⟩
/-- rfc5424/builder.go:5015 -/
def stCase423 : K × Lbl := ⟨.ifElse (.and (.cmp .le (.lit 33) .byte) (.cmp .le .byte (.lit 126))) (.goto (.st 424) .done) .done (.goto (.st 0) .done), .st 424⟩
/-- rfc5424/builder.go:5020 -/
def st424 : K × Lbl := ⟨.stmt .incP (.ifElse .pEqPe (.goto (.testEofN 424) .done) .done .done), .stCase 424⟩
/-- rfc5424/builder.go:5024 -/
def stCase424 : K × Lbl := ⟨.ifElse (.and (.cmp .le (.lit 33) .byte) (.cmp .le .byte (.lit 126))) (.goto (.st 425) .done) .done (.goto (.st 0) .done), .st 425⟩
/-- rfc5424/builder.go:5029 -/
def st425 : K × Lbl := ⟨.stmt .incP (.ifElse .pEqPe (.goto (.testEofN 425) .done) .done .done), .stCase 425⟩
/-- rfc5424/builder.go:5033 -/
def stCase425 : K × Lbl := ⟨.ifElse (.and (.cmp .le (.lit 33) .byte) (.cmp .le .byte (.lit 126))) (.goto (.st 426) .done) .done (.goto (.st 0) .done), .st 426⟩
/-- rfc5424/builder.go:5038 -/
def st426 : K × Lbl := ⟨.stmt .incP (.ifElse .pEqPe (.goto (.testEofN 426) .done) .done .done), .stCase 426⟩
/-- rfc5424/builder.go:5042 -/
def stCase426 : K × Lbl := ⟨.ifElse (.and (.cmp .le (.lit 33) .byte) (.cmp .le .byte (.lit 126))) (.goto (.st 427) .done) .done (.goto (.st 0) .done), .st 427⟩
/-- rfc5424/builder.go:5047 -/
def st427 : K × Lbl := ⟨.stmt .incP (.ifElse .pEqPe (.goto (.testEofN 427) .done) .done .done), .stCase 427⟩
/-- rfc5424/builder.go:5051 -/
def stCase427 : K × Lbl := ⟨.ifElse (.and (.cmp .le (.lit 33) .byte) (.cmp .le .byte (.lit 126))) (.goto (.st 428) .done) .done (.goto (.st 0) .done), .st 428⟩
/-- rfc5424/builder.go:5056 -/
def st428 : K × Lbl := ⟨.stmt .incP (.ifElse .pEqPe (.goto (.testEofN 428) .done) .done .done), .stCase 428⟩
/-- rfc5424/builder.go:5060 -/
def stCase428 : K × Lbl := ⟨.ifElse (.and (.cmp .le (.lit 33) .byte) (.cmp .le .byte (.lit 126))) (.goto (.st 429) .done) .done (.goto (.st 0) .done), .st 429⟩
/-- rfc5424/builder.go:5065 -/
def st429 : K × Lbl := ⟨.stmt .incP (.ifElse .pEqPe (.goto (.testEofN 429) .done) .done .done), .stCase 429⟩
/-- rfc5424/builder.go:5069 -/
def stCase429 : K × Lbl := ⟨.ifElse (.and (.cmp .le (.lit 33) .byte) (.cmp .le .byte (.lit 126))) (.goto (.st 430) .done) .done (.goto (.st 0) .done), .st 430⟩
/-- rfc5424/builder.go:5074 -/
def st430 : K × Lbl := ⟨.stmt .incP (.ifElse .pEqPe (.goto (.testEofN 430) .done) .done .done), .stCase 430⟩
/-- rfc5424/builder.go:5078 -/
def stCase430 : K × Lbl := ⟨.ifElse (.and (.cmp .le (.lit 33) .byte) (.cmp .le .byte (.lit 126))) (.goto (.st 431) .done) .done (.goto (.st 0) .done), .st 431⟩
/-- rfc5424/builder.go:5083 -/
def st431 : K × Lbl := ⟨.stmt .incP (.ifElse .pEqPe (.goto (.testEofN 431) .done) .done .done), .stCase 431⟩
/-- rfc5424/builder.go:5087 -/
def stCase431 : K × Lbl := ⟨.ifElse (.and (.cmp .le (.lit 33) .byte) (.cmp .le .byte (.lit 126))) (.goto (.st 432) .done) .done (.goto (.st 0) .done), .st 432⟩
/-- rfc5424/builder.go:5092 -/
def st432 : K × Lbl := ⟨.stmt .incP (.ifElse .pEqPe (.goto (.testEofN 432) .done) .done .done), .stCase 432⟩
/-- rfc5424/builder.go:5096 -/
def stCase432 : K × Lbl := ⟨.ifElse (.and (.cmp .le (.lit 33) .byte) (.cmp .le .byte (.lit 126))) (.goto (.st 433) .done) .done (.goto (.st 0) .done), .st 433⟩
/-- rfc5424/builder.go:5101 -/
def st433 : K × Lbl := ⟨.stmt .incP (.ifElse .pEqPe (.goto (.testEofN 433) .done) .done .done), .stCase 433⟩
/-- rfc5424/builder.go:5105 -/
def stCase433 : K × Lbl := ⟨.ifElse (.and (.cmp .le (.lit 33) .byte) (.cmp .le .byte (.lit 126))) (.goto (.st 434) .done) .done (.goto (.st 0) .done), .st 434⟩
/-- rfc5424/builder.go:5110 -/
def st434 : K × Lbl := ⟨.stmt .incP (.ifElse .pEqPe (.goto (.testEofN 434) .done) .done .done), .stCase 434⟩
/-- rfc5424/builder.go:5114 -/
def stCase434 : K × Lbl := ⟨.ifElse (.and (.cmp .le (.lit 33) .byte) (.cmp .le .byte (.lit 126))) (.goto (.st 435) .done) .done (.goto (.st 0) .done), .st 435⟩
/-- rfc5424/builder.go:5119 -/
def st435 : K × Lbl := ⟨.stmt .incP (.ifElse .pEqPe (.goto (.testEofN 435) .done) .done .done), .stCase 435⟩
/-- rfc5424/builder.go:5123 -/
def stCase435 : K × Lbl := ⟨.ifElse (.and (.cmp .le (.lit 33) .byte) (.cmp .le .byte (.lit 126))) (.goto (.st 436) .done) .done (.goto (.st 0) .done), .st 436⟩
/-- rfc5424/builder.go:5128 -/
def st436 : K × Lbl := ⟨.stmt .incP (.ifElse .pEqPe (.goto (.testEofN 436) .done) .done .done), .stCase 436⟩
/-- rfc5424/builder.go:5132 -/
def stCase436 : K × Lbl := ⟨.ifElse (.and (.cmp .le (.lit 33) .byte) (.cmp .le .byte (.lit 126))) (.goto (.st 437) .done) .done (.goto (.st 0) .done), .st 437⟩
/-- rfc5424/builder.go:5137 -/
def st437 : K × Lbl := ⟨.stmt .incP (.ifElse .pEqPe (.goto (.testEofN 437) .done) .done .done), .stCase 437⟩
/-- rfc5424/builder.go:5141 -/
def stCase437 : K × Lbl := ⟨.ifElse (.and (.cmp .le (.lit 33) .byte) (.cmp .le .byte (.lit 126))) (.goto (.st 438) .done) .done (.goto (.st 0) .done), .st 438⟩
/-- rfc5424/builder.go:5146 -/
def st438 : K × Lbl := ⟨.stmt .incP (.ifElse .pEqPe (.goto (.testEofN 438) .done) .done .done), .stCase 438⟩
/-- rfc5424/builder.go:5150 -/
def stCase438 : K × Lbl := ⟨.ifElse (.and (.cmp .le (.lit 33) .byte) (.cmp .le .byte (.lit 126))) (.goto (.st 439) .done) .done (.goto (.st 0) .done), .st 439⟩
/-- rfc5424/builder.go:5155 -/
def st439 : K × Lbl := ⟨.stmt .incP (.ifElse .pEqPe (.goto (.testEofN 439) .done) .done .done), .stCase 439⟩
/-- rfc5424/builder.go:5159 -/
def stCase439 : K × Lbl := ⟨.ifElse (.and (.cmp .le (.lit 33) .byte) (.cmp .le .byte (.lit 126))) (.goto (.st 440) .done) .done (.goto (.st 0) .done), .st 440⟩
/-- rfc5424/builder.go:5164 -/
def st440 : K × Lbl := ⟨.stmt .incP (.ifElse .pEqPe (.goto (.testEofN 440) .done) .done .done), .stCase 440⟩
/-- rfc5424/builder.go:5168 -/
def stCase440 : K × Lbl := ⟨.ifElse (.and (.cmp .le (.lit 33) .byte) (.cmp .le .byte (.lit 126))) (.goto (.st 441) .done) .done (.goto (.st 0) .done), .st 441⟩
/-- rfc5424/builder.go:5173 -/
def st441 : K × Lbl := ⟨.stmt .incP (.ifElse .pEqPe (.goto (.testEofN 441) .done) .done .done), .stCase 441⟩
/-- rfc5424/builder.go:5177 -/
def stCase441 : K × Lbl := ⟨.ifElse (.and (.cmp .le (.lit 33) .byte) (.cmp .le .byte (.lit 126))) (.goto (.st 442) .done) .done (.goto (.st 0) .done), .st 442⟩
/-- rfc5424/builder.go:5182 -/
def st442 : K × Lbl := ⟨.stmt .incP (.ifElse .pEqPe (.goto (.testEofN 442) .done) .done .done), .stCase 442⟩
/-- rfc5424/builder.go:5186 -/
def stCase442 : K × Lbl := ⟨.ifElse (.and (.cmp .le (.lit 33) .byte) (.cmp .le .byte (.lit 126))) (.goto (.st 443) .done) .done (.goto (.st 0) .done), .st 443⟩
/-- rfc5424/builder.go:5191 -/
def st443 : K × Lbl := ⟨.stmt .incP (.ifElse .pEqPe (.goto (.testEofN 443) .done) .done .done), .stCase 443⟩
/-- rfc5424/builder.go:5195 -/
def stCase443 : K × Lbl := ⟨.ifElse (.and (.cmp .le (.lit 33) .byte) (.cmp .le .byte (.lit 126))) (.goto (.st 444) .done) .done (.goto (.st 0) .done), .st 444⟩
/-- rfc5424/builder.go:5200 -/
def st444 : K × Lbl := ⟨.stmt .incP (.ifElse .pEqPe (.goto (.testEofN 444) .done) .done .done), .stCase 444⟩
/-- rfc5424/builder.go:5204 -/
def stCase444 : K × Lbl := ⟨.ifElse (.and (.cmp .le (.lit 33) .byte) (.cmp .le .byte (.lit 126))) (.goto (.st 445) .done) .done (.goto (.st 0) .done), .st 445⟩
/-- rfc5424/builder.go:5209 -/
def st445 : K × Lbl := ⟨.stmt .incP (.ifElse .pEqPe (.goto (.testEofN 445) .done) .done .done), .stCase 445⟩
/-- rfc5424/builder.go:5213 -/
def stCase445 : K × Lbl := ⟨.ifElse (.and (.cmp .le (.lit 33) .byte) (.cmp .le .byte (.lit 126))) (.goto (.st 446) .done) .done (.goto (.st 0) .done), .st 446⟩
/-- rfc5424/builder.go:5218 -/
def st446 : K × Lbl := ⟨.stmt .incP (.ifElse .pEqPe (.goto (.testEofN 446) .done) .done .done), .stCase 446⟩
/-- rfc5424/builder.go:5222 -/
def stCase446 : K × Lbl := ⟨.ifElse (.and (.cmp .le (.lit 33) .byte) (.cmp .le .byte (.lit 126))) (.goto (.st 447) .done) .done (.goto (.st 0) .done), .st 447⟩
/-- rfc5424/builder.go:5227 -/
def st447 : K × Lbl := ⟨.stmt .incP (.ifElse .pEqPe (.goto (.testEofN 447) .done) .done .done), .stCase 447⟩
/-- rfc5424/builder.go:5231 -/
def stCase447 : K × Lbl := ⟨.ifElse (.and (.cmp .le (.lit 33) .byte) (.cmp .le .byte (.lit 126))) (.goto (.st 448) .done) .done (.goto (.st 0) .done), .st 448⟩
/-- rfc5424/builder.go:5236 -/
def st448 : K × Lbl := ⟨.stmt .incP (.ifElse .pEqPe (.goto (.testEofN 448) .done) .done .done), .stCase 448⟩
/-- rfc5424/builder.go:5240 -/
def stCase448 : K × Lbl := ⟨.ifElse (.and (.cmp .le (.lit 33) .byte) (.cmp .le .byte (.lit 126))) (.goto (.st 449) .done) .done (.goto (.st 0) .done), .st 449⟩
/-- rfc5424/builder.go:5245 -/
def st449 : K × Lbl := ⟨.stmt .incP (.ifElse .pEqPe (.goto (.testEofN 449) .done) .done .done), .stCase 449⟩
/-- rfc5424/builder.go:5249 -/
def stCase449 : K × Lbl := ⟨.ifElse (.and (.cmp .le (.lit 33) .byte) (.cmp .le .byte (.lit 126))) (.goto (.st 450) .done) .done (.goto (.st 0) .done), .st 450⟩
/-- rfc5424/builder.go:5254 -/
def st450 : K × Lbl := ⟨.stmt .incP (.ifElse .pEqPe (.goto (.testEofN 450) .done) .done .done), .stCase 450⟩
/-- rfc5424/builder.go:5258 -/
def stCase450 : K × Lbl := ⟨.ifElse (.and (.cmp .le (.lit 33) .byte) (.cmp .le .byte (.lit 126))) (.goto (.st 451) .done) .done (.goto (.st 0) .done), .st 451⟩
/-- rfc5424/builder.go:5263 -/
def st451 : K × Lbl := ⟨.stmt .incP (.ifElse .pEqPe (.goto (.testEofN 451) .done) .done .done), .stCase 451⟩
/-- rfc5424/builder.go:5267 -/
def stCase451 : K × Lbl := ⟨.ifElse (.and (.cmp .le (.lit 33) .byte) (.cmp .le .byte (.lit 126))) (.goto (.st 452) .done) .done (.goto (.st 0) .done), .st 452⟩
/-- rfc5424/builder.go:5272 -/
def st452 : K × Lbl := ⟨.stmt .incP (.ifElse .pEqPe (.goto (.testEofN 452) .done) .done .done), .stCase 452⟩
/-- rfc5424/builder.go:5276 -/
def stCase452 : K × Lbl := ⟨.ifElse (.and (.cmp .le (.lit 33) .byte) (.cmp .le .byte (.lit 126))) (.goto (.st 453) .done) .done (.goto (.st 0) .done), .st 453⟩
/-- rfc5424/builder.go:5281 -/
def st453 : K × Lbl := ⟨.stmt .incP (.ifElse .pEqPe (.goto (.testEofN 453) .done) .done .done), .stCase 453⟩
/-- rfc5424/builder.go:5285 -/
def stCase453 : K × Lbl := ⟨.ifElse (.and (.cmp .le (.lit 33) .byte) (.cmp .le .byte (.lit 126))) (.goto (.st 454) .done) .done (.goto (.st 0) .done), .st 454⟩
/-- rfc5424/builder.go:5290 -/
def st454 : K × Lbl := ⟨.stmt .incP (.ifElse .pEqPe (.goto (.testEofN 454) .done) .done .done), .stCase 454⟩
/-- rfc5424/builder.go:5294 -/
def stCase454 : K × Lbl := ⟨.ifElse (.and (.cmp .le (.lit 33) .byte) (.cmp .le .byte (.lit 126))) (.goto (.st 455) .done) .done (.goto (.st 0) .done), .st 455⟩
/-- rfc5424/builder.go:5299 -/
def st455 : K × Lbl := ⟨.stmt .incP (.ifElse .pEqPe (.goto (.testEofN 455) .done) .done .done), .stCase 455⟩
/-- rfc5424/builder.go:5303 -/
def stCase455 : K × Lbl := ⟨.ifElse (.and (.cmp .le (.lit 33) .byte) (.cmp .le .byte (.lit 126))) (.goto (.st 456) .done) .done (.goto (.st 0) .done), .st 456⟩
/-- rfc5424/builder.go:5308 -/
def st456 : K × Lbl := ⟨.stmt .incP (.ifElse .pEqPe (.goto (.testEofN 456) .done) .done .done), .stCase 456⟩
/-- rfc5424/builder.go:5312 -/
def stCase456 : K × Lbl := ⟨.ifElse (.and (.cmp .le (.lit 33) .byte) (.cmp .le .byte (.lit 126))) (.goto (.st 457) .done) .done (.goto (.st 0) .done), .st 457⟩
/-- rfc5424/builder.go:5317 -/
def st457 : K × Lbl := ⟨.stmt .incP (.ifElse .pEqPe (.goto (.testEofN 457) .done) .done .done), .stCase 457⟩
/-- rfc5424/builder.go:5321 -/
def stCase457 : K × Lbl := ⟨.ifElse (.and (.cmp .le (.lit 33) .byte) (.cmp .le .byte (.lit 126))) (.goto (.st 458) .done) .done (.goto (.st 0) .done), .st 458⟩
/-- rfc5424/builder.go:5326 -/
def st458 : K × Lbl := ⟨.stmt .incP (.ifElse .pEqPe (.goto (.testEofN 458) .done) .done .done), .stCase 458⟩
/-- rfc5424/builder.go:5330 -/
def stCase458 : K × Lbl := ⟨.ifElse (.and (.cmp .le (.lit 33) .byte) (.cmp .le .byte (.lit 126))) (.goto (.st 459) .done) .done (.goto (.st 0) .done), .st 459⟩
/-- rfc5424/builder.go:5335 -/
def st459 : K × Lbl := ⟨.stmt .incP (.ifElse .pEqPe (.goto (.testEofN 459) .done) .done .done), .stCase 459⟩
/-- rfc5424/builder.go:5339 -/
def stCase459 : K × Lbl := ⟨.ifElse (.and (.cmp .le (.lit 33) .byte) (.cmp .le .byte (.lit 126))) (.goto (.st 460) .done) .done (.goto (.st 0) .done), .st 460⟩
/-- rfc5424/builder.go:5344 -/
def st460 : K × Lbl := ⟨.stmt .incP (.ifElse .pEqPe (.goto (.testEofN 460) .done) .done .done), .stCase 460⟩
/-- rfc5424/builder.go:5348 -/
def stCase460 : K × Lbl := ⟨.ifElse (.and (.cmp .le (.lit 33) .byte) (.cmp .le .byte (.lit 126))) (.goto (.st 461) .done) .done (.goto (.st 0) .done), .st 461⟩
/-- rfc5424/builder.go:5353 -/
def st461 : K × Lbl := ⟨.stmt .incP (.ifElse .pEqPe (.goto (.testEofN 461) .done) .done .done), .stCase 461⟩
/-- rfc5424/builder.go:5357 -/
def stCase461 : K × Lbl := ⟨.ifElse (.and (.cmp .le (.lit 33) .byte) (.cmp .le .byte (.lit 126))) (.goto (.st 462) .done) .done (.goto (.st 0) .done), .st 462⟩
/-- rfc5424/builder.go:5362 -/
def st462 : K × Lbl := ⟨.stmt .incP (.ifElse .pEqPe (.goto (.testEofN 462) .done) .done .done), .stCase 462⟩
/-- rfc5424/builder.go:5366 -/
def stCase462 : K × Lbl := ⟨.ifElse (.and (.cmp .le (.lit 33) .byte) (.cmp .le .byte (.lit 126))) (.goto (.st 463) .done) .done (.goto (.st 0) .done), .st 463⟩
/-- rfc5424/builder.go:5371 -/
def st463 : K × Lbl := ⟨.stmt .incP (.ifElse .pEqPe (.goto (.testEofN 463) .done) .done .done), .stCase 463⟩
/-- rfc5424/builder.go:5375 -/
def stCase463 : K × Lbl := ⟨.ifElse (.and (.cmp .le (.lit 33) .byte) (.cmp .le .byte (.lit 126))) (.goto (.st 464) .done) .done (.goto (.st 0) .done), .st 464⟩
/-- rfc5424/builder.go:5380 -/
def st464 : K × Lbl := ⟨.stmt .incP (.ifElse .pEqPe (.goto (.testEofN 464) .done) .done .done), .stCase 464⟩
/-- rfc5424/builder.go:5384 -/
def stCase464 : K × Lbl := ⟨.ifElse (.and (.cmp .le (.lit 33) .byte) (.cmp .le .byte (.lit 126))) (.goto (.st 465) .done) .done (.goto (.st 0) .done), .st 465⟩
/-- rfc5424/builder.go:5389 -/
def st465 : K × Lbl := ⟨.stmt .incP (.ifElse .pEqPe (.goto (.testEofN 465) .done) .done .done), .stCase 465⟩
/-- rfc5424/builder.go:5393 -/
def stCase465 : K × Lbl := ⟨.ifElse (.and (.cmp .le (.lit 33) .byte) (.cmp .le .byte (.lit 126))) (.goto (.st 466) .done) .done (.goto (.st 0) .done), .st 466⟩
/-- rfc5424/builder.go:5398 -/
def st466 : K × Lbl := ⟨.stmt .incP (.ifElse .pEqPe (.goto (.testEofN 466) .done) .done .done), .stCase 466⟩
/-- rfc5424/builder.go:5402 -/
def stCase466 : K × Lbl := ⟨.ifElse (.and (.cmp .le (.lit 33) .byte) (.cmp .le .byte (.lit 126))) (.goto (.st 467) .done) .done (.goto (.st 0) .done), .st 467⟩
/-- rfc5424/builder.go:5407 -/
def st467 : K × Lbl := ⟨.stmt .incP (.ifElse .pEqPe (.goto (.testEofN 467) .done) .done .done), .stCase 467⟩
/-- rfc5424/builder.go:5411 -/
def stCase467 : K × Lbl := ⟨.ifElse (.and (.cmp .le (.lit 33) .byte) (.cmp .le .byte (.lit 126))) (.goto (.st 468) .done) .done (.goto (.st 0) .done), .st 468⟩
/-- rfc5424/builder.go:5416 -/
def st468 : K × Lbl := ⟨.stmt .incP (.ifElse .pEqPe (.goto (.testEofN 468) .done) .done .done), .stCase 468⟩
/-- rfc5424/builder.go:5420 -/
def stCase468 : K × Lbl := ⟨.ifElse (.and (.cmp .le (.lit 33) .byte) (.cmp .le .byte (.lit 126))) (.goto (.st 469) .done) .done (.goto (.st 0) .done), .st 469⟩
/-- rfc5424/builder.go:5425 -/
def st469 : K × Lbl := ⟨.stmt .incP (.ifElse .pEqPe (.goto (.testEofN 469) .done) .done .done), .stCase 469⟩
/-- rfc5424/builder.go:5429 -/
def stCase469 : K × Lbl := ⟨.ifElse (.and (.cmp .le (.lit 33) .byte) (.cmp .le .byte (.lit 126))) (.goto (.st 470) .done) .done (.goto (.st 0) .done), .st 470⟩
/-- rfc5424/builder.go:5434 -/
def st470 : K × Lbl := ⟨.stmt .incP (.ifElse .pEqPe (.goto (.testEofN 470) .done) .done .done), .stCase 470⟩
/-- rfc5424/builder.go:5438 -/
def stCase470 : K × Lbl := ⟨.ifElse (.and (.cmp .le (.lit 33) .byte) (.cmp .le .byte (.lit 126))) (.goto (.st 471) .done) .done (.goto (.st 0) .done), .st 471⟩
/-- rfc5424/builder.go:5443 -/
def st471 : K × Lbl := ⟨.stmt .incP (.ifElse .pEqPe (.goto (.testEofN 471) .done) .done .done), .stCase 471⟩
/-- rfc5424/builder.go:5447 -/
def stCase471 : K × Lbl := ⟨.ifElse (.and (.cmp .le (.lit 33) .byte) (.cmp .le .byte (.lit 126))) (.goto (.st 472) .done) .done (.goto (.st 0) .done), .st 472⟩
/-- rfc5424/builder.go:5452 -/
def st472 : K × Lbl := ⟨.stmt .incP (.ifElse .pEqPe (.goto (.testEofN 472) .done) .done .done), .stCase 472⟩
/-- rfc5424/builder.go:5456 -/
def stCase472 : K × Lbl := ⟨.ifElse (.and (.cmp .le (.lit 33) .byte) (.cmp .le .byte (.lit 126))) (.goto (.st 473) .done) .done (.goto (.st 0) .done), .st 473⟩
/-- rfc5424/builder.go:5461 -/
def st473 : K × Lbl := ⟨.stmt .incP (.ifElse .pEqPe (.goto (.testEofN 473) .done) .done .done), .stCase 473⟩
/-- rfc5424/builder.go:5465 -/
def stCase473 : K × Lbl := ⟨.ifElse (.and (.cmp .le (.lit 33) .byte) (.cmp .le .byte (.lit 126))) (.goto (.st 474) .done) .done (.goto (.st 0) .done), .st 474⟩
/-- rfc5424/builder.go:5470 -/
def st474 : K × Lbl := ⟨.stmt .incP (.ifElse .pEqPe (.goto (.testEofN 474) .done) .done .done), .stCase 474⟩
/-- rfc5424/builder.go:5474 -/
def stCase474 : K × Lbl := ⟨.ifElse (.and (.cmp .le (.lit 33) .byte) (.cmp .le .byte (.lit 126))) (.goto (.st 475) .done) .done (.goto (.st 0) .done), .st 475⟩
/-- rfc5424/builder.go:5479 -/
def st475 : K × Lbl := ⟨.stmt .incP (.ifElse .pEqPe (.goto (.testEofN 475) .done) .done .done), .stCase 475⟩
/-- rfc5424/builder.go:5483 -/
def stCase475 : K × Lbl := ⟨.ifElse (.and (.cmp .le (.lit 33) .byte) (.cmp .le .byte (.lit 126))) (.goto (.st 476) .done) .done (.goto (.st 0) .done), .st 476⟩
/-- rfc5424/builder.go:5488 -/
def st476 : K × Lbl := ⟨.stmt .incP (.ifElse .pEqPe (.goto (.testEofN 476) .done) .done .done), .stCase 476⟩
/-- rfc5424/builder.go:5492 -/
def stCase476 : K × Lbl := ⟨.ifElse (.and (.cmp .le (.lit 33) .byte) (.cmp .le .byte (.lit 126))) (.goto (.st 477) .done) .done (.goto (.st 0) .done), .st 477⟩
/-- rfc5424/builder.go:5497 -/
def st477 : K × Lbl := ⟨.stmt .incP (.ifElse .pEqPe (.goto (.testEofN 477) .done) .done .done), .stCase 477⟩
/-- rfc5424/builder.go:5501 -/
def stCase477 : K × Lbl := ⟨.ifElse (.and (.cmp .le (.lit 33) .byte) (.cmp .le .byte (.lit 126))) (.goto (.st 478) .done) .done (.goto (.st 0) .done), .st 478⟩
/-- rfc5424/builder.go:5506 -/
def st478 : K × Lbl := ⟨.stmt .incP (.ifElse .pEqPe (.goto (.testEofN 478) .done) .done .done), .stCase 478⟩
/-- rfc5424/builder.go:5510 -/
def stCase478 : K × Lbl := ⟨.ifElse (.and (.cmp .le (.lit 33) .byte) (.cmp .le .byte (.lit 126))) (.goto (.st 479) .done) .done (.goto (.st 0) .done), .st 479⟩
/-- rfc5424/builder.go:5515 -/
def st479 : K × Lbl := ⟨.stmt .incP (.ifElse .pEqPe (.goto (.testEofN 479) .done) .done .done), .stCase 479⟩
/-- rfc5424/builder.go:5519 -/
def stCase479 : K × Lbl := ⟨.ifElse (.and (.cmp .le (.lit 33) .byte) (.cmp .le .byte (.lit 126))) (.goto (.st 480) .done) .done (.goto (.st 0) .done), .st 480⟩
/-- rfc5424/builder.go:5524 -/
def st480 : K × Lbl := ⟨.stmt .incP (.ifElse .pEqPe (.goto (.testEofN 480) .done) .done .done), .stCase 480⟩
/-- rfc5424/builder.go:5528 -/
def stCase480 : K × Lbl := ⟨.ifElse (.and (.cmp .le (.lit 33) .byte) (.cmp .le .byte (.lit 126))) (.goto (.st 481) .done) .done (.goto (.st 0) .done), .st 481⟩
/-- rfc5424/builder.go:5533 -/
def st481 : K × Lbl := ⟨.stmt .incP (.ifElse .pEqPe (.goto (.testEofN 481) .done) .done .done), .stCase 481⟩
/-- rfc5424/builder.go:5537 -/
def stCase481 : K × Lbl := ⟨.ifElse (.and (.cmp .le (.lit 33) .byte) (.cmp .le .byte (.lit 126))) (.goto (.st 482) .done) .done (.goto (.st 0) .done), .st 482⟩
/-- rfc5424/builder.go:5542 -/
def st482 : K × Lbl := ⟨.stmt .incP (.ifElse .pEqPe (.goto (.testEofN 482) .done) .done .done), .stCase 482⟩
/-- rfc5424/builder.go:5546 -/
def stCase482 : K × Lbl := ⟨.ifElse (.and (.cmp .le (.lit 33) .byte) (.cmp .le .byte (.lit 126))) (.goto (.st 483) .done) .done (.goto (.st 0) .done), .st 483⟩
/-- rfc5424/builder.go:5551 -/
def st483 : K × Lbl := ⟨.stmt .incP (.ifElse .pEqPe (.goto (.testEofN 483) .done) .done .done), .stCase 483⟩
/-- rfc5424/builder.go:5555 -/
def stCase483 : K × Lbl := ⟨.ifElse (.and (.cmp .le (.lit 33) .byte) (.cmp .le .byte (.lit 126))) (.goto (.st 484) .done) .done (.goto (.st 0) .done), .st 484⟩
/-- rfc5424/builder.go:5560 -/
def st484 : K × Lbl := ⟨.stmt .incP (.ifElse .pEqPe (.goto (.testEofN 484) .done) .done .done), .stCase 484⟩
/-- rfc5424/builder.go:5564 -/
def stCase484 : K × Lbl := ⟨.ifElse (.and (.cmp .le (.lit 33) .byte) (.cmp .le .byte (.lit 126))) (.goto (.st 485) .done) .done (.goto (.st 0) .done), .st 485⟩
/-- rfc5424/builder.go:5569 -/
def st485 : K × Lbl := ⟨.stmt .incP (.ifElse .pEqPe (.goto (.testEofN 485) .done) .done .done), .stCase 485⟩
/-- rfc5424/builder.go:5573 -/
def stCase485 : K × Lbl := ⟨.goto (.st 0) .done, .stCase 41⟩
/-- rfc5424/builder.go:5575 -/
def stCase41 : K × Lbl := ⟨.ifElse (.and (.cmp .le (.lit 33) .byte) (.cmp .le .byte (.lit 126))) (.goto (.tr 41) .done) .done (.goto (.st 0) .done), .tr 41⟩
/-- rfc5424/builder.go:5580 -/
def tr41 : K × Lbl := ⟨.stmt (.prim .pbP) (.goto (.st 486) .done), .st 486⟩
/-- rfc5424/builder.go:5585 -/
def st486 : K × Lbl := ⟨.stmt .incP (.ifElse .pEqPe (.goto (.testEofN 486) .done) .done .done), .stCase 486⟩
/-- rfc5424/builder.go:5589 -/
def stCase486 : K × Lbl := ⟨.ifElse (.and (.cmp .le (.lit 33) .byte) (.cmp .le .byte (.lit 126))) (.goto (.st 487) .done) .done (.goto (.st 0) .done), .st 487⟩
/-- rfc5424/builder.go:5594 -/
def st487 : K × Lbl := ⟨.stmt .incP (.ifElse .pEqPe (.goto (.testEofN 487) .done) .done .done), .stCase 487⟩
/-- rfc5424/builder.go:5598 -/
def stCase487 : K × Lbl := ⟨.ifElse (.and (.cmp .le (.lit 33) .byte) (.cmp .le .byte (.lit 126))) (.goto (.st 488) .done) .done (.goto (.st 0) .done), .st 488⟩
/-- rfc5424/builder.go:5603 -/
def st488 : K × Lbl := ⟨.stmt .incP (.ifElse .pEqPe (.goto (.testEofN 488) .done) .done .done), .stCase 488⟩
/-- rfc5424/builder.go:5607 -/
def stCase488 : K × Lbl := ⟨.ifElse (.and (.cmp .le (.lit 33) .byte) (.cmp .le .byte (.lit 126))) (.goto (.st 489) .done) .done (.goto (.st 0) .done), .st 489⟩
/-- rfc5424/builder.go:5612 -/
def st489 : K × Lbl := ⟨.stmt .incP (.ifElse .pEqPe (.goto (.testEofN 489) .done) .done .done), .stCase 489⟩
/-- rfc5424/builder.go:5616 -/
def stCase489 : K × Lbl := ⟨.ifElse (.and (.cmp .le (.lit 33) .byte) (.cmp .le .byte (.lit 126))) (.goto (.st 490) .done) .done (.goto (.st 0) .done), .st 490⟩
/-- rfc5424/builder.go:5621 -/
def st490 : K × Lbl := ⟨.stmt .incP (.ifElse .pEqPe (.goto (.testEofN 490) .done) .done .done), .stCase 490⟩
/-- rfc5424/builder.go:5625 -/
def stCase490 : K × Lbl := ⟨.ifElse (.and (.cmp .le (.lit 33) .byte) (.cmp .le .byte (.lit 126))) (.goto (.st 491) .done) .done (.goto (.st 0) .done), .st 491⟩
/-- rfc5424/builder.go:5630 -/
def st491 : K × Lbl := ⟨.stmt .incP (.ifElse .pEqPe (.goto (.testEofN 491) .done) .done .done), .stCase 491⟩
/-- rfc5424/builder.go:5634 -/
def stCase491 : K × Lbl := ⟨.ifElse (.and (.cmp .le (.lit 33) .byte) (.cmp .le .byte (.lit 126))) (.goto (.st 492) .done) .done (.goto (.st 0) .done), .st 492⟩
/-- rfc5424/builder.go:5639 -/
def st492 : K × Lbl := ⟨.stmt .incP (.ifElse .pEqPe (.goto (.testEofN 492) .done) .done .done), .stCase 492⟩
/-- rfc5424/builder.go:5643 -/
def stCase492 : K × Lbl := ⟨.ifElse (.and (.cmp .le (.lit 33) .byte) (.cmp .le .byte (.lit 126))) (.goto (.st 493) .done) .done (.goto (.st 0) .done), .st 493⟩
/-- rfc5424/builder.go:5648 -/
def st493 : K × Lbl := ⟨.stmt .incP (.ifElse .pEqPe (.goto (.testEofN 493) .done) .done .done), .stCase 493⟩
/-- rfc5424/builder.go:5652 -/
def stCase493 : K × Lbl := ⟨.ifElse (.and (.cmp .le (.lit 33) .byte) (.cmp .le .byte (.lit 126))) (.goto (.st 494) .done) .done (.goto (.st 0) .done), .st 494⟩
/-- rfc5424/builder.go:5657 -/
def st494 : K × Lbl := ⟨.stmt .incP (.ifElse .pEqPe (.goto (.testEofN 494) .done) .done .done), .stCase 494⟩
/-- rfc5424/builder.go:5661 -/
def stCase494 : K × Lbl := ⟨.ifElse (.and (.cmp .le (.lit 33) .byte) (.cmp .le .byte (.lit 126))) (.goto (.st 495) .done) .done (.goto (.st 0) .done), .st 495⟩
/-- rfc5424/builder.go:5666 -/
def st495 : K × Lbl := ⟨.stmt .incP (.ifElse .pEqPe (.goto (.testEofN 495) .done) .done .done), .stCase 495⟩
/-- rfc5424/builder.go:5670 -/
def stCase495 : K × Lbl := ⟨.ifElse (.and (.cmp .le (.lit 33) .byte) (.cmp .le .byte (.lit 126))) (.goto (.st 496) .done) .done (.goto (.st 0) .done), .st 496⟩
/-- rfc5424/builder.go:5675 -/
def st496 : K × Lbl := ⟨.stmt .incP (.ifElse .pEqPe (.goto (.testEofN 496) .done) .done .done), .stCase 496⟩
/-- rfc5424/builder.go:5679 -/
def stCase496 : K × Lbl := ⟨.ifElse (.and (.cmp .le (.lit 33) .byte) (.cmp .le .byte (.lit 126))) (.goto (.st 497) .done) .done (.goto (.st 0) .done), .st 497⟩
/-- rfc5424/builder.go:5684 -/
def st497 : K × Lbl := ⟨.stmt .incP (.ifElse .pEqPe (.goto (.testEofN 497) .done) .done .done), .stCase 497⟩
/-- rfc5424/builder.go:5688 -/
def stCase497 : K × Lbl := ⟨.ifElse (.and (.cmp .le (.lit 33) .byte) (.cmp .le .byte (.lit 126))) (.goto (.st 498) .done) .done (.goto (.st 0) .done), .st 498⟩
/-- rfc5424/builder.go:5693 -/
def st498 : K × Lbl := ⟨.stmt .incP (.ifElse .pEqPe (.goto (.testEofN 498) .done) .done .done), .stCase 498⟩
/-- rfc5424/builder.go:5697 -/
def stCase498 : K × Lbl := ⟨.ifElse (.and (.cmp .le (.lit 33) .byte) (.cmp .le .byte (.lit 126))) (.goto (.st 499) .done) .done (.goto (.st 0) .done), .st 499⟩
/-- rfc5424/builder.go:5702 -/
def st499 : K × Lbl := ⟨.stmt .incP (.ifElse .pEqPe (.goto (.testEofN 499) .done) .done .done), .stCase 499⟩
/-- rfc5424/builder.go:5706 -/
def stCase499 : K × Lbl := ⟨.ifElse (.and (.cmp .le (.lit 33) .byte) (.cmp .le .byte (.lit 126))) (.goto (.st 500) .done) .done (.goto (.st 0) .done), .st 500⟩
/-- rfc5424/builder.go:5711 -/
def st500 : K × Lbl := ⟨.stmt .incP (.ifElse .pEqPe (.goto (.testEofN 500) .done) .done .done), .stCase 500⟩
/-- rfc5424/builder.go:5715 -/
def stCase500 : K × Lbl := ⟨.ifElse (.and (.cmp .le (.lit 33) .byte) (.cmp .le .byte (.lit 126))) (.goto (.st 501) .done) .done (.goto (.st 0) .done), .st 501⟩
/-- rfc5424/builder.go:5720 -/
def st501 : K × Lbl := ⟨.stmt .incP (.ifElse .pEqPe (.goto (.testEofN 501) .done) .done .done), .stCase 501⟩
/-- rfc5424/builder.go:5724 -/
def stCase501 : K × Lbl := ⟨.ifElse (.and (.cmp .le (.lit 33) .byte) (.cmp .le .byte (.lit 126))) (.goto (.st 502) .done) .done (.goto (.st 0) .done), .st 502⟩
/-- rfc5424/builder.go:5729 -/
def st502 : K × Lbl := ⟨.stmt .incP (.ifElse .pEqPe (.goto (.testEofN 502) .done) .done .done), .stCase 502⟩
/-- rfc5424/builder.go:5733 -/
def stCase502 : K × Lbl := ⟨.ifElse (.and (.cmp .le (.lit 33) .byte) (.cmp .le .byte (.lit 126))) (.goto (.st 503) .done) .done (.goto (.st 0) .done), .st 503⟩
/-- rfc5424/builder.go:5738 -/
def st503 : K × Lbl := ⟨.stmt .incP (.ifElse .pEqPe (.goto (.testEofN 503) .done) .done .done), .stCase 503⟩
/-- rfc5424/builder.go:5742 -/
def stCase503 : K × Lbl := ⟨.ifElse (.and (.cmp .le (.lit 33) .byte) (.cmp .le .byte (.lit 126))) (.goto (.st 504) .done) .done (.goto (.st 0) .done), .st 504⟩
/-- rfc5424/builder.go:5747 -/
def st504 : K × Lbl := ⟨.stmt .incP (.ifElse .pEqPe (.goto (.testEofN 504) .done) .done .done), .stCase 504⟩
/-- rfc5424/builder.go:5751 -/
def stCase504 : K × Lbl := ⟨.ifElse (.and (.cmp .le (.lit 33) .byte) (.cmp .le .byte (.lit 126))) (.goto (.st 505) .done) .done (.goto (.st 0) .done), .st 505⟩
/-- rfc5424/builder.go:5756 -/
def st505 : K × Lbl := ⟨.stmt .incP (.ifElse .pEqPe (.goto (.testEofN 505) .done) .done .done), .stCase 505⟩
/-- rfc5424/builder.go:5760 -/
def stCase505 : K × Lbl := ⟨.ifElse (.and (.cmp .le (.lit 33) .byte) (.cmp .le .byte (.lit 126))) (.goto (.st 506) .done) .done (.goto (.st 0) .done), .st 506⟩
/-- rfc5424/builder.go:5765 -/
def st506 : K × Lbl := ⟨.stmt .incP (.ifElse .pEqPe (.goto (.testEofN 506) .done) .done .done), .stCase 506⟩
/-- rfc5424/builder.go:5769 -/
def stCase506 : K × Lbl := ⟨.ifElse (.and (.cmp .le (.lit 33) .byte) (.cmp .le .byte (.lit 126))) (.goto (.st 507) .done) .done (.goto (.st 0) .done), .st 507⟩
/-- rfc5424/builder.go:5774 -/
def st507 : K × Lbl := ⟨.stmt .incP (.ifElse .pEqPe (.goto (.testEofN 507) .done) .done .done), .stCase 507⟩
/-- rfc5424/builder.go:5778 -/
def stCase507 : K × Lbl := ⟨.ifElse (.and (.cmp .le (.lit 33) .byte) (.cmp .le .byte (.lit 126))) (.goto (.st 508) .done) .done (.goto (.st 0) .done), .st 508⟩
/-- rfc5424/builder.go:5783 -/
def st508 : K × Lbl := ⟨.stmt .incP (.ifElse .pEqPe (.goto (.testEofN 508) .done) .done .done), .stCase 508⟩
/-- rfc5424/builder.go:5787 -/
def stCase508 : K × Lbl := ⟨.ifElse (.and (.cmp .le (.lit 33) .byte) (.cmp .le .byte (.lit 126))) (.goto (.st 509) .done) .done (.goto (.st 0) .done), .st 509⟩
/-- rfc5424/builder.go:5792 -/
def st509 : K × Lbl := ⟨.stmt .incP (.ifElse .pEqPe (.goto (.testEofN 509) .done) .done .done), .stCase 509⟩
/-- rfc5424/builder.go:5796 -/
def stCase509 : K × Lbl := ⟨.ifElse (.and (.cmp .le (.lit 33) .byte) (.cmp .le .byte (.lit 126))) (.goto (.st 510) .done) .done (.goto (.st 0) .done), .st 510⟩
/-- rfc5424/builder.go:5801 -/
def st510 : K × Lbl := ⟨.stmt .incP (.ifElse .pEqPe (.goto (.testEofN 510) .done) .done .done), .stCase 510⟩
/-- rfc5424/builder.go:5805 -/
def stCase510 : K × Lbl := ⟨.ifElse (.and (.cmp .le (.lit 33) .byte) (.cmp .le .byte (.lit 126))) (.goto (.st 511) .done) .done (.goto (.st 0) .done), .st 511⟩
/-- rfc5424/builder.go:5810 -/
def st511 : K × Lbl := ⟨.stmt .incP (.ifElse .pEqPe (.goto (.testEofN 511) .done) .done .done), .stCase 511⟩
/-- rfc5424/builder.go:5814 -/
def stCase511 : K × Lbl := ⟨.ifElse (.and (.cmp .le (.lit 33) .byte) (.cmp .le .byte (.lit 126))) (.goto (.st 512) .done) .done (.goto (.st 0) .done), .st 512⟩
/-- rfc5424/builder.go:5819 -/
def st512 : K × Lbl := ⟨.stmt .incP (.ifElse .pEqPe (.goto (.testEofN 512) .done) .done .done), .stCase 512⟩
/-- rfc5424/builder.go:5823 -/
def stCase512 : K × Lbl := ⟨.ifElse (.and (.cmp .le (.lit 33) .byte) (.cmp .le .byte (.lit 126))) (.goto (.st 513) .done) .done (.goto (.st 0) .done), .st 513⟩
/-- rfc5424/builder.go:5828 -/
def st513 : K × Lbl := ⟨.stmt .incP (.ifElse .pEqPe (.goto (.testEofN 513) .done) .done .done), .stCase 513⟩
/-- rfc5424/builder.go:5832 -/
def stCase513 : K × Lbl := ⟨.ifElse (.and (.cmp .le (.lit 33) .byte) (.cmp .le .byte (.lit 126))) (.goto (.st 514) .done) .done (.goto (.st 0) .done), .st 514⟩
/-- rfc5424/builder.go:5837 -/
def st514 : K × Lbl := ⟨.stmt .incP (.ifElse .pEqPe (.goto (.testEofN 514) .done) .done .done), .stCase 514⟩
/-- rfc5424/builder.go:5841 -/
def stCase514 : K × Lbl := ⟨.ifElse (.and (.cmp .le (.lit 33) .byte) (.cmp .le .byte (.lit 126))) (.goto (.st 515) .done) .done (.goto (.st 0) .done), .st 515⟩
/-- rfc5424/builder.go:5846 -/
def st515 : K × Lbl := ⟨.stmt .incP (.ifElse .pEqPe (.goto (.testEofN 515) .done) .done .done), .stCase 515⟩
/-- rfc5424/builder.go:5850 -/
def stCase515 : K × Lbl := ⟨.ifElse (.and (.cmp .le (.lit 33) .byte) (.cmp .le .byte (.lit 126))) (.goto (.st 516) .done) .done (.goto (.st 0) .done), .st 516⟩
/-- rfc5424/builder.go:5855 -/
def st516 : K × Lbl := ⟨.stmt .incP (.ifElse .pEqPe (.goto (.testEofN 516) .done) .done .done), .stCase 516⟩
/-- rfc5424/builder.go:5859 -/
def stCase516 : K × Lbl := ⟨.ifElse (.and (.cmp .le (.lit 33) .byte) (.cmp .le .byte (.lit 126))) (.goto (.st 517) .done) .done (.goto (.st 0) .done), .st 517⟩
/-- rfc5424/builder.go:5864 -/
def st517 : K × Lbl := ⟨.stmt .incP (.ifElse .pEqPe (.goto (.testEofN 517) .done) .done .done), .stCase 517⟩
/-- rfc5424/builder.go:5868 -/
def stCase517 : K × Lbl := ⟨.goto (.st 0) .done, .stCase 42⟩
/-- rfc5424/builder.go:5870 -/
def stCase42 : K × Lbl := ⟨.ifElse (.cmp .eq .byte (.lit 33)) (.goto (.tr 42) .done) .done (.ifElse (.cmp .lt .byte (.lit 62)) (.ifElse (.and (.cmp .le (.lit 35) .byte) (.cmp .le .byte (.lit 60))) (.goto (.tr 42) .done) .done .done) (.ifElse (.cmp .gt .byte (.lit 92)) (.ifElse (.and (.cmp .le (.lit 94) .byte) (.cmp .le .byte (.lit 126))) (.goto (.tr 42) .done) .done .done) (.goto (.tr 42) .done) .done) (.goto (.st 0) .done)), .tr 42⟩
/-- rfc5424/builder.go:5887 -/
def tr42 : K × Lbl := ⟨.stmt (.prim .pbP) (.goto (.st 518) .done), .st 518⟩
/-- rfc5424/builder.go:5892 -/
def st518 : K × Lbl := ⟨.stmt .incP (.ifElse .pEqPe (.goto (.testEofN 518) .done) .done .done), .stCase 518⟩
/-- rfc5424/builder.go:5896 -/
def stCase518 : K × Lbl := ⟨.ifElse (.cmp .eq .byte (.lit 33)) (.goto (.st 519) .done) .done (.ifElse (.cmp .lt .byte (.lit 62)) (.ifElse (.and (.cmp .le (.lit 35) .byte) (.cmp .le .byte (.lit 60))) (.goto (.st 519) .done) .done .done) (.ifElse (.cmp .gt .byte (.lit 92)) (.ifElse (.and (.cmp .le (.lit 94) .byte) (.cmp .le .byte (.lit 126))) (.goto (.st 519) .done) .done .done) (.goto (.st 519) .done) .done) (.goto (.st 0) .done)), .st 519⟩
/-- rfc5424/builder.go:5913 -/
def st519 : K × Lbl := ⟨.stmt .incP (.ifElse .pEqPe (.goto (.testEofN 519) .done) .done .done), .stCase 519⟩
/-- rfc5424/builder.go:5917 -/
def stCase519 : K × Lbl := ⟨.ifElse (.cmp .eq .byte (.lit 33)) (.goto (.st 520) .done) .done (.ifElse (.cmp .lt .byte (.lit 62)) (.ifElse (.and (.cmp .le (.lit 35) .byte) (.cmp .le .byte (.lit 60))) (.goto (.st 520) .done) .done .done) (.ifElse (.cmp .gt .byte (.lit 92)) (.ifElse (.and (.cmp .le (.lit 94) .byte) (.cmp .le .byte (.lit 126))) (.goto (.st 520) .done) .done .done) (.goto (.st 520) .done) .done) (.goto (.st 0) .done)), .st 520⟩
/-- rfc5424/builder.go:5934 -/
def st520 : K × Lbl := ⟨.stmt .incP (.ifElse .pEqPe (.goto (.testEofN 520) .done) .done .done), .stCase 520⟩
/-- rfc5424/builder.go:5938 -/
def stCase520 : K × Lbl := ⟨.ifElse (.cmp .eq .byte (.lit 33)) (.goto (.st 521) .done) .done (.ifElse (.cmp .lt .byte (.lit 62)) (.ifElse (.and (.cmp .le (.lit 35) .byte) (.cmp .le .byte (.lit 60))) (.goto (.st 521) .done) .done .done) (.ifElse (.cmp .gt .byte (.lit 92)) (.ifElse (.and (.cmp .le (.lit 94) .byte) (.cmp .le .byte (.lit 126))) (.goto (.st 521) .done) .done .done) (.goto (.st 521) .done) .done) (.goto (.st 0) .done)), .st 521⟩
/-- rfc5424/builder.go:5955 -/
def st521 : K × Lbl := ⟨.stmt .incP (.ifElse .pEqPe (.goto (.testEofN 521) .done) .done .done), .stCase 521⟩
/-- rfc5424/builder.go:5959 -/
def stCase521 : K × Lbl := ⟨.ifElse (.cmp .eq .byte (.lit 33)) (.goto (.st 522) .done) .done (.ifElse (.cmp .lt .byte (.lit 62)) (.ifElse (.and (.cmp .le (.lit 35) .byte) (.cmp .le .byte (.lit 60))) (.goto (.st 522) .done) .done .done) (.ifElse (.cmp .gt .byte (.lit 92)) (.ifElse (.and (.cmp .le (.lit 94) .byte) (.cmp .le .byte (.lit 126))) (.goto (.st 522) .done) .done .done) (.goto (.st 522) .done) .done) (.goto (.st 0) .done)), .st 522⟩
/-- rfc5424/builder.go:5976 -/
def st522 : K × Lbl := ⟨.stmt .incP (.ifElse .pEqPe (.goto (.testEofN 522) .done) .done .done), .stCase 522⟩
/-- rfc5424/builder.go:5980 -/
def stCase522 : K × Lbl := ⟨.ifElse (.cmp .eq .byte (.lit 33)) (.goto (.st 523) .done) .done (.ifElse (.cmp .lt .byte (.lit 62)) (.ifElse (.and (.cmp .le (.lit 35) .byte) (.cmp .le .byte (.lit 60))) (.goto (.st 523) .done) .done .done) (.ifElse (.cmp .gt .byte (.lit 92)) (.ifElse (.and (.cmp .le (.lit 94) .byte) (.cmp .le .byte (.lit 126))) (.goto (.st 523) .done) .done .done) (.goto (.st 523) .done) .done) (.goto (.st 0) .done)), .st 523⟩
/-- rfc5424/builder.go:5997 -/
def st523 : K × Lbl := ⟨.stmt .incP (.ifElse .pEqPe (.goto (.testEofN 523) .done) .done .done), .stCase 523⟩
/-- rfc5424/builder.go:6001 -/
def stCase523 : K × Lbl := ⟨.ifElse (.cmp .eq .byte (.lit 33)) (.goto (.st 524) .done) .done (.ifElse (.cmp .lt .byte (.lit 62)) (.ifElse (.and (.cmp .le (.lit 35) .byte) (.cmp .le .byte (.lit 60))) (.goto (.st 524) .done) .done .done) (.ifElse (.cmp .gt .byte (.lit 92)) (.ifElse (.and (.cmp .le (.lit 94) .byte) (.cmp .le .byte (.lit 126))) (.goto (.st 524) .done) .done .done) (.goto (.st 524) .done) .done) (.goto (.st 0) .done)), .st 524⟩
/-- rfc5424/builder.go:6018 -/
def st524 : K × Lbl := ⟨.stmt .incP (.ifElse .pEqPe (.goto (.testEofN 524) .done) .done .done), .stCase 524⟩
/-- rfc5424/builder.go:6022 -/
def stCase524 : K × Lbl := ⟨.ifElse (.cmp .eq .byte (.lit 33)) (.goto (.st 525) .done) .done (.ifElse (.cmp .lt .byte (.lit 62)) (.ifElse (.and (.cmp .le (.lit 35) .byte) (.cmp .le .byte (.lit 60))) (.goto (.st 525) .done) .done .done) (.ifElse (.cmp .gt .byte (.lit 92)) (.ifElse (.and (.cmp .le (.lit 94) .byte) (.cmp .le .byte (.lit 126))) (.goto (.st 525) .done) .done .done) (.goto (.st 525) .done) .done) (.goto (.st 0) .done)), .st 525⟩
/-- rfc5424/builder.go:6039 -/
def st525 : K × Lbl := ⟨.stmt .incP (.ifElse .pEqPe (.goto (.testEofN 525) .done) .done .done), .stCase 525⟩
/-- rfc5424/builder.go:6043 -/
def stCase525 : K × Lbl := ⟨.ifElse (.cmp .eq .byte (.lit 33)) (.goto (.st 526) .done) .done (.ifElse (.cmp .lt .byte (.lit 62)) (.ifElse (.and (.cmp .le (.lit 35) .byte) (.cmp .le .byte (.lit 60))) (.goto (.st 526) .done) .done .done) (.ifElse (.cmp .gt .byte (.lit 92)) (.ifElse (.and (.cmp .le (.lit 94) .byte) (.cmp .le .byte (.lit 126))) (.goto (.st 526) .done) .done .done) (.goto (.st 526) .done) .done) (.goto (.st 0) .done)), .st 526⟩
/-- rfc5424/builder.go:6060 -/
def st526 : K × Lbl := ⟨.stmt .incP (.ifElse .pEqPe (.goto (.testEofN 526) .done) .done .done), .stCase 526⟩
/-- rfc5424/builder.go:6064 -/
def stCase526 : K × Lbl := ⟨.ifElse (.cmp .eq .byte (.lit 33)) (.goto (.st 527) .done) .done (.ifElse (.cmp .lt .byte (.lit 62)) (.ifElse (.and (.cmp .le (.lit 35) .byte) (.cmp .le .byte (.lit 60))) (.goto (.st 527) .done) .done .done) (.ifElse (.cmp .gt .byte (.lit 92)) (.ifElse (.and (.cmp .le (.lit 94) .byte) (.cmp .le .byte (.lit 126))) (.goto (.st 527) .done) .done .done) (.goto (.st 527) .done) .done) (.goto (.st 0) .done)), .st 527⟩
/-- rfc5424/builder.go:6081 -/
def st527 : K × Lbl := ⟨.stmt .incP (.ifElse .pEqPe (.goto (.testEofN 527) .done) .done .done), .stCase 527⟩
/-- rfc5424/builder.go:6085 -/
def stCase527 : K × Lbl := ⟨.ifElse (.cmp .eq .byte (.lit 33)) (.goto (.st 528) .done) .done (.ifElse (.cmp .lt .byte (.lit 62)) (.ifElse (.and (.cmp .le (.lit 35) .byte) (.cmp .le .byte (.lit 60))) (.goto (.st 528) .done) .done .done) (.ifElse (.cmp .gt .byte (.lit 92)) (.ifElse (.and (.cmp .le (.lit 94) .byte) (.cmp .le .byte (.lit 126))) (.goto (.st 528) .done) .done .done) (.goto (.st 528) .done) .done) (.goto (.st 0) .done)), .st 528⟩
/-- rfc5424/builder.go:6102 -/
def st528 : K × Lbl := ⟨.stmt .incP (.ifElse .pEqPe (.goto (.testEofN 528) .done) .done .done), .stCase 528⟩
/-- rfc5424/builder.go:6106 -/
def stCase528 : K × Lbl := ⟨.ifElse (.cmp .eq .byte (.lit 33)) (.goto (.st 529) .done) .done (.ifElse (.cmp .lt .byte (.lit 62)) (.ifElse (.and (.cmp .le (.lit 35) .byte) (.cmp .le .byte (.lit 60))) (.goto (.st 529) .done) .done .done) (.ifElse (.cmp .gt .byte (.lit 92)) (.ifElse (.and (.cmp .le (.lit 94) .byte) (.cmp .le .byte (.lit 126))) (.goto (.st 529) .done) .done .done) (.goto (.st 529) .done) .done) (.goto (.st 0) .done)), .st 529⟩
/-- rfc5424/builder.go:6123 -/
def st529 : K × Lbl := ⟨.stmt .incP (.ifElse .pEqPe (.goto (.testEofN 529) .done) .done .done), .stCase 529⟩
/-- rfc5424/builder.go:6127 -/
def stCase529 : K × Lbl := ⟨.ifElse (.cmp .eq .byte (.lit 33)) (.goto (.st 530) .done) .done (.ifElse (.cmp .lt .byte (.lit 62)) (.ifElse (.and (.cmp .le (.lit 35) .byte) (.cmp .le .byte (.lit 60))) (.goto (.st 530) .done) .done .done) (.ifElse (.cmp .gt .byte (.lit 92)) (.ifElse (.and (.cmp .le (.lit 94) .byte) (.cmp .le .byte (.lit 126))) (.goto (.st 530) .done) .done .done) (.goto (.st 530) .done) .done) (.goto (.st 0) .done)), .st 530⟩
/-- rfc5424/builder.go:6144 -/
def st530 : K × Lbl := ⟨.stmt .incP (.ifElse .pEqPe (.goto (.testEofN 530) .done) .done .done), .stCase 530⟩
/-- rfc5424/builder.go:6148 -/
def stCase530 : K × Lbl := ⟨.ifElse (.cmp .eq .byte (.lit 33)) (.goto (.st 531) .done) .done (.ifElse (.cmp .lt .byte (.lit 62)) (.ifElse (.and (.cmp .le (.lit 35) .byte) (.cmp .le .byte (.lit 60))) (.goto (.st 531) .done) .done .done) (.ifElse (.cmp .gt .byte (.lit 92)) (.ifElse (.and (.cmp .le (.lit 94) .byte) (.cmp .le .byte (.lit 126))) (.goto (.st 531) .done) .done .done) (.goto (.st 531) .done) .done) (.goto (.st 0) .done)), .st 531⟩
/-- rfc5424/builder.go:6165 -/
def st531 : K × Lbl := ⟨.stmt .incP (.ifElse .pEqPe (.goto (.testEofN 531) .done) .done .done), .stCase 531⟩
/-- rfc5424/builder.go:6169 -/
def stCase531 : K × Lbl := ⟨.ifElse (.cmp .eq .byte (.lit 33)) (.goto (.st 532) .done) .done (.ifElse (.cmp .lt .byte (.lit 62)) (.ifElse (.and (.cmp .le (.lit 35) .byte) (.cmp .le .byte (.lit 60))) (.goto (.st 532) .done) .done .done) (.ifElse (.cmp .gt .byte (.lit 92)) (.ifElse (.and (.cmp .le (.lit 94) .byte) (.cmp .le .byte (.lit 126))) (.goto (.st 532) .done) .done .done) (.goto (.st 532) .done) .done) (.goto (.st 0) .done)), .st 532⟩
/-- rfc5424/builder.go:6186 -/
def st532 : K × Lbl := ⟨.stmt .incP (.ifElse .pEqPe (.goto (.testEofN 532) .done) .done .done), .stCase 532⟩
/-- rfc5424/builder.go:6190 -/
def stCase532 : K × Lbl := ⟨.ifElse (.cmp .eq .byte (.lit 33)) (.goto (.st 533) .done) .done (.ifElse (.cmp .lt .byte (.lit 62)) (.ifElse (.and (.cmp .le (.lit 35) .byte) (.cmp .le .byte (.lit 60))) (.goto (.st 533) .done) .done .done) (.ifElse (.cmp .gt .byte (.lit 92)) (.ifElse (.and (.cmp .le (.lit 94) .byte) (.cmp .le .byte (.lit 126))) (.goto (.st 533) .done) .done .done) (.goto (.st 533) .done) .done) (.goto (.st 0) .done)), .st 533⟩
/-- rfc5424/builder.go:6207 -/
def st533 : K × Lbl := ⟨.stmt .incP (.ifElse .pEqPe (.goto (.testEofN 533) .done) .done .done), .stCase 533⟩
/-- rfc5424/builder.go:6211 -/
def stCase533 : K × Lbl := ⟨.ifElse (.cmp .eq .byte (.lit 33)) (.goto (.st 534) .done) .done (.ifElse (.cmp .lt .byte (.lit 62)) (.ifElse (.and (.cmp .le (.lit 35) .byte) (.cmp .le .byte (.lit 60))) (.goto (.st 534) .done) .done .done) (.ifElse (.cmp .gt .byte (.lit 92)) (.ifElse (.and (.cmp .le (.lit 94) .byte) (.cmp .le .byte (.lit 126))) (.goto (.st 534) .done) .done .done) (.goto (.st 534) .done) .done) (.goto (.st 0) .done)), .st 534⟩
/-- rfc5424/builder.go:6228 -/
def st534 : K × Lbl := ⟨.stmt .incP (.ifElse .pEqPe (.goto (.testEofN 534) .done) .done .done), .stCase 534⟩
/-- rfc5424/builder.go:6232 -/
def stCase534 : K × Lbl := ⟨.ifElse (.cmp .eq .byte (.lit 33)) (.goto (.st 535) .done) .done (.ifElse (.cmp .lt .byte (.lit 62)) (.ifElse (.and (.cmp .le (.lit 35) .byte) (.cmp .le .byte (.lit 60))) (.goto (.st 535) .done) .done .done) (.ifElse (.cmp .gt .byte (.lit 92)) (.ifElse (.and (.cmp .le (.lit 94) .byte) (.cmp .le .byte (.lit 126))) (.goto (.st 535) .done) .done .done) (.goto (.st 535) .done) .done) (.goto (.st 0) .done)), .st 535⟩
/-- rfc5424/builder.go:6249 -/
def st535 : K × Lbl := ⟨.stmt .incP (.ifElse .pEqPe (.goto (.testEofN 535) .done) .done .done), .stCase 535⟩
/-- rfc5424/builder.go:6253 -/
def stCase535 : K × Lbl := ⟨.ifElse (.cmp .eq .byte (.lit 33)) (.goto (.st 536) .done) .done (.ifElse (.cmp .lt .byte (.lit 62)) (.ifElse (.and (.cmp .le (.lit 35) .byte) (.cmp .le .byte (.lit 60))) (.goto (.st 536) .done) .done .done) (.ifElse (.cmp .gt .byte (.lit 92)) (.ifElse (.and (.cmp .le (.lit 94) .byte) (.cmp .le .byte (.lit 126))) (.goto (.st 536) .done) .done .done) (.goto (.st 536) .done) .done) (.goto (.st 0) .done)), .st 536⟩
/-- rfc5424/builder.go:6270 -/
def st536 : K × Lbl := ⟨.stmt .incP (.ifElse .pEqPe (.goto (.testEofN 536) .done) .done .done), .stCase 536⟩
/-- rfc5424/builder.go:6274 -/
def stCase536 : K × Lbl := ⟨.ifElse (.cmp .eq .byte (.lit 33)) (.goto (.st 537) .done) .done (.ifElse (.cmp .lt .byte (.lit 62)) (.ifElse (.and (.cmp .le (.lit 35) .byte) (.cmp .le .byte (.lit 60))) (.goto (.st 537) .done) .done .done) (.ifElse (.cmp .gt .byte (.lit 92)) (.ifElse (.and (.cmp .le (.lit 94) .byte) (.cmp .le .byte (.lit 126))) (.goto (.st 537) .done) .done .done) (.goto (.st 537) .done) .done) (.goto (.st 0) .done)), .st 537⟩
/-- rfc5424/builder.go:6291 -/
def st537 : K × Lbl := ⟨.stmt .incP (.ifElse .pEqPe (.goto (.testEofN 537) .done) .done .done), .stCase 537⟩
/-- rfc5424/builder.go:6295 -/
def stCase537 : K × Lbl := ⟨.ifElse (.cmp .eq .byte (.lit 33)) (.goto (.st 538) .done) .done (.ifElse (.cmp .lt .byte (.lit 62)) (.ifElse (.and (.cmp .le (.lit 35) .byte) (.cmp .le .byte (.lit 60))) (.goto (.st 538) .done) .done .done) (.ifElse (.cmp .gt .byte (.lit 92)) (.ifElse (.and (.cmp .le (.lit 94) .byte) (.cmp .le .byte (.lit 126))) (.goto (.st 538) .done) .done .done) (.goto (.st 538) .done) .done) (.goto (.st 0) .done)), .st 538⟩
/-- rfc5424/builder.go:6312 -/
def st538 : K × Lbl := ⟨.stmt .incP (.ifElse .pEqPe (.goto (.testEofN 538) .done) .done .done), .stCase 538⟩
/-- rfc5424/builder.go:6316 -/
def stCase538 : K × Lbl := ⟨.ifElse (.cmp .eq .byte (.lit 33)) (.goto (.st 539) .done) .done (.ifElse (.cmp .lt .byte (.lit 62)) (.ifElse (.and (.cmp .le (.lit 35) .byte) (.cmp .le .byte (.lit 60))) (.goto (.st 539) .done) .done .done) (.ifElse (.cmp .gt .byte (.lit 92)) (.ifElse (.and (.cmp .le (.lit 94) .byte) (.cmp .le .byte (.lit 126))) (.goto (.st 539) .done) .done .done) (.goto (.st 539) .done) .done) (.goto (.st 0) .done)), .st 539⟩
/-- rfc5424/builder.go:6333 -/
def st539 : K × Lbl := ⟨.stmt .incP (.ifElse .pEqPe (.goto (.testEofN 539) .done) .done .done), .stCase 539⟩
/-- rfc5424/builder.go:6337 -/
def stCase539 : K × Lbl := ⟨.ifElse (.cmp .eq .byte (.lit 33)) (.goto (.st 540) .done) .done (.ifElse (.cmp .lt .byte (.lit 62)) (.ifElse (.and (.cmp .le (.lit 35) .byte) (.cmp .le .byte (.lit 60))) (.goto (.st 540) .done) .done .done) (.ifElse (.cmp .gt .byte (.lit 92)) (.ifElse (.and (.cmp .le (.lit 94) .byte) (.cmp .le .byte (.lit 126))) (.goto (.st 540) .done) .done .done) (.goto (.st 540) .done) .done) (.goto (.st 0) .done)), .st 540⟩
/-- rfc5424/builder.go:6354 -/
def st540 : K × Lbl := ⟨.stmt .incP (.ifElse .pEqPe (.goto (.testEofN 540) .done) .done .done), .stCase 540⟩
/-- rfc5424/builder.go:6358 -/
def stCase540 : K × Lbl := ⟨.ifElse (.cmp .eq .byte (.lit 33)) (.goto (.st 541) .done) .done (.ifElse (.cmp .lt .byte (.lit 62)) (.ifElse (.and (.cmp .le (.lit 35) .byte) (.cmp .le .byte (.lit 60))) (.goto (.st 541) .done) .done .done) (.ifElse (.cmp .gt .byte (.lit 92)) (.ifElse (.and (.cmp .le (.lit 94) .byte) (.cmp .le .byte (.lit 126))) (.goto (.st 541) .done) .done .done) (.goto (.st 541) .done) .done) (.goto (.st 0) .done)), .st 541⟩
/-- rfc5424/builder.go:6375 -/
def st541 : K × Lbl := ⟨.stmt .incP (.ifElse .pEqPe (.goto (.testEofN 541) .done) .done .done), .stCase 541⟩
/-- rfc5424/builder.go:6379 -/
def stCase541 : K × Lbl := ⟨.ifElse (.cmp .eq .byte (.lit 33)) (.goto (.st 542) .done) .done (.ifElse (.cmp .lt .byte (.lit 62)) (.ifElse (.and (.cmp .le (.lit 35) .byte) (.cmp .le .byte (.lit 60))) (.goto (.st 542) .done) .done .done) (.ifElse (.cmp .gt .byte (.lit 92)) (.ifElse (.and (.cmp .le (.lit 94) .byte) (.cmp .le .byte (.lit 126))) (.goto (.st 542) .done) .done .done) (.goto (.st 542) .done) .done) (.goto (.st 0) .done)), .st 542⟩
/-- rfc5424/builder.go:6396 -/
def st542 : K × Lbl := ⟨.stmt .incP (.ifElse .pEqPe (.goto (.testEofN 542) .done) .done .done), .stCase 542⟩
/-- rfc5424/builder.go:6400 -/
def stCase542 : K × Lbl := ⟨.ifElse (.cmp .eq .byte (.lit 33)) (.goto (.st 543) .done) .done (.ifElse (.cmp .lt .byte (.lit 62)) (.ifElse (.and (.cmp .le (.lit 35) .byte) (.cmp .le .byte (.lit 60))) (.goto (.st 543) .done) .done .done) (.ifElse (.cmp .gt .byte (.lit 92)) (.ifElse (.and (.cmp .le (.lit 94) .byte) (.cmp .le .byte (.lit 126))) (.goto (.st 543) .done) .done .done) (.goto (.st 543) .done) .done) (.goto (.st 0) .done)), .st 543⟩
/-- rfc5424/builder.go:6417 -/
def st543 : K × Lbl := ⟨.stmt .incP (.ifElse .pEqPe (.goto (.testEofN 543) .done) .done .done), .stCase 543⟩
/-- rfc5424/builder.go:6421 -/
def stCase543 : K × Lbl := ⟨.ifElse (.cmp .eq .byte (.lit 33)) (.goto (.st 544) .done) .done (.ifElse (.cmp .lt .byte (.lit 62)) (.ifElse (.and (.cmp .le (.lit 35) .byte) (.cmp .le .byte (.lit 60))) (.goto (.st 544) .done) .done .done) (.ifElse (.cmp .gt .byte (.lit 92)) (.ifElse (.and (.cmp .le (.lit 94) .byte) (.cmp .le .byte (.lit 126))) (.goto (.st 544) .done) .done .done) (.goto (.st 544) .done) .done) (.goto (.st 0) .done)), .st 544⟩
/-- rfc5424/builder.go:6438 -/
def st544 : K × Lbl := ⟨.stmt .incP (.ifElse .pEqPe (.goto (.testEofN 544) .done) .done .done), .stCase 544⟩
/-- rfc5424/builder.go:6442 -/
def stCase544 : K × Lbl := ⟨.ifElse (.cmp .eq .byte (.lit 33)) (.goto (.st 545) .done) .done (.ifElse (.cmp .lt .byte (.lit 62)) (.ifElse (.and (.cmp .le (.lit 35) .byte) (.cmp .le .byte (.lit 60))) (.goto (.st 545) .done) .done .done) (.ifElse (.cmp .gt .byte (.lit 92)) (.ifElse (.and (.cmp .le (.lit 94) .byte) (.cmp .le .byte (.lit 126))) (.goto (.st 545) .done) .done .done) (.goto (.st 545) .done) .done) (.goto (.st 0) .done)), .st 545⟩
/-- rfc5424/builder.go:6459 -/
def st545 : K × Lbl := ⟨.stmt .incP (.ifElse .pEqPe (.goto (.testEofN 545) .done) .done .done), .stCase 545⟩
/-- rfc5424/builder.go:6463 -/
def stCase545 : K × Lbl := ⟨.ifElse (.cmp .eq .byte (.lit 33)) (.goto (.st 546) .done) .done (.ifElse (.cmp .lt .byte (.lit 62)) (.ifElse (.and (.cmp .le (.lit 35) .byte) (.cmp .le .byte (.lit 60))) (.goto (.st 546) .done) .done .done) (.ifElse (.cmp .gt .byte (.lit 92)) (.ifElse (.and (.cmp .le (.lit 94) .byte) (.cmp .le .byte (.lit 126))) (.goto (.st 546) .done) .done .done) (.goto (.st 546) .done) .done) (.goto (.st 0) .done)), .st 546⟩
/-- rfc5424/builder.go:6480 -/
def st546 : K × Lbl := ⟨.stmt .incP (.ifElse .pEqPe (.goto (.testEofN 546) .done) .done .done), .stCase 546⟩
/-- rfc5424/builder.go:6484 -/
def stCase546 : K × Lbl := ⟨.ifElse (.cmp .eq .byte (.lit 33)) (.goto (.st 547) .done) .done (.ifElse (.cmp .lt .byte (.lit 62)) (.ifElse (.and (.cmp .le (.lit 35) .byte) (.cmp .le .byte (.lit 60))) (.goto (.st 547) .done) .done .done) (.ifElse (.cmp .gt .byte (.lit 92)) (.ifElse (.and (.cmp .le (.lit 94) .byte) (.cmp .le .byte (.lit 126))) (.goto (.st 547) .done) .done .done) (.goto (.st 547) .done) .done) (.goto (.st 0) .done)), .st 547⟩
/-- rfc5424/builder.go:6501 -/
def st547 : K × Lbl := ⟨.stmt .incP (.ifElse .pEqPe (.goto (.testEofN 547) .done) .done .done), .stCase 547⟩
/-- rfc5424/builder.go:6505 -/
def stCase547 : K × Lbl := ⟨.ifElse (.cmp .eq .byte (.lit 33)) (.goto (.st 548) .done) .done (.ifElse (.cmp .lt .byte (.lit 62)) (.ifElse (.and (.cmp .le (.lit 35) .byte) (.cmp .le .byte (.lit 60))) (.goto (.st 548) .done) .done .done) (.ifElse (.cmp .gt .byte (.lit 92)) (.ifElse (.and (.cmp .le (.lit 94) .byte) (.cmp .le .byte (.lit 126))) (.goto (.st 548) .done) .done .done) (.goto (.st 548) .done) .done) (.goto (.st 0) .done)), .st 548⟩
/-- rfc5424/builder.go:6522 -/
def st548 : K × Lbl := ⟨.stmt .incP (.ifElse .pEqPe (.goto (.testEofN 548) .done) .done .done), .stCase 548⟩
/-- rfc5424/builder.go:6526 -/
def stCase548 : K × Lbl := ⟨.ifElse (.cmp .eq .byte (.lit 33)) (.goto (.st 549) .done) .done (.ifElse (.cmp .lt .byte (.lit 62)) (.ifElse (.and (.cmp .le (.lit 35) .byte) (.cmp .le .byte (.lit 60))) (.goto (.st 549) .done) .done .done) (.ifElse (.cmp .gt .byte (.lit 92)) (.ifElse (.and (.cmp .le (.lit 94) .byte) (.cmp .le .byte (.lit 126))) (.goto (.st 549) .done) .done .done) (.goto (.st 549) .done) .done) (.goto (.st 0) .done)), .st 549⟩
/-- rfc5424/builder.go:6543 -/
def st549 : K × Lbl := ⟨.stmt .incP (.ifElse .pEqPe (.goto (.testEofN 549) .done) .done .done), .stCase 549⟩
/-- rfc5424/builder.go:6547 -/
def stCase549 : K × Lbl := ⟨.goto (.st 0) .done, .stCase 43⟩
/-- rfc5424/builder.go:6549 -/
def stCase43 : K × Lbl := ⟨.ifElse (.cmp .eq .byte (.lit 33)) (.goto (.tr 43) .done) .done (.ifElse (.cmp .lt .byte (.lit 62)) (.ifElse (.and (.cmp .le (.lit 35) .byte) (.cmp .le .byte (.lit 60))) (.goto (.tr 43) .done) .done .done) (.ifElse (.cmp .gt .byte (.lit 92)) (.ifElse (.and (.cmp .le (.lit 94) .byte) (.cmp .le .byte (.lit 126))) (.goto (.tr 43) .done) .done .done) (.goto (.tr 43) .done) .done) (.goto (.st 0) .done)), .tr 43⟩
/-- rfc5424/builder.go:6566 -/
def tr43 : K × Lbl := ⟨.stmt (.prim .pbP) (.goto (.st 550) .done), .st 550⟩
/-- rfc5424/builder.go:6571 -/
def st550 : K × Lbl := ⟨.stmt .incP (.ifElse .pEqPe (.goto (.testEofN 550) .done) .done .done), .stCase 550⟩
/-- rfc5424/builder.go:6575 -/
def stCase550 : K × Lbl := ⟨.ifElse (.cmp .eq .byte (.lit 33)) (.goto (.st 551) .done) .done (.ifElse (.cmp .lt .byte (.lit 62)) (.ifElse (.and (.cmp .le (.lit 35) .byte) (.cmp .le .byte (.lit 60))) (.goto (.st 551) .done) .done .done) (.ifElse (.cmp .gt .byte (.lit 92)) (.ifElse (.and (.cmp .le (.lit 94) .byte) (.cmp .le .byte (.lit 126))) (.goto (.st 551) .done) .done .done) (.goto (.st 551) .done) .done) (.goto (.st 0) .done)), .st 551⟩
/-- rfc5424/builder.go:6592 -/
def st551 : K × Lbl := ⟨.stmt .incP (.ifElse .pEqPe (.goto (.testEofN 551) .done) .done .done), .stCase 551⟩
/-- rfc5424/builder.go:6596 -/
def stCase551 : K × Lbl := ⟨.ifElse (.cmp .eq .byte (.lit 33)) (.goto (.st 552) .done) .done (.ifElse (.cmp .lt .byte (.lit 62)) (.ifElse (.and (.cmp .le (.lit 35) .byte) (.cmp .le .byte (.lit 60))) (.goto (.st 552) .done) .done .done) (.ifElse (.cmp .gt .byte (.lit 92)) (.ifElse (.and (.cmp .le (.lit 94) .byte) (.cmp .le .byte (.lit 126))) (.goto (.st 552) .done) .done .done) (.goto (.st 552) .done) .done) (.goto (.st 0) .done)), .st 552⟩
/-- rfc5424/builder.go:6613 -/
def st552 : K × Lbl := ⟨.stmt .incP (.ifElse .pEqPe (.goto (.testEofN 552) .done) .done .done), .stCase 552⟩
/-- rfc5424/builder.go:6617 -/
def stCase552 : K × Lbl := ⟨.ifElse (.cmp .eq .byte (.lit 33)) (.goto (.st 553) .done) .done (.ifElse (.cmp .lt .byte (.lit 62)) (.ifElse (.and (.cmp .le (.lit 35) .byte) (.cmp .le .byte (.lit 60))) (.goto (.st 553) .done) .done .done) (.ifElse (.cmp .gt .byte (.lit 92)) (.ifElse (.and (.cmp .le (.lit 94) .byte) (.cmp .le .byte (.lit 126))) (.goto (.st 553) .done) .done .done) (.goto (.st 553) .done) .done) (.goto (.st 0) .done)), .st 553⟩
/-- rfc5424/builder.go:6634 -/
def st553 : K × Lbl := ⟨.stmt .incP (.ifElse .pEqPe (.goto (.testEofN 553) .done) .done .done), .stCase 553⟩
/-- rfc5424/builder.go:6638 -/
def stCase553 : K × Lbl := ⟨.ifElse (.cmp .eq .byte (.lit 33)) (.goto (.st 554) .done) .done (.ifElse (.cmp .lt .byte (.lit 62)) (.ifElse (.and (.cmp .le (.lit 35) .byte) (.cmp .le .byte (.lit 60))) (.goto (.st 554) .done) .done .done) (.ifElse (.cmp .gt .byte (.lit 92)) (.ifElse (.and (.cmp .le (.lit 94) .byte) (.cmp .le .byte (.lit 126))) (.goto (.st 554) .done) .done .done) (.goto (.st 554) .done) .done) (.goto (.st 0) .done)), .st 554⟩
/-- rfc5424/builder.go:6655 -/
def st554 : K × Lbl := ⟨.stmt .incP (.ifElse .pEqPe (.goto (.testEofN 554) .done) .done .done), .stCase 554⟩
/-- rfc5424/builder.go:6659 -/
def stCase554 : K × Lbl := ⟨.ifElse (.cmp .eq .byte (.lit 33)) (.goto (.st 555) .done) .done (.ifElse (.cmp .lt .byte (.lit 62)) (.ifElse (.and (.cmp .le (.lit 35) .byte) (.cmp .le .byte (.lit 60))) (.goto (.st 555) .done) .done .done) (.ifElse (.cmp .gt .byte (.lit 92)) (.ifElse (.and (.cmp .le (.lit 94) .byte) (.cmp .le .byte (.lit 126))) (.goto (.st 555) .done) .done .done) (.goto (.st 555) .done) .done) (.goto (.st 0) .done)), .st 555⟩
/-- rfc5424/builder.go:6676 -/
def st555 : K × Lbl := ⟨.stmt .incP (.ifElse .pEqPe (.goto (.testEofN 555) .done) .done .done), .stCase 555⟩
/-- rfc5424/builder.go:6680 -/
def stCase555 : K × Lbl := ⟨.ifElse (.cmp .eq .byte (.lit 33)) (.goto (.st 556) .done) .done (.ifElse (.cmp .lt .byte (.lit 62)) (.ifElse (.and (.cmp .le (.lit 35) .byte) (.cmp .le .byte (.lit 60))) (.goto (.st 556) .done) .done .done) (.ifElse (.cmp .gt .byte (.lit 92)) (.ifElse (.and (.cmp .le (.lit 94) .byte) (.cmp .le .byte (.lit 126))) (.goto (.st 556) .done) .done .done) (.goto (.st 556) .done) .done) (.goto (.st 0) .done)), .st 556⟩
/-- rfc5424/builder.go:6697 -/
def st556 : K × Lbl := ⟨.stmt .incP (.ifElse .pEqPe (.goto (.testEofN 556) .done) .done .done), .stCase 556⟩
/-- rfc5424/builder.go:6701 -/
def stCase556 : K × Lbl := ⟨.ifElse (.cmp .eq .byte (.lit 33)) (.goto (.st 557) .done) .done (.ifElse (.cmp .lt .byte (.lit 62)) (.ifElse (.and (.cmp .le (.lit 35) .byte) (.cmp .le .byte (.lit 60))) (.goto (.st 557) .done) .done .done) (.ifElse (.cmp .gt .byte (.lit 92)) (.ifElse (.and (.cmp .le (.lit 94) .byte) (.cmp .le .byte (.lit 126))) (.goto (.st 557) .done) .done .done) (.goto (.st 557) .done) .done) (.goto (.st 0) .done)), .st 557⟩
/-- rfc5424/builder.go:6718 -/
def st557 : K × Lbl := ⟨.stmt .incP (.ifElse .pEqPe (.goto (.testEofN 557) .done) .done .done), .stCase 557⟩
/-- rfc5424/builder.go:6722 -/
def stCase557 : K × Lbl := ⟨.ifElse (.cmp .eq .byte (.lit 33)) (.goto (.st 558) .done) .done (.ifElse (.cmp .lt .byte (.lit 62)) (.ifElse (.and (.cmp .le (.lit 35) .byte) (.cmp .le .byte (.lit 60))) (.goto (.st 558) .done) .done .done) (.ifElse (.cmp .gt .byte (.lit 92)) (.ifElse (.and (.cmp .le (.lit 94) .byte) (.cmp .le .byte (.lit 126))) (.goto (.st 558) .done) .done .done) (.goto (.st 558) .done) .done) (.goto (.st 0) .done)), .st 558⟩
/-- rfc5424/builder.go:6739 -/
def st558 : K × Lbl := ⟨.stmt .incP (.ifElse .pEqPe (.goto (.testEofN 558) .done) .done .done), .stCase 558⟩
/-- rfc5424/builder.go:6743 -/
def stCase558 : K × Lbl := ⟨.ifElse (.cmp .eq .byte (.lit 33)) (.goto (.st 559) .done) .done (.ifElse (.cmp .lt .byte (.lit 62)) (.ifElse (.and (.cmp .le (.lit 35) .byte) (.cmp .le .byte (.lit 60))) (.goto (.st 559) .done) .done .done) (.ifElse (.cmp .gt .byte (.lit 92)) (.ifElse (.and (.cmp .le (.lit 94) .byte) (.cmp .le .byte (.lit 126))) (.goto (.st 559) .done) .done .done) (.goto (.st 559) .done) .done) (.goto (.st 0) .done)), .st 559⟩
/-- rfc5424/builder.go:6760 -/
def st559 : K × Lbl := ⟨.stmt .incP (.ifElse .pEqPe (.goto (.testEofN 559) .done) .done .done), .stCase 559⟩
/-- rfc5424/builder.go:6764 -/
def stCase559 : K × Lbl := ⟨.ifElse (.cmp .eq .byte (.lit 33)) (.goto (.st 560) .done) .done (.ifElse (.cmp .lt .byte (.lit 62)) (.ifElse (.and (.cmp .le (.lit 35) .byte) (.cmp .le .byte (.lit 60))) (.goto (.st 560) .done) .done .done) (.ifElse (.cmp .gt .byte (.lit 92)) (.ifElse (.and (.cmp .le (.lit 94) .byte) (.cmp .le .byte (.lit 126))) (.goto (.st 560) .done) .done .done) (.goto (.st 560) .done) .done) (.goto (.st 0) .done)), .st 560⟩
/-- rfc5424/builder.go:6781 -/
def st560 : K × Lbl := ⟨.stmt .incP (.ifElse .pEqPe (.goto (.testEofN 560) .done) .done .done), .stCase 560⟩
/-- rfc5424/builder.go:6785 -/
def stCase560 : K × Lbl := ⟨.ifElse (.cmp .eq .byte (.lit 33)) (.goto (.st 561) .done) .done (.ifElse (.cmp .lt .byte (.lit 62)) (.ifElse (.and (.cmp .le (.lit 35) .byte) (.cmp .le .byte (.lit 60))) (.goto (.st 561) .done) .done .done) (.ifElse (.cmp .gt .byte (.lit 92)) (.ifElse (.and (.cmp .le (.lit 94) .byte) (.cmp .le .byte (.lit 126))) (.goto (.st 561) .done) .done .done) (.goto (.st 561) .done) .done) (.goto (.st 0) .done)), .st 561⟩
/-- rfc5424/builder.go:6802 -/
def st561 : K × Lbl := ⟨.stmt .incP (.ifElse .pEqPe (.goto (.testEofN 561) .done) .done .done), .stCase 561⟩
/-- rfc5424/builder.go:6806 -/
def stCase561 : K × Lbl := ⟨.ifElse (.cmp .eq .byte (.lit 33)) (.goto (.st 562) .done) .done (.ifElse (.cmp .lt .byte (.lit 62)) (.ifElse (.and (.cmp .le (.lit 35) .byte) (.cmp .le .byte (.lit 60))) (.goto (.st 562) .done) .done .done) (.ifElse (.cmp .gt .byte (.lit 92)) (.ifElse (.and (.cmp .le (.lit 94) .byte) (.cmp .le .byte (.lit 126))) (.goto (.st 562) .done) .done .done) (.goto (.st 562) .done) .done) (.goto (.st 0) .done)), .st 562⟩
/-- rfc5424/builder.go:6823 -/
def st562 : K × Lbl := ⟨.stmt .incP (.ifElse .pEqPe (.goto (.testEofN 562) .done) .done .done), .stCase 562⟩
/-- rfc5424/builder.go:6827 -/
def stCase562 : K × Lbl := ⟨.ifElse (.cmp .eq .byte (.lit 33)) (.goto (.st 563) .done) .done (.ifElse (.cmp .lt .byte (.lit 62)) (.ifElse (.and (.cmp .le (.lit 35) .byte) (.cmp .le .byte (.lit 60))) (.goto (.st 563) .done) .done .done) (.ifElse (.cmp .gt .byte (.lit 92)) (.ifElse (.and (.cmp .le (.lit 94) .byte) (.cmp .le .byte (.lit 126))) (.goto (.st 563) .done) .done .done) (.goto (.st 563) .done) .done) (.goto (.st 0) .done)), .st 563⟩
/-- rfc5424/builder.go:6844 -/
def st563 : K × Lbl := ⟨.stmt .incP (.ifElse .pEqPe (.goto (.testEofN 563) .done) .done .done), .stCase 563⟩
/-- rfc5424/builder.go:6848 -/
def stCase563 : K × Lbl := ⟨.ifElse (.cmp .eq .byte (.lit 33)) (.goto (.st 564) .done) .done (.ifElse (.cmp .lt .byte (.lit 62)) (.ifElse (.and (.cmp .le (.lit 35) .byte) (.cmp .le .byte (.lit 60))) (.goto (.st 564) .done) .done .done) (.ifElse (.cmp .gt .byte (.lit 92)) (.ifElse (.and (.cmp .le (.lit 94) .byte) (.cmp .le .byte (.lit 126))) (.goto (.st 564) .done) .done .done) (.goto (.st 564) .done) .done) (.goto (.st 0) .done)), .st 564⟩
/-- rfc5424/builder.go:6865 -/
def st564 : K × Lbl := ⟨.stmt .incP (.ifElse .pEqPe (.goto (.testEofN 564) .done) .done .done), .stCase 564⟩
/-- rfc5424/builder.go:6869 -/
def stCase564 : K × Lbl := ⟨.ifElse (.cmp .eq .byte (.lit 33)) (.goto (.st 565) .done) .done (.ifElse (.cmp .lt .byte (.lit 62)) (.ifElse (.and (.cmp .le (.lit 35) .byte) (.cmp .le .byte (.lit 60))) (.goto (.st 565) .done) .done .done) (.ifElse (.cmp .gt .byte (.lit 92)) (.ifElse (.and (.cmp .le (.lit 94) .byte) (.cmp .le .byte (.lit 126))) (.goto (.st 565) .done) .done .done) (.goto (.st 565) .done) .done) (.goto (.st 0) .done)), .st 565⟩
/-- rfc5424/builder.go:6886 -/
def st565 : K × Lbl := ⟨.stmt .incP (.ifElse .pEqPe (.goto (.testEofN 565) .done) .done .done), .stCase 565⟩
/-- rfc5424/builder.go:6890 -/
def stCase565 : K × Lbl := ⟨.ifElse (.cmp .eq .byte (.lit 33)) (.goto (.st 566) .done) .done (.ifElse (.cmp .lt .byte (.lit 62)) (.ifElse (.and (.cmp .le (.lit 35) .byte) (.cmp .le .byte (.lit 60))) (.goto (.st 566) .done) .done .done) (.ifElse (.cmp .gt .byte (.lit 92)) (.ifElse (.and (.cmp .le (.lit 94) .byte) (.cmp .le .byte (.lit 126))) (.goto (.st 566) .done) .done .done) (.goto (.st 566) .done) .done) (.goto (.st 0) .done)), .st 566⟩
/-- rfc5424/builder.go:6907 -/
def st566 : K × Lbl := ⟨.stmt .incP (.ifElse .pEqPe (.goto (.testEofN 566) .done) .done .done), .stCase 566⟩
/-- rfc5424/builder.go:6911 -/
def stCase566 : K × Lbl := ⟨.ifElse (.cmp .eq .byte (.lit 33)) (.goto (.st 567) .done) .done (.ifElse (.cmp .lt .byte (.lit 62)) (.ifElse (.and (.cmp .le (.lit 35) .byte) (.cmp .le .byte (.lit 60))) (.goto (.st 567) .done) .done .done) (.ifElse (.cmp .gt .byte (.lit 92)) (.ifElse (.and (.cmp .le (.lit 94) .byte) (.cmp .le .byte (.lit 126))) (.goto (.st 567) .done) .done .done) (.goto (.st 567) .done) .done) (.goto (.st 0) .done)), .st 567⟩
/-- rfc5424/builder.go:6928 -/
def st567 : K × Lbl := ⟨.stmt .incP (.ifElse .pEqPe (.goto (.testEofN 567) .done) .done .done), .stCase 567⟩
/-- rfc5424/builder.go:6932 -/
def stCase567 : K × Lbl := ⟨.ifElse (.cmp .eq .byte (.lit 33)) (.goto (.st 568) .done) .done (.ifElse (.cmp .lt .byte (.lit 62)) (.ifElse (.and (.cmp .le (.lit 35) .byte) (.cmp .le .byte (.lit 60))) (.goto (.st 568) .done) .done .done) (.ifElse (.cmp .gt .byte (.lit 92)) (.ifElse (.and (.cmp .le (.lit 94) .byte) (.cmp .le .byte (.lit 126))) (.goto (.st 568) .done) .done .done) (.goto (.st 568) .done) .done) (.goto (.st 0) .done)), .st 568⟩
/-- rfc5424/builder.go:6949 -/
def st568 : K × Lbl := ⟨.stmt .incP (.ifElse .pEqPe (.goto (.testEofN 568) .done) .done .done), .stCase 568⟩
/-- rfc5424/builder.go:6953 -/
def stCase568 : K × Lbl := ⟨.ifElse (.cmp .eq .byte (.lit 33)) (.goto (.st 569) .done) .done (.ifElse (.cmp .lt .byte (.lit 62)) (.ifElse (.and (.cmp .le (.lit 35) .byte) (.cmp .le .byte (.lit 60))) (.goto (.st 569) .done) .done .done) (.ifElse (.cmp .gt .byte (.lit 92)) (.ifElse (.and (.cmp .le (.lit 94) .byte) (.cmp .le .byte (.lit 126))) (.goto (.st 569) .done) .done .done) (.goto (.st 569) .done) .done) (.goto (.st 0) .done)), .st 569⟩
/-- rfc5424/builder.go:6970 -/
def st569 : K × Lbl := ⟨.stmt .incP (.ifElse .pEqPe (.goto (.testEofN 569) .done) .done .done), .stCase 569⟩
/-- rfc5424/builder.go:6974 -/
def stCase569 : K × Lbl := ⟨.ifElse (.cmp .eq .byte (.lit 33)) (.goto (.st 570) .done) .done (.ifElse (.cmp .lt .byte (.lit 62)) (.ifElse (.and (.cmp .le (.lit 35) .byte) (.cmp .le .byte (.lit 60))) (.goto (.st 570) .done) .done .done) (.ifElse (.cmp .gt .byte (.lit 92)) (.ifElse (.and (.cmp .le (.lit 94) .byte) (.cmp .le .byte (.lit 126))) (.goto (.st 570) .done) .done .done) (.goto (.st 570) .done) .done) (.goto (.st 0) .done)), .st 570⟩
/-- rfc5424/builder.go:6991 -/
def st570 : K × Lbl := ⟨.stmt .incP (.ifElse .pEqPe (.goto (.testEofN 570) .done) .done .done), .stCase 570⟩
/-- rfc5424/builder.go:6995 -/
def stCase570 : K × Lbl := ⟨.ifElse (.cmp .eq .byte (.lit 33)) (.goto (.st 571) .done) .done (.ifElse (.cmp .lt .byte (.lit 62)) (.ifElse (.and (.cmp .le (.lit 35) .byte) (.cmp .le .byte (.lit 60))) (.goto (.st 571) .done) .done .done) (.ifElse (.cmp .gt .byte (.lit 92)) (.ifElse (.and (.cmp .le (.lit 94) .byte) (.cmp .le .byte (.lit 126))) (.goto (.st 571) .done) .done .done) (.goto (.st 571) .done) .done) (.goto (.st 0) .done)), .st 571⟩
/-- rfc5424/builder.go:7012 -/
def st571 : K × Lbl := ⟨.stmt .incP (.ifElse .pEqPe (.goto (.testEofN 571) .done) .done .done), .stCase 571⟩
/-- rfc5424/builder.go:7016 -/
def stCase571 : K × Lbl := ⟨.ifElse (.cmp .eq .byte (.lit 33)) (.goto (.st 572) .done) .done (.ifElse (.cmp .lt .byte (.lit 62)) (.ifElse (.and (.cmp .le (.lit 35) .byte) (.cmp .le .byte (.lit 60))) (.goto (.st 572) .done) .done .done) (.ifElse (.cmp .gt .byte (.lit 92)) (.ifElse (.and (.cmp .le (.lit 94) .byte) (.cmp .le .byte (.lit 126))) (.goto (.st 572) .done) .done .done) (.goto (.st 572) .done) .done) (.goto (.st 0) .done)), .st 572⟩
/-- rfc5424/builder.go:7033 -/
def st572 : K × Lbl := ⟨.stmt .incP (.ifElse .pEqPe (.goto (.testEofN 572) .done) .done .done), .stCase 572⟩
/-- rfc5424/builder.go:7037 -/
def stCase572 : K × Lbl := ⟨.ifElse (.cmp .eq .byte (.lit 33)) (.goto (.st 573) .done) .done (.ifElse (.cmp .lt .byte (.lit 62)) (.ifElse (.and (.cmp .le (.lit 35) .byte) (.cmp .le .byte (.lit 60))) (.goto (.st 573) .done) .done .done) (.ifElse (.cmp .gt .byte (.lit 92)) (.ifElse (.and (.cmp .le (.lit 94) .byte) (.cmp .le .byte (.lit 126))) (.goto (.st 573) .done) .done .done) (.goto (.st 573) .done) .done) (.goto (.st 0) .done)), .st 573⟩
/-- rfc5424/builder.go:7054 -/
def st573 : K × Lbl := ⟨.stmt .incP (.ifElse .pEqPe (.goto (.testEofN 573) .done) .done .done), .stCase 573⟩
/-- rfc5424/builder.go:7058 -/
def stCase573 : K × Lbl := ⟨.ifElse (.cmp .eq .byte (.lit 33)) (.goto (.st 574) .done) .done (.ifElse (.cmp .lt .byte (.lit 62)) (.ifElse (.and (.cmp .le (.lit 35) .byte) (.cmp .le .byte (.lit 60))) (.goto (.st 574) .done) .done .done) (.ifElse (.cmp .gt .byte (.lit 92)) (.ifElse (.and (.cmp .le (.lit 94) .byte) (.cmp .le .byte (.lit 126))) (.goto (.st 574) .done) .done .done) (.goto (.st 574) .done) .done) (.goto (.st 0) .done)), .st 574⟩
/-- rfc5424/builder.go:7075 -/
def st574 : K × Lbl := ⟨.stmt .incP (.ifElse .pEqPe (.goto (.testEofN 574) .done) .done .done), .stCase 574⟩
/-- rfc5424/builder.go:7079 -/
def stCase574 : K × Lbl := ⟨.ifElse (.cmp .eq .byte (.lit 33)) (.goto (.st 575) .done) .done (.ifElse (.cmp .lt .byte (.lit 62)) (.ifElse (.and (.cmp .le (.lit 35) .byte) (.cmp .le .byte (.lit 60))) (.goto (.st 575) .done) .done .done) (.ifElse (.cmp .gt .byte (.lit 92)) (.ifElse (.and (.cmp .le (.lit 94) .byte) (.cmp .le .byte (.lit 126))) (.goto (.st 575) .done) .done .done) (.goto (.st 575) .done) .done) (.goto (.st 0) .done)), .st 575⟩
/-- rfc5424/builder.go:7096 -/
def st575 : K × Lbl := ⟨.stmt .incP (.ifElse .pEqPe (.goto (.testEofN 575) .done) .done .done), .stCase 575⟩
/-- rfc5424/builder.go:7100 -/
def stCase575 : K × Lbl := ⟨.ifElse (.cmp .eq .byte (.lit 33)) (.goto (.st 576) .done) .done (.ifElse (.cmp .lt .byte (.lit 62)) (.ifElse (.and (.cmp .le (.lit 35) .byte) (.cmp .le .byte (.lit 60))) (.goto (.st 576) .done) .done .done) (.ifElse (.cmp .gt .byte (.lit 92)) (.ifElse (.and (.cmp .le (.lit 94) .byte) (.cmp .le .byte (.lit 126))) (.goto (.st 576) .done) .done .done) (.goto (.st 576) .done) .done) (.goto (.st 0) .done)), .st 576⟩
/-- rfc5424/builder.go:7117 -/
def st576 : K × Lbl := ⟨.stmt .incP (.ifElse .pEqPe (.goto (.testEofN 576) .done) .done .done), .stCase 576⟩
/-- rfc5424/builder.go:7121 -/
def stCase576 : K × Lbl := ⟨.ifElse (.cmp .eq .byte (.lit 33)) (.goto (.st 577) .done) .done (.ifElse (.cmp .lt .byte (.lit 62)) (.ifElse (.and (.cmp .le (.lit 35) .byte) (.cmp .le .byte (.lit 60))) (.goto (.st 577) .done) .done .done) (.ifElse (.cmp .gt .byte (.lit 92)) (.ifElse (.and (.cmp .le (.lit 94) .byte) (.cmp .le .byte (.lit 126))) (.goto (.st 577) .done) .done .done) (.goto (.st 577) .done) .done) (.goto (.st 0) .done)), .st 577⟩
/-- rfc5424/builder.go:7138 -/
def st577 : K × Lbl := ⟨.stmt .incP (.ifElse .pEqPe (.goto (.testEofN 577) .done) .done .done), .stCase 577⟩
/-- rfc5424/builder.go:7142 -/
def stCase577 : K × Lbl := ⟨.ifElse (.cmp .eq .byte (.lit 33)) (.goto (.st 578) .done) .done (.ifElse (.cmp .lt .byte (.lit 62)) (.ifElse (.and (.cmp .le (.lit 35) .byte) (.cmp .le .byte (.lit 60))) (.goto (.st 578) .done) .done .done) (.ifElse (.cmp .gt .byte (.lit 92)) (.ifElse (.and (.cmp .le (.lit 94) .byte) (.cmp .le .byte (.lit 126))) (.goto (.st 578) .done) .done .done) (.goto (.st 578) .done) .done) (.goto (.st 0) .done)), .st 578⟩
/-- rfc5424/builder.go:7159 -/
def st578 : K × Lbl := ⟨.stmt .incP (.ifElse .pEqPe (.goto (.testEofN 578) .done) .done .done), .stCase 578⟩
/-- rfc5424/builder.go:7163 -/
def stCase578 : K × Lbl := ⟨.ifElse (.cmp .eq .byte (.lit 33)) (.goto (.st 579) .done) .done (.ifElse (.cmp .lt .byte (.lit 62)) (.ifElse (.and (.cmp .le (.lit 35) .byte) (.cmp .le .byte (.lit 60))) (.goto (.st 579) .done) .done .done) (.ifElse (.cmp .gt .byte (.lit 92)) (.ifElse (.and (.cmp .le (.lit 94) .byte) (.cmp .le .byte (.lit 126))) (.goto (.st 579) .done) .done .done) (.goto (.st 579) .done) .done) (.goto (.st 0) .done)), .st 579⟩
/-- rfc5424/builder.go:7180 -/
def st579 : K × Lbl := ⟨.stmt .incP (.ifElse .pEqPe (.goto (.testEofN 579) .done) .done .done), .stCase 579⟩
/-- rfc5424/builder.go:7184 -/
def stCase579 : K × Lbl := ⟨.ifElse (.cmp .eq .byte (.lit 33)) (.goto (.st 580) .done) .done (.ifElse (.cmp .lt .byte (.lit 62)) (.ifElse (.and (.cmp .le (.lit 35) .byte) (.cmp .le .byte (.lit 60))) (.goto (.st 580) .done) .done .done) (.ifElse (.cmp .gt .byte (.lit 92)) (.ifElse (.and (.cmp .le (.lit 94) .byte) (.cmp .le .byte (.lit 126))) (.goto (.st 580) .done) .done .done) (.goto (.st 580) .done) .done) (.goto (.st 0) .done)), .st 580⟩
/-- rfc5424/builder.go:7201 -/
def st580 : K × Lbl := ⟨.stmt .incP (.ifElse .pEqPe (.goto (.testEofN 580) .done) .done .done), .stCase 580⟩
/-- rfc5424/builder.go:7205 -/
def stCase580 : K × Lbl := ⟨.ifElse (.cmp .eq .byte (.lit 33)) (.goto (.st 581) .done) .done (.ifElse (.cmp .lt .byte (.lit 62)) (.ifElse (.and (.cmp .le (.lit 35) .byte) (.cmp .le .byte (.lit 60))) (.goto (.st 581) .done) .done .done) (.ifElse (.cmp .gt .byte (.lit 92)) (.ifElse (.and (.cmp .le (.lit 94) .byte) (.cmp .le .byte (.lit 126))) (.goto (.st 581) .done) .done .done) (.goto (.st 581) .done) .done) (.goto (.st 0) .done)), .st 581⟩
/-- rfc5424/builder.go:7222 -/
def st581 : K × Lbl := ⟨.stmt .incP (.ifElse .pEqPe (.goto (.testEofN 581) .done) .done .done), .stCase 581⟩
/-- rfc5424/builder.go:7226 -/
def stCase581 : K × Lbl := ⟨.goto (.st 0) .done, .stCase 582⟩
/-- rfc5424/builder.go:7228 -/
def stCase582 : K × Lbl := ⟨.ifElse (.cmp .eq .byte (.lit 34)) (.goto (.st 0) .done) (.ifElse (.cmp .eq .byte (.lit 92)) (.goto (.tr 571) .done) (.ifElse (.cmp .eq .byte (.lit 93)) (.goto (.st 0) .done) (.ifElse (.cmp .eq .byte (.lit 224)) (.goto (.tr 573) .done) (.ifElse (.cmp .eq .byte (.lit 237)) (.goto (.tr 575) .done) (.ifElse (.cmp .eq .byte (.lit 240)) (.goto (.tr 576) .done) (.ifElse (.cmp .eq .byte (.lit 244)) (.goto (.tr 578) .done) .done .done) .done) .done) .done) .done) .done) (.ifElse (.cmp .lt .byte (.lit 225)) (.ifElse (.cmp .gt .byte (.lit 193)) (.ifElse (.and (.cmp .le (.lit 194) .byte) (.cmp .le .byte (.lit 223))) (.goto (.tr 572) .done) .done .done) (.ifElse (.cmp .ge .byte (.lit 128)) (.goto (.st 0) .done) .done .done) .done) (.ifElse (.cmp .gt .byte (.lit 239)) (.ifElse (.cmp .gt .byte (.lit 243)) (.ifElse (.cmp .le (.lit 245) .byte) (.goto (.st 0) .done) .done .done) (.ifElse (.cmp .ge .byte (.lit 241)) (.goto (.tr 577) .done) .done .done) .done) (.goto (.tr 574) .done) .done) (.goto (.tr 570) .done)), .tr 570⟩
/-- rfc5424/builder.go:7268 -/
def tr570 : K × Lbl := ⟨.stmt (.prim .pbP) (.goto (.st 583) .done), .st 583⟩
/-- rfc5424/builder.go:7273 -/
def st583 : K × Lbl := ⟨.stmt .incP (.ifElse .pEqPe (.goto (.testEofN 583) .done) .done .done), .stCase 583⟩
/-- rfc5424/builder.go:7277 -/
def stCase583 : K × Lbl := ⟨.ifElse (.cmp .eq .byte (.lit 34)) (.goto (.st 0) .done) (.ifElse (.cmp .eq .byte (.lit 92)) (.goto (.tr 579) .done) (.ifElse (.cmp .eq .byte (.lit 93)) (.goto (.st 0) .done) (.ifElse (.cmp .eq .byte (.lit 224)) (.goto (.st 46) .done) (.ifElse (.cmp .eq .byte (.lit 237)) (.goto (.st 48) .done) (.ifElse (.cmp .eq .byte (.lit 240)) (.goto (.st 49) .done) (.ifElse (.cmp .eq .byte (.lit 244)) (.goto (.st 51) .done) .done .done) .done) .done) .done) .done) .done) (.ifElse (.cmp .lt .byte (.lit 225)) (.ifElse (.cmp .gt .byte (.lit 193)) (.ifElse (.and (.cmp .le (.lit 194) .byte) (.cmp .le .byte (.lit 223))) (.goto (.st 45) .done) .done .done) (.ifElse (.cmp .ge .byte (.lit 128)) (.goto (.st 0) .done) .done .done) .done) (.ifElse (.cmp .gt .byte (.lit 239)) (.ifElse (.cmp .gt .byte (.lit 243)) (.ifElse (.cmp .le (.lit 245) .byte) (.goto (.st 0) .done) .done .done) (.ifElse (.cmp .ge .byte (.lit 241)) (.goto (.st 50) .done) .done .done) .done) (.goto (.st 47) .done) .done) (.goto (.st 583) .done)), .tr 571⟩
/-- rfc5424/builder.go:7317 -/
def tr571 : K × Lbl := ⟨.stmt (.prim .pbP) (.stmt (.prim .backslashesAppend) (.goto (.st 44) .done)), .tr 579⟩
/-- rfc5424/builder.go:7324 -/
def tr579 : K × Lbl := ⟨.stmt (.prim .backslashesAppend) (.goto (.st 44) .done), .st 44⟩
/-- rfc5424/builder.go:7329 -/
def st44 : K × Lbl := ⟨.stmt .incP (.ifElse .pEqPe (.goto (.testEofN 44) .done) .done .done), .stCase 44⟩
/-- rfc5424/builder.go:7333 -/
def stCase44 : K × Lbl := ⟨.ifElse (.cmp .eq .byte (.lit 34)) (.goto (.st 583) .done) .done (.ifElse (.and (.cmp .le (.lit 92) .byte) (.cmp .le .byte (.lit 93))) (.goto (.st 583) .done) .done (.goto (.st 0) .done)), .tr 572⟩
/-- rfc5424/builder.go:7341 -/
def tr572 : K × Lbl := ⟨.stmt (.prim .pbP) (.goto (.st 45) .done), .st 45⟩
/-- rfc5424/builder.go:7346 -/
def st45 : K × Lbl := ⟨.stmt .incP (.ifElse .pEqPe (.goto (.testEofN 45) .done) .done .done), .stCase 45⟩
/-- rfc5424/builder.go:7350 -/
def stCase45 : K × Lbl := ⟨.ifElse (.and (.cmp .le (.lit 128) .byte) (.cmp .le .byte (.lit 191))) (.goto (.st 583) .done) .done (.goto (.st 0) .done), .tr 573⟩
/-- rfc5424/builder.go:7355 -/
def tr573 : K × Lbl := ⟨.stmt (.prim .pbP) (.goto (.st 46) .done), .st 46⟩
/-- rfc5424/builder.go:7360 -/
def st46 : K × Lbl := ⟨.stmt .incP (.ifElse .pEqPe (.goto (.testEofN 46) .done) .done .done), .stCase 46⟩
/-- rfc5424/builder.go:7364 -/
def stCase46 : K × Lbl := ⟨.ifElse (.and (.cmp .le (.lit 160) .byte) (.cmp .le .byte (.lit 191))) (.goto (.st 45) .done) .done (.goto (.st 0) .done), .tr 574⟩
/-- rfc5424/builder.go:7369 -/
def tr574 : K × Lbl := ⟨.stmt (.prim .pbP) (.goto (.st 47) .done), .st 47⟩
/-- rfc5424/builder.go:7374 -/
def st47 : K × Lbl := ⟨.stmt .incP (.ifElse .pEqPe (.goto (.testEofN 47) .done) .done .done), .stCase 47⟩
/-- rfc5424/builder.go:7378 -/
def stCase47 : K × Lbl := ⟨.ifElse (.and (.cmp .le (.lit 128) .byte) (.cmp .le .byte (.lit 191))) (.goto (.st 45) .done) .done (.goto (.st 0) .done), .tr 575⟩
/-- rfc5424/builder.go:7383 -/
def tr575 : K × Lbl := ⟨.stmt (.prim .pbP) (.goto (.st 48) .done), .st 48⟩
/-- rfc5424/builder.go:7388 -/
def st48 : K × Lbl := ⟨.stmt .incP (.ifElse .pEqPe (.goto (.testEofN 48) .done) .done .done), .stCase 48⟩
/-- rfc5424/builder.go:7392 -/
def stCase48 : K × Lbl := ⟨.ifElse (.and (.cmp .le (.lit 128) .byte) (.cmp .le .byte (.lit 159))) (.goto (.st 45) .done) .done (.goto (.st 0) .done), .tr 576⟩
/-- rfc5424/builder.go:7397 -/
def tr576 : K × Lbl := ⟨.stmt (.prim .pbP) (.goto (.st 49) .done), .st 49⟩
/-- rfc5424/builder.go:7402 -/
def st49 : K × Lbl := ⟨.stmt .incP (.ifElse .pEqPe (.goto (.testEofN 49) .done) .done .done), .stCase 49⟩
/-- rfc5424/builder.go:7406 -/
def stCase49 : K × Lbl := ⟨.ifElse (.and (.cmp .le (.lit 144) .byte) (.cmp .le .byte (.lit 191))) (.goto (.st 47) .done) .done (.goto (.st 0) .done), .tr 577⟩
/-- rfc5424/builder.go:7411 -/
def tr577 : K × Lbl := ⟨.stmt (.prim .pbP) (.goto (.st 50) .done), .st 50⟩
/-- rfc5424/builder.go:7416 -/
def st50 : K × Lbl := ⟨.stmt .incP (.ifElse .pEqPe (.goto (.testEofN 50) .done) .done .done), .stCase 50⟩
/-- rfc5424/builder.go:7420 -/
def stCase50 : K × Lbl := ⟨.ifElse (.and (.cmp .le (.lit 128) .byte) (.cmp .le .byte (.lit 191))) (.goto (.st 47) .done) .done (.goto (.st 0) .done), .tr 578⟩
/-- rfc5424/builder.go:7425 -/
def tr578 : K × Lbl := ⟨.stmt (.prim .pbP) (.goto (.st 51) .done), .st 51⟩
/-- rfc5424/builder.go:7430 -/
def st51 : K × Lbl := ⟨.stmt .incP (.ifElse .pEqPe (.goto (.testEofN 51) .done) .done .done), .stCase 51⟩
/-- rfc5424/builder.go:7434 -/
def stCase51 : K × Lbl := ⟨.ifElse (.and (.cmp .le (.lit 128) .byte) (.cmp .le .byte (.lit 143))) (.goto (.st 47) .done) .done (.goto (.st 0) .done), .stOut⟩
/-- rfc5424/builder.go:7439 -/
def stOut : K × Lbl := ⟨.done, .testEofN 53⟩
/-- rfc5424/builder.go:7440 -/
def testEof53 : K × Lbl := ⟨.stmt (.setCs 53) (.goto .testEof .done), .testEofN 2⟩
/-- rfc5424/builder.go:7443 -/
def testEof2 : K × Lbl := ⟨.stmt (.setCs 2) (.goto .testEof .done), .testEofN 3⟩
/-- rfc5424/builder.go:7446 -/
def testEof3 : K × Lbl := ⟨.stmt (.setCs 3) (.goto .testEof .done), .testEofN 4⟩
/-- rfc5424/builder.go:7449 -/
def testEof4 : K × Lbl := ⟨.stmt (.setCs 4) (.goto .testEof .done), .testEofN 5⟩
/-- rfc5424/builder.go:7452 -/
def testEof5 : K × Lbl := ⟨.stmt (.setCs 5) (.goto .testEof .done), .testEofN 6⟩
/-- rfc5424/builder.go:7455 -/
def testEof6 : K × Lbl := ⟨.stmt (.setCs 6) (.goto .testEof .done), .testEofN 7⟩
/-- rfc5424/builder.go:7458 -/
def testEof7 : K × Lbl := ⟨.stmt (.setCs 7) (.goto .testEof .done), .testEofN 8⟩
/-- rfc5424/builder.go:7461 -/
def testEof8 : K × Lbl := ⟨.stmt (.setCs 8) (.goto .testEof .done), .testEofN 9⟩
/-- rfc5424/builder.go:7464 -/
def testEof9 : K × Lbl := ⟨.stmt (.setCs 9) (.goto .testEof .done), .testEofN 10⟩
/-- rfc5424/builder.go:7467 -/
def testEof10 : K × Lbl := ⟨.stmt (.setCs 10) (.goto .testEof .done), .testEofN 11⟩
/-- rfc5424/builder.go:7470 -/
def testEof11 : K × Lbl := ⟨.stmt (.setCs 11) (.goto .testEof .done), .testEofN 12⟩
/-- rfc5424/builder.go:7473 -/
def testEof12 : K × Lbl := ⟨.stmt (.setCs 12) (.goto .testEof .done), .testEofN 13⟩
/-- rfc5424/builder.go:7476 -/
def testEof13 : K × Lbl := ⟨.stmt (.setCs 13) (.goto .testEof .done), .testEofN 14⟩
/-- rfc5424/builder.go:7479 -/
def testEof14 : K × Lbl := ⟨.stmt (.setCs 14) (.goto .testEof .done), .testEofN 15⟩
/-- rfc5424/builder.go:7482 -/
def testEof15 : K × Lbl := ⟨.stmt (.setCs 15) (.goto .testEof .done), .testEofN 16⟩
/-- rfc5424/builder.go:7485 -/
def testEof16 : K × Lbl := ⟨.stmt (.setCs 16) (.goto .testEof .done), .testEofN 17⟩
/-- rfc5424/builder.go:7488 -/
def testEof17 : K × Lbl := ⟨.stmt (.setCs 17) (.goto .testEof .done), .testEofN 18⟩
/-- rfc5424/builder.go:7491 -/
def testEof18 : K × Lbl := ⟨.stmt (.setCs 18) (.goto .testEof .done), .testEofN 19⟩
/-- rfc5424/builder.go:7494 -/
def testEof19 : K × Lbl := ⟨.stmt (.setCs 19) (.goto .testEof .done), .testEofN 20⟩
/-- rfc5424/builder.go:7497 -/
def testEof20 : K × Lbl := ⟨.stmt (.setCs 20) (.goto .testEof .done), .testEofN 21⟩
/-- rfc5424/builder.go:7500 -/
def testEof21 : K × Lbl := ⟨.stmt (.setCs 21) (.goto .testEof .done), .testEofN 22⟩
/-- rfc5424/builder.go:7503 -/
def testEof22 : K × Lbl := ⟨.stmt (.setCs 22) (.goto .testEof .done), .testEofN 23⟩
/-- rfc5424/builder.go:7506 -/
def testEof23 : K × Lbl := ⟨.stmt (.setCs 23) (.goto .testEof .done), .testEofN 24⟩
/-- rfc5424/builder.go:7509 -/
def testEof24 : K × Lbl := ⟨.stmt (.setCs 24) (.goto .testEof .done), .testEofN 25⟩
/-- rfc5424/builder.go:7512 -/
def testEof25 : K × Lbl := ⟨.stmt (.setCs 25) (.goto .testEof .done), .testEofN 54⟩
/-- rfc5424/builder.go:7515 -/
def testEof54 : K × Lbl := ⟨.stmt (.setCs 54) (.goto .testEof .done), .testEofN 26⟩
/-- rfc5424/builder.go:7518 -/
def testEof26 : K × Lbl := ⟨.stmt (.setCs 26) (.goto .testEof .done), .testEofN 27⟩
/-- rfc5424/builder.go:7521 -/
def testEof27 : K × Lbl := ⟨.stmt (.setCs 27) (.goto .testEof .done), .testEofN 28⟩
/-- rfc5424/builder.go:7524 -/
def testEof28 : K × Lbl := ⟨.stmt (.setCs 28) (.goto .testEof .done), .testEofN 29⟩
/-- rfc5424/builder.go:7527 -/
def testEof29 : K × Lbl := ⟨.stmt (.setCs 29) (.goto .testEof .done), .testEofN 30⟩
/-- rfc5424/builder.go:7530 -/
def testEof30 : K × Lbl := ⟨.stmt (.setCs 30) (.goto .testEof .done), .testEofN 31⟩
/-- rfc5424/builder.go:7533 -/
def testEof31 : K × Lbl := ⟨.stmt (.setCs 31) (.goto .testEof .done), .testEofN 32⟩
/-- rfc5424/builder.go:7536 -/
def testEof32 : K × Lbl := ⟨.stmt (.setCs 32) (.goto .testEof .done), .testEofN 33⟩
/-- rfc5424/builder.go:7539 -/
def testEof33 : K × Lbl := ⟨.stmt (.setCs 33) (.goto .testEof .done), .testEofN 34⟩
/-- rfc5424/builder.go:7542 -/
def testEof34 : K × Lbl := ⟨.stmt (.setCs 34) (.goto .testEof .done), .testEofN 35⟩
/-- rfc5424/builder.go:7545 -/
def testEof35 : K × Lbl := ⟨.stmt (.setCs 35) (.goto .testEof .done), .testEofN 36⟩
/-- rfc5424/builder.go:7548 -/
def testEof36 : K × Lbl := ⟨.stmt (.setCs 36) (.goto .testEof .done), .testEofN 37⟩
/-- rfc5424/builder.go:7551 -/
def testEof37 : K × Lbl := ⟨.stmt (.setCs 37) (.goto .testEof .done), .testEofN 55⟩
/-- rfc5424/builder.go:7554 -/
def testEof55 : K × Lbl := ⟨.stmt (.setCs 55) (.goto .testEof .done), .testEofN 56⟩
/-- rfc5424/builder.go:7557 -/
def testEof56 : K × Lbl := ⟨.stmt (.setCs 56) (.goto .testEof .done), .testEofN 57⟩
/-- rfc5424/builder.go:7560 -/
def testEof57 : K × Lbl := ⟨.stmt (.setCs 57) (.goto .testEof .done), .testEofN 58⟩
/-- rfc5424/builder.go:7563 -/
def testEof58 : K × Lbl := ⟨.stmt (.setCs 58) (.goto .testEof .done), .testEofN 59⟩
/-- rfc5424/builder.go:7566 -/
def testEof59 : K × Lbl := ⟨.stmt (.setCs 59) (.goto .testEof .done), .testEofN 60⟩
/-- rfc5424/builder.go:7569 -/
def testEof60 : K × Lbl := ⟨.stmt (.setCs 60) (.goto .testEof .done), .testEofN 61⟩
/-- rfc5424/builder.go:7572 -/
def testEof61 : K × Lbl := ⟨.stmt (.setCs 61) (.goto .testEof .done), .testEofN 62⟩
/-- rfc5424/builder.go:7575 -/
def testEof62 : K × Lbl := ⟨.stmt (.setCs 62) (.goto .testEof .done), .testEofN 63⟩
/-- rfc5424/builder.go:7578 -/
def testEof63 : K × Lbl := ⟨.stmt (.setCs 63) (.goto .testEof .done), .testEofN 64⟩
/-- rfc5424/builder.go:7581 -/
def testEof64 : K × Lbl := ⟨.stmt (.setCs 64) (.goto .testEof .done), .testEofN 65⟩
/-- rfc5424/builder.go:7584 -/
def testEof65 : K × Lbl := ⟨.stmt (.setCs 65) (.goto .testEof .done), .testEofN 66⟩
/-- rfc5424/builder.go:7587 -/
def testEof66 : K × Lbl := ⟨.stmt (.setCs 66) (.goto .testEof .done), .testEofN 67⟩
/-- rfc5424/builder.go:7590 -/
def testEof67 : K × Lbl := ⟨.stmt (.setCs 67) (.goto .testEof .done), .testEofN 68⟩
/-- rfc5424/builder.go:7593 -/
def testEof68 : K × Lbl := ⟨.stmt (.setCs 68) (.goto .testEof .done), .testEofN 69⟩
/-- rfc5424/builder.go:7596 -/
def testEof69 : K × Lbl := ⟨.stmt (.setCs 69) (.goto .testEof .done), .testEofN 70⟩
/-- rfc5424/builder.go:7599 -/
def testEof70 : K × Lbl := ⟨.stmt (.setCs 70) (.goto .testEof .done), .testEofN 71⟩
/-- rfc5424/builder.go:7602 -/
def testEof71 : K × Lbl := ⟨.stmt (.setCs 71) (.goto .testEof .done), .testEofN 72⟩
/-- rfc5424/builder.go:7605 -/
def testEof72 : K × Lbl := ⟨.stmt (.setCs 72) (.goto .testEof .done), .testEofN 73⟩
/-- rfc5424/builder.go:7608 -/
def testEof73 : K × Lbl := ⟨.stmt (.setCs 73) (.goto .testEof .done), .testEofN 74⟩
/-- rfc5424/builder.go:7611 -/
def testEof74 : K × Lbl := ⟨.stmt (.setCs 74) (.goto .testEof .done), .testEofN 75⟩
/-- rfc5424/builder.go:7614 -/
def testEof75 : K × Lbl := ⟨.stmt (.setCs 75) (.goto .testEof .done), .testEofN 76⟩
/-- rfc5424/builder.go:7617 -/
def testEof76 : K × Lbl := ⟨.stmt (.setCs 76) (.goto .testEof .done), .testEofN 77⟩
/-- rfc5424/builder.go:7620 -/
def testEof77 : K × Lbl := ⟨.stmt (.setCs 77) (.goto .testEof .done), .testEofN 78⟩
/-- rfc5424/builder.go:7623 -/
def testEof78 : K × Lbl := ⟨.stmt (.setCs 78) (.goto .testEof .done), .testEofN 79⟩
/-- rfc5424/builder.go:7626 -/
def testEof79 : K × Lbl := ⟨.stmt (.setCs 79) (.goto .testEof .done), .testEofN 80⟩
/-- rfc5424/builder.go:7629 -/
def testEof80 : K × Lbl := ⟨.stmt (.setCs 80) (.goto .testEof .done), .testEofN 81⟩
/-- rfc5424/builder.go:7632 -/
def testEof81 : K × Lbl := ⟨.stmt (.setCs 81) (.goto .testEof .done), .testEofN 82⟩
/-- rfc5424/builder.go:7635 -/
def testEof82 : K × Lbl := ⟨.stmt (.setCs 82) (.goto .testEof .done), .testEofN 83⟩
/-- rfc5424/builder.go:7638 -/
def testEof83 : K × Lbl := ⟨.stmt (.setCs 83) (.goto .testEof .done), .testEofN 84⟩
/-- rfc5424/builder.go:7641 -/
def testEof84 : K × Lbl := ⟨.stmt (.setCs 84) (.goto .testEof .done), .testEofN 85⟩
/-- rfc5424/builder.go:7644 -/
def testEof85 : K × Lbl := ⟨.stmt (.setCs 85) (.goto .testEof .done), .testEofN 86⟩
/-- rfc5424/builder.go:7647 -/
def testEof86 : K × Lbl := ⟨.stmt (.setCs 86) (.goto .testEof .done), .testEofN 87⟩
/-- rfc5424/builder.go:7650 -/
def testEof87 : K × Lbl := ⟨.stmt (.setCs 87) (.goto .testEof .done), .testEofN 88⟩
/-- rfc5424/builder.go:7653 -/
def testEof88 : K × Lbl := ⟨.stmt (.setCs 88) (.goto .testEof .done), .testEofN 89⟩
/-- rfc5424/builder.go:7656 -/
def testEof89 : K × Lbl := ⟨.stmt (.setCs 89) (.goto .testEof .done), .testEofN 90⟩
/-- rfc5424/builder.go:7659 -/
def testEof90 : K × Lbl := ⟨.stmt (.setCs 90) (.goto .testEof .done), .testEofN 91⟩
/-- rfc5424/builder.go:7662 -/
def testEof91 : K × Lbl := ⟨.stmt (.setCs 91) (.goto .testEof .done), .testEofN 92⟩
/-- rfc5424/builder.go:7665 -/
def testEof92 : K × Lbl := ⟨.stmt (.setCs 92) (.goto .testEof .done), .testEofN 93⟩
/-- rfc5424/builder.go:7668 -/
def testEof93 : K × Lbl := ⟨.stmt (.setCs 93) (.goto .testEof .done), .testEofN 94⟩
/-- rfc5424/builder.go:7671 -/
def testEof94 : K × Lbl := ⟨.stmt (.setCs 94) (.goto .testEof .done), .testEofN 95⟩
/-- rfc5424/builder.go:7674 -/
def testEof95 : K × Lbl := ⟨.stmt (.setCs 95) (.goto .testEof .done), .testEofN 96⟩
/-- rfc5424/builder.go:7677 -/
def testEof96 : K × Lbl := ⟨.stmt (.setCs 96) (.goto .testEof .done), .testEofN 97⟩
/-- rfc5424/builder.go:7680 -/
def testEof97 : K × Lbl := ⟨.stmt (.setCs 97) (.goto .testEof .done), .testEofN 98⟩
/-- rfc5424/builder.go:7683 -/
def testEof98 : K × Lbl := ⟨.stmt (.setCs 98) (.goto .testEof .done), .testEofN 99⟩
/-- rfc5424/builder.go:7686 -/
def testEof99 : K × Lbl := ⟨.stmt (.setCs 99) (.goto .testEof .done), .testEofN 100⟩
/-- rfc5424/builder.go:7689 -/
def testEof100 : K × Lbl := ⟨.stmt (.setCs 100) (.goto .testEof .done), .testEofN 101⟩
/-- rfc5424/builder.go:7692 -/
def testEof101 : K × Lbl := ⟨.stmt (.setCs 101) (.goto .testEof .done), .testEofN 102⟩
/-- rfc5424/builder.go:7695 -/
def testEof102 : K × Lbl := ⟨.stmt (.setCs 102) (.goto .testEof .done), .testEofN 103⟩
/-- rfc5424/builder.go:7698 -/
def testEof103 : K × Lbl := ⟨.stmt (.setCs 103) (.goto .testEof .done), .testEofN 104⟩
/-- rfc5424/builder.go:7701 -/
def testEof104 : K × Lbl := ⟨.stmt (.setCs 104) (.goto .testEof .done), .testEofN 105⟩
/-- rfc5424/builder.go:7704 -/
def testEof105 : K × Lbl := ⟨.stmt (.setCs 105) (.goto .testEof .done), .testEofN 106⟩
/-- rfc5424/builder.go:7707 -/
def testEof106 : K × Lbl := ⟨.stmt (.setCs 106) (.goto .testEof .done), .testEofN 107⟩
/-- rfc5424/builder.go:7710 -/
def testEof107 : K × Lbl := ⟨.stmt (.setCs 107) (.goto .testEof .done), .testEofN 108⟩
/-- rfc5424/builder.go:7713 -/
def testEof108 : K × Lbl := ⟨.stmt (.setCs 108) (.goto .testEof .done), .testEofN 109⟩
/-- rfc5424/builder.go:7716 -/
def testEof109 : K × Lbl := ⟨.stmt (.setCs 109) (.goto .testEof .done), .testEofN 110⟩
/-- rfc5424/builder.go:7719 -/
def testEof110 : K × Lbl := ⟨.stmt (.setCs 110) (.goto .testEof .done), .testEofN 111⟩
/-- rfc5424/builder.go:7722 -/
def testEof111 : K × Lbl := ⟨.stmt (.setCs 111) (.goto .testEof .done), .testEofN 112⟩
/-- rfc5424/builder.go:7725 -/
def testEof112 : K × Lbl := ⟨.stmt (.setCs 112) (.goto .testEof .done), .testEofN 113⟩
/-- rfc5424/builder.go:7728 -/
def testEof113 : K × Lbl := ⟨.stmt (.setCs 113) (.goto .testEof .done), .testEofN 114⟩
/-- rfc5424/builder.go:7731 -/
def testEof114 : K × Lbl := ⟨.stmt (.setCs 114) (.goto .testEof .done), .testEofN 115⟩
/-- rfc5424/builder.go:7734 -/
def testEof115 : K × Lbl := ⟨.stmt (.setCs 115) (.goto .testEof .done), .testEofN 116⟩
/-- rfc5424/builder.go:7737 -/
def testEof116 : K × Lbl := ⟨.stmt (.setCs 116) (.goto .testEof .done), .testEofN 117⟩
/-- rfc5424/builder.go:7740 -/
def testEof117 : K × Lbl := ⟨.stmt (.setCs 117) (.goto .testEof .done), .testEofN 118⟩
/-- rfc5424/builder.go:7743 -/
def testEof118 : K × Lbl := ⟨.stmt (.setCs 118) (.goto .testEof .done), .testEofN 119⟩
/-- rfc5424/builder.go:7746 -/
def testEof119 : K × Lbl := ⟨.stmt (.setCs 119) (.goto .testEof .done), .testEofN 120⟩
/-- rfc5424/builder.go:7749 -/
def testEof120 : K × Lbl := ⟨.stmt (.setCs 120) (.goto .testEof .done), .testEofN 121⟩
/-- rfc5424/builder.go:7752 -/
def testEof121 : K × Lbl := ⟨.stmt (.setCs 121) (.goto .testEof .done), .testEofN 122⟩
/-- rfc5424/builder.go:7755 -/
def testEof122 : K × Lbl := ⟨.stmt (.setCs 122) (.goto .testEof .done), .testEofN 123⟩
/-- rfc5424/builder.go:7758 -/
def testEof123 : K × Lbl := ⟨.stmt (.setCs 123) (.goto .testEof .done), .testEofN 124⟩
/-- rfc5424/builder.go:7761 -/
def testEof124 : K × Lbl := ⟨.stmt (.setCs 124) (.goto .testEof .done), .testEofN 125⟩
/-- rfc5424/builder.go:7764 -/
def testEof125 : K × Lbl := ⟨.stmt (.setCs 125) (.goto .testEof .done), .testEofN 126⟩
/-- rfc5424/builder.go:7767 -/
def testEof126 : K × Lbl := ⟨.stmt (.setCs 126) (.goto .testEof .done), .testEofN 127⟩
/-- rfc5424/builder.go:7770 -/
def testEof127 : K × Lbl := ⟨.stmt (.setCs 127) (.goto .testEof .done), .testEofN 128⟩
/-- rfc5424/builder.go:7773 -/
def testEof128 : K × Lbl := ⟨.stmt (.setCs 128) (.goto .testEof .done), .testEofN 129⟩
/-- rfc5424/builder.go:7776 -/
def testEof129 : K × Lbl := ⟨.stmt (.setCs 129) (.goto .testEof .done), .testEofN 130⟩
/-- rfc5424/builder.go:7779 -/
def testEof130 : K × Lbl := ⟨.stmt (.setCs 130) (.goto .testEof .done), .testEofN 131⟩
/-- rfc5424/builder.go:7782 -/
def testEof131 : K × Lbl := ⟨.stmt (.setCs 131) (.goto .testEof .done), .testEofN 132⟩
/-- rfc5424/builder.go:7785 -/
def testEof132 : K × Lbl := ⟨.stmt (.setCs 132) (.goto .testEof .done), .testEofN 133⟩
/-- rfc5424/builder.go:7788 -/
def testEof133 : K × Lbl := ⟨.stmt (.setCs 133) (.goto .testEof .done), .testEofN 134⟩
/-- rfc5424/builder.go:7791 -/
def testEof134 : K × Lbl := ⟨.stmt (.setCs 134) (.goto .testEof .done), .testEofN 135⟩
/-- rfc5424/builder.go:7794 -/
def testEof135 : K × Lbl := ⟨.stmt (.setCs 135) (.goto .testEof .done), .testEofN 136⟩
/-- rfc5424/builder.go:7797 -/
def testEof136 : K × Lbl := ⟨.stmt (.setCs 136) (.goto .testEof .done), .testEofN 137⟩
/-- rfc5424/builder.go:7800 -/
def testEof137 : K × Lbl := ⟨.stmt (.setCs 137) (.goto .testEof .done), .testEofN 138⟩
/-- rfc5424/builder.go:7803 -/
def testEof138 : K × Lbl := ⟨.stmt (.setCs 138) (.goto .testEof .done), .testEofN 139⟩
/-- rfc5424/builder.go:7806 -/
def testEof139 : K × Lbl := ⟨.stmt (.setCs 139) (.goto .testEof .done), .testEofN 140⟩
/-- rfc5424/builder.go:7809 -/
def testEof140 : K × Lbl := ⟨.stmt (.setCs 140) (.goto .testEof .done), .testEofN 141⟩
/-- rfc5424/builder.go:7812 -/
def testEof141 : K × Lbl := ⟨.stmt (.setCs 141) (.goto .testEof .done), .testEofN 142⟩
/-- rfc5424/builder.go:7815 -/
def testEof142 : K × Lbl := ⟨.stmt (.setCs 142) (.goto .testEof .done), .testEofN 143⟩
/-- rfc5424/builder.go:7818 -/
def testEof143 : K × Lbl := ⟨.stmt (.setCs 143) (.goto .testEof .done), .testEofN 144⟩
/-- rfc5424/builder.go:7821 -/
def testEof144 : K × Lbl := ⟨.stmt (.setCs 144) (.goto .testEof .done), .testEofN 145⟩
/-- rfc5424/builder.go:7824 -/
def testEof145 : K × Lbl := ⟨.stmt (.setCs 145) (.goto .testEof .done), .testEofN 146⟩
/-- rfc5424/builder.go:7827 -/
def testEof146 : K × Lbl := ⟨.stmt (.setCs 146) (.goto .testEof .done), .testEofN 147⟩
/-- rfc5424/builder.go:7830 -/
def testEof147 : K × Lbl := ⟨.stmt (.setCs 147) (.goto .testEof .done), .testEofN 148⟩
/-- rfc5424/builder.go:7833 -/
def testEof148 : K × Lbl := ⟨.stmt (.setCs 148) (.goto .testEof .done), .testEofN 149⟩
/-- rfc5424/builder.go:7836 -/
def testEof149 : K × Lbl := ⟨.stmt (.setCs 149) (.goto .testEof .done), .testEofN 150⟩
/-- rfc5424/builder.go:7839 -/
def testEof150 : K × Lbl := ⟨.stmt (.setCs 150) (.goto .testEof .done), .testEofN 151⟩
/-- rfc5424/builder.go:7842 -/
def testEof151 : K × Lbl := ⟨.stmt (.setCs 151) (.goto .testEof .done), .testEofN 152⟩
/-- rfc5424/builder.go:7845 -/
def testEof152 : K × Lbl := ⟨.stmt (.setCs 152) (.goto .testEof .done), .testEofN 153⟩
/-- rfc5424/builder.go:7848 -/
def testEof153 : K × Lbl := ⟨.stmt (.setCs 153) (.goto .testEof .done), .testEofN 154⟩
/-- rfc5424/builder.go:7851 -/
def testEof154 : K × Lbl := ⟨.stmt (.setCs 154) (.goto .testEof .done), .testEofN 155⟩
/-- rfc5424/builder.go:7854 -/
def testEof155 : K × Lbl := ⟨.stmt (.setCs 155) (.goto .testEof .done), .testEofN 156⟩
/-- rfc5424/builder.go:7857 -/
def testEof156 : K × Lbl := ⟨.stmt (.setCs 156) (.goto .testEof .done), .testEofN 157⟩
/-- rfc5424/builder.go:7860 -/
def testEof157 : K × Lbl := ⟨.stmt (.setCs 157) (.goto .testEof .done), .testEofN 158⟩
/-- rfc5424/builder.go:7863 -/
def testEof158 : K × Lbl := ⟨.stmt (.setCs 158) (.goto .testEof .done), .testEofN 159⟩
/-- rfc5424/builder.go:7866 -/
def testEof159 : K × Lbl := ⟨.stmt (.setCs 159) (.goto .testEof .done), .testEofN 160⟩
/-- rfc5424/builder.go:7869 -/
def testEof160 : K × Lbl := ⟨.stmt (.setCs 160) (.goto .testEof .done), .testEofN 161⟩
/-- rfc5424/builder.go:7872 -/
def testEof161 : K × Lbl := ⟨.stmt (.setCs 161) (.goto .testEof .done), .testEofN 162⟩
/-- rfc5424/builder.go:7875 -/
def testEof162 : K × Lbl := ⟨.stmt (.setCs 162) (.goto .testEof .done), .testEofN 163⟩
/-- rfc5424/builder.go:7878 -/
def testEof163 : K × Lbl := ⟨.stmt (.setCs 163) (.goto .testEof .done), .testEofN 164⟩
/-- rfc5424/builder.go:7881 -/
def testEof164 : K × Lbl := ⟨.stmt (.setCs 164) (.goto .testEof .done), .testEofN 165⟩
/-- rfc5424/builder.go:7884 -/
def testEof165 : K × Lbl := ⟨.stmt (.setCs 165) (.goto .testEof .done), .testEofN 166⟩
/-- rfc5424/builder.go:7887 -/
def testEof166 : K × Lbl := ⟨.stmt (.setCs 166) (.goto .testEof .done), .testEofN 167⟩
/-- rfc5424/builder.go:7890 -/
def testEof167 : K × Lbl := ⟨.stmt (.setCs 167) (.goto .testEof .done), .testEofN 168⟩
/-- rfc5424/builder.go:7893 -/
def testEof168 : K × Lbl := ⟨.stmt (.setCs 168) (.goto .testEof .done), .testEofN 169⟩
/-- rfc5424/builder.go:7896 -/
def testEof169 : K × Lbl := ⟨.stmt (.setCs 169) (.goto .testEof .done), .testEofN 170⟩
/-- rfc5424/builder.go:7899 -/
def testEof170 : K × Lbl := ⟨.stmt (.setCs 170) (.goto .testEof .done), .testEofN 171⟩
/-- rfc5424/builder.go:7902 -/
def testEof171 : K × Lbl := ⟨.stmt (.setCs 171) (.goto .testEof .done), .testEofN 172⟩
/-- rfc5424/builder.go:7905 -/
def testEof172 : K × Lbl := ⟨.stmt (.setCs 172) (.goto .testEof .done), .testEofN 173⟩
/-- rfc5424/builder.go:7908 -/
def testEof173 : K × Lbl := ⟨.stmt (.setCs 173) (.goto .testEof .done), .testEofN 174⟩
/-- rfc5424/builder.go:7911 -/
def testEof174 : K × Lbl := ⟨.stmt (.setCs 174) (.goto .testEof .done), .testEofN 175⟩
/-- rfc5424/builder.go:7914 -/
def testEof175 : K × Lbl := ⟨.stmt (.setCs 175) (.goto .testEof .done), .testEofN 176⟩
/-- rfc5424/builder.go:7917 -/
def testEof176 : K × Lbl := ⟨.stmt (.setCs 176) (.goto .testEof .done), .testEofN 177⟩
/-- rfc5424/builder.go:7920 -/
def testEof177 : K × Lbl := ⟨.stmt (.setCs 177) (.goto .testEof .done), .testEofN 178⟩
/-- rfc5424/builder.go:7923 -/
def testEof178 : K × Lbl := ⟨.stmt (.setCs 178) (.goto .testEof .done), .testEofN 179⟩
/-- rfc5424/builder.go:7926 -/
def testEof179 : K × Lbl := ⟨.stmt (.setCs 179) (.goto .testEof .done), .testEofN 180⟩
/-- rfc5424/builder.go:7929 -/
def testEof180 : K × Lbl := ⟨.stmt (.setCs 180) (.goto .testEof .done), .testEofN 181⟩
/-- rfc5424/builder.go:7932 -/
def testEof181 : K × Lbl := ⟨.stmt (.setCs 181) (.goto .testEof .done), .testEofN 182⟩
/-- rfc5424/builder.go:7935 -/
def testEof182 : K × Lbl := ⟨.stmt (.setCs 182) (.goto .testEof .done), .testEofN 183⟩
/-- rfc5424/builder.go:7938 -/
def testEof183 : K × Lbl := ⟨.stmt (.setCs 183) (.goto .testEof .done), .testEofN 184⟩
/-- rfc5424/builder.go:7941 -/
def testEof184 : K × Lbl := ⟨.stmt (.setCs 184) (.goto .testEof .done), .testEofN 185⟩
/-- rfc5424/builder.go:7944 -/
def testEof185 : K × Lbl := ⟨.stmt (.setCs 185) (.goto .testEof .done), .testEofN 186⟩
/-- rfc5424/builder.go:7947 -/
def testEof186 : K × Lbl := ⟨.stmt (.setCs 186) (.goto .testEof .done), .testEofN 187⟩
/-- rfc5424/builder.go:7950 -/
def testEof187 : K × Lbl := ⟨.stmt (.setCs 187) (.goto .testEof .done), .testEofN 188⟩
/-- rfc5424/builder.go:7953 -/
def testEof188 : K × Lbl := ⟨.stmt (.setCs 188) (.goto .testEof .done), .testEofN 189⟩
/-- rfc5424/builder.go:7956 -/
def testEof189 : K × Lbl := ⟨.stmt (.setCs 189) (.goto .testEof .done), .testEofN 190⟩
/-- rfc5424/builder.go:7959 -/
def testEof190 : K × Lbl := ⟨.stmt (.setCs 190) (.goto .testEof .done), .testEofN 191⟩
/-- rfc5424/builder.go:7962 -/
def testEof191 : K × Lbl := ⟨.stmt (.setCs 191) (.goto .testEof .done), .testEofN 192⟩
/-- rfc5424/builder.go:7965 -/
def testEof192 : K × Lbl := ⟨.stmt (.setCs 192) (.goto .testEof .done), .testEofN 193⟩
/-- rfc5424/builder.go:7968 -/
def testEof193 : K × Lbl := ⟨.stmt (.setCs 193) (.goto .testEof .done), .testEofN 194⟩
/-- rfc5424/builder.go:7971 -/
def testEof194 : K × Lbl := ⟨.stmt (.setCs 194) (.goto .testEof .done), .testEofN 195⟩
/-- rfc5424/builder.go:7974 -/
def testEof195 : K × Lbl := ⟨.stmt (.setCs 195) (.goto .testEof .done), .testEofN 196⟩
/-- rfc5424/builder.go:7977 -/
def testEof196 : K × Lbl := ⟨.stmt (.setCs 196) (.goto .testEof .done), .testEofN 197⟩
/-- rfc5424/builder.go:7980 -/
def testEof197 : K × Lbl := ⟨.stmt (.setCs 197) (.goto .testEof .done), .testEofN 198⟩
/-- rfc5424/builder.go:7983 -/
def testEof198 : K × Lbl := ⟨.stmt (.setCs 198) (.goto .testEof .done), .testEofN 199⟩
/-- rfc5424/builder.go:7986 -/
def testEof199 : K × Lbl := ⟨.stmt (.setCs 199) (.goto .testEof .done), .testEofN 200⟩
/-- rfc5424/builder.go:7989 -/
def testEof200 : K × Lbl := ⟨.stmt (.setCs 200) (.goto .testEof .done), .testEofN 201⟩
/-- rfc5424/builder.go:7992 -/
def testEof201 : K × Lbl := ⟨.stmt (.setCs 201) (.goto .testEof .done), .testEofN 202⟩
/-- rfc5424/builder.go:7995 -/
def testEof202 : K × Lbl := ⟨.stmt (.setCs 202) (.goto .testEof .done), .testEofN 203⟩
/-- rfc5424/builder.go:7998 -/
def testEof203 : K × Lbl := ⟨.stmt (.setCs 203) (.goto .testEof .done), .testEofN 204⟩
/-- rfc5424/builder.go:8001 -/
def testEof204 : K × Lbl := ⟨.stmt (.setCs 204) (.goto .testEof .done), .testEofN 205⟩
/-- rfc5424/builder.go:8004 -/
def testEof205 : K × Lbl := ⟨.stmt (.setCs 205) (.goto .testEof .done), .testEofN 206⟩
/-- rfc5424/builder.go:8007 -/
def testEof206 : K × Lbl := ⟨.stmt (.setCs 206) (.goto .testEof .done), .testEofN 207⟩
/-- rfc5424/builder.go:8010 -/
def testEof207 : K × Lbl := ⟨.stmt (.setCs 207) (.goto .testEof .done), .testEofN 208⟩
/-- rfc5424/builder.go:8013 -/
def testEof208 : K × Lbl := ⟨.stmt (.setCs 208) (.goto .testEof .done), .testEofN 209⟩
/-- rfc5424/builder.go:8016 -/
def testEof209 : K × Lbl := ⟨.stmt (.setCs 209) (.goto .testEof .done), .testEofN 210⟩
/-- rfc5424/builder.go:8019 -/
def testEof210 : K × Lbl := ⟨.stmt (.setCs 210) (.goto .testEof .done), .testEofN 211⟩
/-- rfc5424/builder.go:8022 -/
def testEof211 : K × Lbl := ⟨.stmt (.setCs 211) (.goto .testEof .done), .testEofN 212⟩
/-- rfc5424/builder.go:8025 -/
def testEof212 : K × Lbl := ⟨.stmt (.setCs 212) (.goto .testEof .done), .testEofN 213⟩
/-- rfc5424/builder.go:8028 -/
def testEof213 : K × Lbl := ⟨.stmt (.setCs 213) (.goto .testEof .done), .testEofN 214⟩
/-- rfc5424/builder.go:8031 -/
def testEof214 : K × Lbl := ⟨.stmt (.setCs 214) (.goto .testEof .done), .testEofN 215⟩
/-- rfc5424/builder.go:8034 -/
def testEof215 : K × Lbl := ⟨.stmt (.setCs 215) (.goto .testEof .done), .testEofN 216⟩
/-- rfc5424/builder.go:8037 -/
def testEof216 : K × Lbl := ⟨.stmt (.setCs 216) (.goto .testEof .done), .testEofN 217⟩
/-- rfc5424/builder.go:8040 -/
def testEof217 : K × Lbl := ⟨.stmt (.setCs 217) (.goto .testEof .done), .testEofN 218⟩
/-- rfc5424/builder.go:8043 -/
def testEof218 : K × Lbl := ⟨.stmt (.setCs 218) (.goto .testEof .done), .testEofN 219⟩
/-- rfc5424/builder.go:8046 -/
def testEof219 : K × Lbl := ⟨.stmt (.setCs 219) (.goto .testEof .done), .testEofN 220⟩
/-- rfc5424/builder.go:8049 -/
def testEof220 : K × Lbl := ⟨.stmt (.setCs 220) (.goto .testEof .done), .testEofN 221⟩
/-- rfc5424/builder.go:8052 -/
def testEof221 : K × Lbl := ⟨.stmt (.setCs 221) (.goto .testEof .done), .testEofN 222⟩
/-- rfc5424/builder.go:8055 -/
def testEof222 : K × Lbl := ⟨.stmt (.setCs 222) (.goto .testEof .done), .testEofN 223⟩
/-- rfc5424/builder.go:8058 -/
def testEof223 : K × Lbl := ⟨.stmt (.setCs 223) (.goto .testEof .done), .testEofN 224⟩
/-- rfc5424/builder.go:8061 -/
def testEof224 : K × Lbl := ⟨.stmt (.setCs 224) (.goto .testEof .done), .testEofN 225⟩
/-- rfc5424/builder.go:8064 -/
def testEof225 : K × Lbl := ⟨.stmt (.setCs 225) (.goto .testEof .done), .testEofN 226⟩
/-- rfc5424/builder.go:8067 -/
def testEof226 : K × Lbl := ⟨.stmt (.setCs 226) (.goto .testEof .done), .testEofN 227⟩
/-- rfc5424/builder.go:8070 -/
def testEof227 : K × Lbl := ⟨.stmt (.setCs 227) (.goto .testEof .done), .testEofN 228⟩
/-- rfc5424/builder.go:8073 -/
def testEof228 : K × Lbl := ⟨.stmt (.setCs 228) (.goto .testEof .done), .testEofN 229⟩
/-- rfc5424/builder.go:8076 -/
def testEof229 : K × Lbl := ⟨.stmt (.setCs 229) (.goto .testEof .done), .testEofN 230⟩
/-- rfc5424/builder.go:8079 -/
def testEof230 : K × Lbl := ⟨.stmt (.setCs 230) (.goto .testEof .done), .testEofN 231⟩
/-- rfc5424/builder.go:8082 -/
def testEof231 : K × Lbl := ⟨.stmt (.setCs 231) (.goto .testEof .done), .testEofN 232⟩
/-- rfc5424/builder.go:8085 -/
def testEof232 : K × Lbl := ⟨.stmt (.setCs 232) (.goto .testEof .done), .testEofN 233⟩
/-- rfc5424/builder.go:8088 -/
def testEof233 : K × Lbl := ⟨.stmt (.setCs 233) (.goto .testEof .done), .testEofN 234⟩
/-- rfc5424/builder.go:8091 -/
def testEof234 : K × Lbl := ⟨.stmt (.setCs 234) (.goto .testEof .done), .testEofN 235⟩
/-- rfc5424/builder.go:8094 -/
def testEof235 : K × Lbl := ⟨.stmt (.setCs 235) (.goto .testEof .done), .testEofN 236⟩
/-- rfc5424/builder.go:8097 -/
def testEof236 : K × Lbl := ⟨.stmt (.setCs 236) (.goto .testEof .done), .testEofN 237⟩
/-- rfc5424/builder.go:8100 -/
def testEof237 : K × Lbl := ⟨.stmt (.setCs 237) (.goto .testEof .done), .testEofN 238⟩
/-- rfc5424/builder.go:8103 -/
def testEof238 : K × Lbl := ⟨.stmt (.setCs 238) (.goto .testEof .done), .testEofN 239⟩
/-- rfc5424/builder.go:8106 -/
def testEof239 : K × Lbl := ⟨.stmt (.setCs 239) (.goto .testEof .done), .testEofN 240⟩
/-- rfc5424/builder.go:8109 -/
def testEof240 : K × Lbl := ⟨.stmt (.setCs 240) (.goto .testEof .done), .testEofN 241⟩
/-- rfc5424/builder.go:8112 -/
def testEof241 : K × Lbl := ⟨.stmt (.setCs 241) (.goto .testEof .done), .testEofN 242⟩
/-- rfc5424/builder.go:8115 -/
def testEof242 : K × Lbl := ⟨.stmt (.setCs 242) (.goto .testEof .done), .testEofN 243⟩
/-- rfc5424/builder.go:8118 -/
def testEof243 : K × Lbl := ⟨.stmt (.setCs 243) (.goto .testEof .done), .testEofN 244⟩
/-- rfc5424/builder.go:8121 -/
def testEof244 : K × Lbl := ⟨.stmt (.setCs 244) (.goto .testEof .done), .testEofN 245⟩
/-- rfc5424/builder.go:8124 -/
def testEof245 : K × Lbl := ⟨.stmt (.setCs 245) (.goto .testEof .done), .testEofN 246⟩
/-- rfc5424/builder.go:8127 -/
def testEof246 : K × Lbl := ⟨.stmt (.setCs 246) (.goto .testEof .done), .testEofN 247⟩
/-- rfc5424/builder.go:8130 -/
def testEof247 : K × Lbl := ⟨.stmt (.setCs 247) (.goto .testEof .done), .testEofN 248⟩
/-- rfc5424/builder.go:8133 -/
def testEof248 : K × Lbl := ⟨.stmt (.setCs 248) (.goto .testEof .done), .testEofN 249⟩
/-- rfc5424/builder.go:8136 -/
def testEof249 : K × Lbl := ⟨.stmt (.setCs 249) (.goto .testEof .done), .testEofN 250⟩
/-- rfc5424/builder.go:8139 -/
def testEof250 : K × Lbl := ⟨.stmt (.setCs 250) (.goto .testEof .done), .testEofN 251⟩
/-- rfc5424/builder.go:8142 -/
def testEof251 : K × Lbl := ⟨.stmt (.setCs 251) (.goto .testEof .done), .testEofN 252⟩
/-- rfc5424/builder.go:8145 -/
def testEof252 : K × Lbl := ⟨.stmt (.setCs 252) (.goto .testEof .done), .testEofN 253⟩
/-- rfc5424/builder.go:8148 -/
def testEof253 : K × Lbl := ⟨.stmt (.setCs 253) (.goto .testEof .done), .testEofN 254⟩
/-- rfc5424/builder.go:8151 -/
def testEof254 : K × Lbl := ⟨.stmt (.setCs 254) (.goto .testEof .done), .testEofN 255⟩
/-- rfc5424/builder.go:8154 -/
def testEof255 : K × Lbl := ⟨.stmt (.setCs 255) (.goto .testEof .done), .testEofN 256⟩
/-- rfc5424/builder.go:8157 -/
def testEof256 : K × Lbl := ⟨.stmt (.setCs 256) (.goto .testEof .done), .testEofN 257⟩
/-- rfc5424/builder.go:8160 -/
def testEof257 : K × Lbl := ⟨.stmt (.setCs 257) (.goto .testEof .done), .testEofN 258⟩
/-- rfc5424/builder.go:8163 -/
def testEof258 : K × Lbl := ⟨.stmt (.setCs 258) (.goto .testEof .done), .testEofN 259⟩
/-- rfc5424/builder.go:8166 -/
def testEof259 : K × Lbl := ⟨.stmt (.setCs 259) (.goto .testEof .done), .testEofN 260⟩
/-- rfc5424/builder.go:8169 -/
def testEof260 : K × Lbl := ⟨.stmt (.setCs 260) (.goto .testEof .done), .testEofN 261⟩
/-- rfc5424/builder.go:8172 -/
def testEof261 : K × Lbl := ⟨.stmt (.setCs 261) (.goto .testEof .done), .testEofN 262⟩
/-- rfc5424/builder.go:8175 -/
def testEof262 : K × Lbl := ⟨.stmt (.setCs 262) (.goto .testEof .done), .testEofN 263⟩
/-- rfc5424/builder.go:8178 -/
def testEof263 : K × Lbl := ⟨.stmt (.setCs 263) (.goto .testEof .done), .testEofN 264⟩
/-- rfc5424/builder.go:8181 -/
def testEof264 : K × Lbl := ⟨.stmt (.setCs 264) (.goto .testEof .done), .testEofN 265⟩
/-- rfc5424/builder.go:8184 -/
def testEof265 : K × Lbl := ⟨.stmt (.setCs 265) (.goto .testEof .done), .testEofN 266⟩
/-- rfc5424/builder.go:8187 -/
def testEof266 : K × Lbl := ⟨.stmt (.setCs 266) (.goto .testEof .done), .testEofN 267⟩
/-- rfc5424/builder.go:8190 -/
def testEof267 : K × Lbl := ⟨.stmt (.setCs 267) (.goto .testEof .done), .testEofN 268⟩
/-- rfc5424/builder.go:8193 -/
def testEof268 : K × Lbl := ⟨.stmt (.setCs 268) (.goto .testEof .done), .testEofN 269⟩
/-- rfc5424/builder.go:8196 -/
def testEof269 : K × Lbl := ⟨.stmt (.setCs 269) (.goto .testEof .done), .testEofN 270⟩
/-- rfc5424/builder.go:8199 -/
def testEof270 : K × Lbl := ⟨.stmt (.setCs 270) (.goto .testEof .done), .testEofN 271⟩
/-- rfc5424/builder.go:8202 -/
def testEof271 : K × Lbl := ⟨.stmt (.setCs 271) (.goto .testEof .done), .testEofN 272⟩
/-- rfc5424/builder.go:8205 -/
def testEof272 : K × Lbl := ⟨.stmt (.setCs 272) (.goto .testEof .done), .testEofN 273⟩
/-- rfc5424/builder.go:8208 -/
def testEof273 : K × Lbl := ⟨.stmt (.setCs 273) (.goto .testEof .done), .testEofN 274⟩
/-- rfc5424/builder.go:8211 -/
def testEof274 : K × Lbl := ⟨.stmt (.setCs 274) (.goto .testEof .done), .testEofN 275⟩
/-- rfc5424/builder.go:8214 -/
def testEof275 : K × Lbl := ⟨.stmt (.setCs 275) (.goto .testEof .done), .testEofN 276⟩
/-- rfc5424/builder.go:8217 -/
def testEof276 : K × Lbl := ⟨.stmt (.setCs 276) (.goto .testEof .done), .testEofN 277⟩
/-- rfc5424/builder.go:8220 -/
def testEof277 : K × Lbl := ⟨.stmt (.setCs 277) (.goto .testEof .done), .testEofN 278⟩
/-- rfc5424/builder.go:8223 -/
def testEof278 : K × Lbl := ⟨.stmt (.setCs 278) (.goto .testEof .done), .testEofN 279⟩
/-- rfc5424/builder.go:8226 -/
def testEof279 : K × Lbl := ⟨.stmt (.setCs 279) (.goto .testEof .done), .testEofN 280⟩
/-- rfc5424/builder.go:8229 -/
def testEof280 : K × Lbl := ⟨.stmt (.setCs 280) (.goto .testEof .done), .testEofN 281⟩
/-- rfc5424/builder.go:8232 -/
def testEof281 : K × Lbl := ⟨.stmt (.setCs 281) (.goto .testEof .done), .testEofN 282⟩
/-- rfc5424/builder.go:8235 -/
def testEof282 : K × Lbl := ⟨.stmt (.setCs 282) (.goto .testEof .done), .testEofN 283⟩
/-- rfc5424/builder.go:8238 -/
def testEof283 : K × Lbl := ⟨.stmt (.setCs 283) (.goto .testEof .done), .testEofN 284⟩
/-- rfc5424/builder.go:8241 -/
def testEof284 : K × Lbl := ⟨.stmt (.setCs 284) (.goto .testEof .done), .testEofN 285⟩
/-- rfc5424/builder.go:8244 -/
def testEof285 : K × Lbl := ⟨.stmt (.setCs 285) (.goto .testEof .done), .testEofN 286⟩
/-- rfc5424/builder.go:8247 -/
def testEof286 : K × Lbl := ⟨.stmt (.setCs 286) (.goto .testEof .done), .testEofN 287⟩
/-- rfc5424/builder.go:8250 -/
def testEof287 : K × Lbl := ⟨.stmt (.setCs 287) (.goto .testEof .done), .testEofN 288⟩
/-- rfc5424/builder.go:8253 -/
def testEof288 : K × Lbl := ⟨.stmt (.setCs 288) (.goto .testEof .done), .testEofN 289⟩
/-- rfc5424/builder.go:8256 -/
def testEof289 : K × Lbl := ⟨.stmt (.setCs 289) (.goto .testEof .done), .testEofN 290⟩
/-- rfc5424/builder.go:8259 -/
def testEof290 : K × Lbl := ⟨.stmt (.setCs 290) (.goto .testEof .done), .testEofN 291⟩
/-- rfc5424/builder.go:8262 -/
def testEof291 : K × Lbl := ⟨.stmt (.setCs 291) (.goto .testEof .done), .testEofN 292⟩
/-- rfc5424/builder.go:8265 -/
def testEof292 : K × Lbl := ⟨.stmt (.setCs 292) (.goto .testEof .done), .testEofN 293⟩
/-- rfc5424/builder.go:8268 -/
def testEof293 : K × Lbl := ⟨.stmt (.setCs 293) (.goto .testEof .done), .testEofN 294⟩
/-- rfc5424/builder.go:8271 -/
def testEof294 : K × Lbl := ⟨.stmt (.setCs 294) (.goto .testEof .done), .testEofN 295⟩
/-- rfc5424/builder.go:8274 -/
def testEof295 : K × Lbl := ⟨.stmt (.setCs 295) (.goto .testEof .done), .testEofN 296⟩
/-- rfc5424/builder.go:8277 -/
def testEof296 : K × Lbl := ⟨.stmt (.setCs 296) (.goto .testEof .done), .testEofN 297⟩
/-- rfc5424/builder.go:8280 -/
def testEof297 : K × Lbl := ⟨.stmt (.setCs 297) (.goto .testEof .done), .testEofN 298⟩
/-- rfc5424/builder.go:8283 -/
def testEof298 : K × Lbl := ⟨.stmt (.setCs 298) (.goto .testEof .done), .testEofN 299⟩
/-- rfc5424/builder.go:8286 -/
def testEof299 : K × Lbl := ⟨.stmt (.setCs 299) (.goto .testEof .done), .testEofN 300⟩
/-- rfc5424/builder.go:8289 -/
def testEof300 : K × Lbl := ⟨.stmt (.setCs 300) (.goto .testEof .done), .testEofN 301⟩
/-- rfc5424/builder.go:8292 -/
def testEof301 : K × Lbl := ⟨.stmt (.setCs 301) (.goto .testEof .done), .testEofN 302⟩
/-- rfc5424/builder.go:8295 -/
def testEof302 : K × Lbl := ⟨.stmt (.setCs 302) (.goto .testEof .done), .testEofN 303⟩
/-- rfc5424/builder.go:8298 -/
def testEof303 : K × Lbl := ⟨.stmt (.setCs 303) (.goto .testEof .done), .testEofN 304⟩
/-- rfc5424/builder.go:8301 -/
def testEof304 : K × Lbl := ⟨.stmt (.setCs 304) (.goto .testEof .done), .testEofN 305⟩
/-- rfc5424/builder.go:8304 -/
def testEof305 : K × Lbl := ⟨.stmt (.setCs 305) (.goto .testEof .done), .testEofN 306⟩
/-- rfc5424/builder.go:8307 -/
def testEof306 : K × Lbl := ⟨.stmt (.setCs 306) (.goto .testEof .done), .testEofN 307⟩
/-- rfc5424/builder.go:8310 -/
def testEof307 : K × Lbl := ⟨.stmt (.setCs 307) (.goto .testEof .done), .testEofN 308⟩
/-- rfc5424/builder.go:8313 -/
def testEof308 : K × Lbl := ⟨.stmt (.setCs 308) (.goto .testEof .done), .testEofN 309⟩
/-- rfc5424/builder.go:8316 -/
def testEof309 : K × Lbl := ⟨.stmt (.setCs 309) (.goto .testEof .done), .testEofN 310⟩
/-- rfc5424/builder.go:8319 -/
def testEof310 : K × Lbl := ⟨.stmt (.setCs 310) (.goto .testEof .done), .testEofN 311⟩
/-- rfc5424/builder.go:8322 -/
def testEof311 : K × Lbl := ⟨.stmt (.setCs 311) (.goto .testEof .done), .testEofN 312⟩
/-- rfc5424/builder.go:8325 -/
def testEof312 : K × Lbl := ⟨.stmt (.setCs 312) (.goto .testEof .done), .testEofN 313⟩
/-- rfc5424/builder.go:8328 -/
def testEof313 : K × Lbl := ⟨.stmt (.setCs 313) (.goto .testEof .done), .testEofN 314⟩
/-- rfc5424/builder.go:8331 -/
def testEof314 : K × Lbl := ⟨.stmt (.setCs 314) (.goto .testEof .done), .testEofN 315⟩
/-- rfc5424/builder.go:8334 -/
def testEof315 : K × Lbl := ⟨.stmt (.setCs 315) (.goto .testEof .done), .testEofN 316⟩
/-- rfc5424/builder.go:8337 -/
def testEof316 : K × Lbl := ⟨.stmt (.setCs 316) (.goto .testEof .done), .testEofN 317⟩
/-- rfc5424/builder.go:8340 -/
def testEof317 : K × Lbl := ⟨.stmt (.setCs 317) (.goto .testEof .done), .testEofN 318⟩
/-- rfc5424/builder.go:8343 -/
def testEof318 : K × Lbl := ⟨.stmt (.setCs 318) (.goto .testEof .done), .testEofN 319⟩
/-- rfc5424/builder.go:8346 -/
def testEof319 : K × Lbl := ⟨.stmt (.setCs 319) (.goto .testEof .done), .testEofN 320⟩
/-- rfc5424/builder.go:8349 -/
def testEof320 : K × Lbl := ⟨.stmt (.setCs 320) (.goto .testEof .done), .testEofN 321⟩
/-- rfc5424/builder.go:8352 -/
def testEof321 : K × Lbl := ⟨.stmt (.setCs 321) (.goto .testEof .done), .testEofN 322⟩
/-- rfc5424/builder.go:8355 -/
def testEof322 : K × Lbl := ⟨.stmt (.setCs 322) (.goto .testEof .done), .testEofN 323⟩
/-- rfc5424/builder.go:8358 -/
def testEof323 : K × Lbl := ⟨.stmt (.setCs 323) (.goto .testEof .done), .testEofN 324⟩
/-- rfc5424/builder.go:8361 -/
def testEof324 : K × Lbl := ⟨.stmt (.setCs 324) (.goto .testEof .done), .testEofN 325⟩
/-- rfc5424/builder.go:8364 -/
def testEof325 : K × Lbl := ⟨.stmt (.setCs 325) (.goto .testEof .done), .testEofN 326⟩
/-- rfc5424/builder.go:8367 -/
def testEof326 : K × Lbl := ⟨.stmt (.setCs 326) (.goto .testEof .done), .testEofN 327⟩
/-- rfc5424/builder.go:8370 -/
def testEof327 : K × Lbl := ⟨.stmt (.setCs 327) (.goto .testEof .done), .testEofN 328⟩
/-- rfc5424/builder.go:8373 -/
def testEof328 : K × Lbl := ⟨.stmt (.setCs 328) (.goto .testEof .done), .testEofN 329⟩
/-- rfc5424/builder.go:8376 -/
def testEof329 : K × Lbl := ⟨.stmt (.setCs 329) (.goto .testEof .done), .testEofN 330⟩
/-- rfc5424/builder.go:8379 -/
def testEof330 : K × Lbl := ⟨.stmt (.setCs 330) (.goto .testEof .done), .testEofN 331⟩
/-- rfc5424/builder.go:8382 -/
def testEof331 : K × Lbl := ⟨.stmt (.setCs 331) (.goto .testEof .done), .testEofN 332⟩
/-- rfc5424/builder.go:8385 -/
def testEof332 : K × Lbl := ⟨.stmt (.setCs 332) (.goto .testEof .done), .testEofN 333⟩
/-- rfc5424/builder.go:8388 -/
def testEof333 : K × Lbl := ⟨.stmt (.setCs 333) (.goto .testEof .done), .testEofN 334⟩
/-- rfc5424/builder.go:8391 -/
def testEof334 : K × Lbl := ⟨.stmt (.setCs 334) (.goto .testEof .done), .testEofN 335⟩
/-- rfc5424/builder.go:8394 -/
def testEof335 : K × Lbl := ⟨.stmt (.setCs 335) (.goto .testEof .done), .testEofN 336⟩
/-- rfc5424/builder.go:8397 -/
def testEof336 : K × Lbl := ⟨.stmt (.setCs 336) (.goto .testEof .done), .testEofN 337⟩
/-- rfc5424/builder.go:8400 -/
def testEof337 : K × Lbl := ⟨.stmt (.setCs 337) (.goto .testEof .done), .testEofN 338⟩
/-- rfc5424/builder.go:8403 -/
def testEof338 : K × Lbl := ⟨.stmt (.setCs 338) (.goto .testEof .done), .testEofN 339⟩
/-- rfc5424/builder.go:8406 -/
def testEof339 : K × Lbl := ⟨.stmt (.setCs 339) (.goto .testEof .done), .testEofN 340⟩
/-- rfc5424/builder.go:8409 -/
def testEof340 : K × Lbl := ⟨.stmt (.setCs 340) (.goto .testEof .done), .testEofN 341⟩
/-- rfc5424/builder.go:8412 -/
def testEof341 : K × Lbl := ⟨.stmt (.setCs 341) (.goto .testEof .done), .testEofN 342⟩
/-- rfc5424/builder.go:8415 -/
def testEof342 : K × Lbl := ⟨.stmt (.setCs 342) (.goto .testEof .done), .testEofN 343⟩
/-- rfc5424/builder.go:8418 -/
def testEof343 : K × Lbl := ⟨.stmt (.setCs 343) (.goto .testEof .done), .testEofN 344⟩
/-- rfc5424/builder.go:8421 -/
def testEof344 : K × Lbl := ⟨.stmt (.setCs 344) (.goto .testEof .done), .testEofN 345⟩
/-- rfc5424/builder.go:8424 -/
def testEof345 : K × Lbl := ⟨.stmt (.setCs 345) (.goto .testEof .done), .testEofN 346⟩
/-- rfc5424/builder.go:8427 -/
def testEof346 : K × Lbl := ⟨.stmt (.setCs 346) (.goto .testEof .done), .testEofN 347⟩
/-- rfc5424/builder.go:8430 -/
def testEof347 : K × Lbl := ⟨.stmt (.setCs 347) (.goto .testEof .done), .testEofN 348⟩
/-- rfc5424/builder.go:8433 -/
def testEof348 : K × Lbl := ⟨.stmt (.setCs 348) (.goto .testEof .done), .testEofN 349⟩
/-- rfc5424/builder.go:8436 -/
def testEof349 : K × Lbl := ⟨.stmt (.setCs 349) (.goto .testEof .done), .testEofN 350⟩
/-- rfc5424/builder.go:8439 -/
def testEof350 : K × Lbl := ⟨.stmt (.setCs 350) (.goto .testEof .done), .testEofN 351⟩
/-- rfc5424/builder.go:8442 -/
def testEof351 : K × Lbl := ⟨.stmt (.setCs 351) (.goto .testEof .done), .testEofN 352⟩
/-- rfc5424/builder.go:8445 -/
def testEof352 : K × Lbl := ⟨.stmt (.setCs 352) (.goto .testEof .done), .testEofN 353⟩
/-- rfc5424/builder.go:8448 -/
def testEof353 : K × Lbl := ⟨.stmt (.setCs 353) (.goto .testEof .done), .testEofN 354⟩
/-- rfc5424/builder.go:8451 -/
def testEof354 : K × Lbl := ⟨.stmt (.setCs 354) (.goto .testEof .done), .testEofN 355⟩
/-- rfc5424/builder.go:8454 -/
def testEof355 : K × Lbl := ⟨.stmt (.setCs 355) (.goto .testEof .done), .testEofN 356⟩
/-- rfc5424/builder.go:8457 -/
def testEof356 : K × Lbl := ⟨.stmt (.setCs 356) (.goto .testEof .done), .testEofN 357⟩
/-- rfc5424/builder.go:8460 -/
def testEof357 : K × Lbl := ⟨.stmt (.setCs 357) (.goto .testEof .done), .testEofN 358⟩
/-- rfc5424/builder.go:8463 -/
def testEof358 : K × Lbl := ⟨.stmt (.setCs 358) (.goto .testEof .done), .testEofN 359⟩
/-- rfc5424/builder.go:8466 -/
def testEof359 : K × Lbl := ⟨.stmt (.setCs 359) (.goto .testEof .done), .testEofN 360⟩
/-- rfc5424/builder.go:8469 -/
def testEof360 : K × Lbl := ⟨.stmt (.setCs 360) (.goto .testEof .done), .testEofN 361⟩
/-- rfc5424/builder.go:8472 -/
def testEof361 : K × Lbl := ⟨.stmt (.setCs 361) (.goto .testEof .done), .testEofN 362⟩
/-- rfc5424/builder.go:8475 -/
def testEof362 : K × Lbl := ⟨.stmt (.setCs 362) (.goto .testEof .done), .testEofN 363⟩
/-- rfc5424/builder.go:8478 -/
def testEof363 : K × Lbl := ⟨.stmt (.setCs 363) (.goto .testEof .done), .testEofN 364⟩
/-- rfc5424/builder.go:8481 -/
def testEof364 : K × Lbl := ⟨.stmt (.setCs 364) (.goto .testEof .done), .testEofN 365⟩
/-- rfc5424/builder.go:8484 -/
def testEof365 : K × Lbl := ⟨.stmt (.setCs 365) (.goto .testEof .done), .testEofN 366⟩
/-- rfc5424/builder.go:8487 -/
def testEof366 : K × Lbl := ⟨.stmt (.setCs 366) (.goto .testEof .done), .testEofN 367⟩
/-- rfc5424/builder.go:8490 -/
def testEof367 : K × Lbl := ⟨.stmt (.setCs 367) (.goto .testEof .done), .testEofN 368⟩
/-- rfc5424/builder.go:8493 -/
def testEof368 : K × Lbl := ⟨.stmt (.setCs 368) (.goto .testEof .done), .testEofN 369⟩
/-- rfc5424/builder.go:8496 -/
def testEof369 : K × Lbl := ⟨.stmt (.setCs 369) (.goto .testEof .done), .testEofN 370⟩
/-- rfc5424/builder.go:8499 -/
def testEof370 : K × Lbl := ⟨.stmt (.setCs 370) (.goto .testEof .done), .testEofN 371⟩
/-- rfc5424/builder.go:8502 -/
def testEof371 : K × Lbl := ⟨.stmt (.setCs 371) (.goto .testEof .done), .testEofN 372⟩
/-- rfc5424/builder.go:8505 -/
def testEof372 : K × Lbl := ⟨.stmt (.setCs 372) (.goto .testEof .done), .testEofN 373⟩
/-- rfc5424/builder.go:8508 -/
def testEof373 : K × Lbl := ⟨.stmt (.setCs 373) (.goto .testEof .done), .testEofN 374⟩
/-- rfc5424/builder.go:8511 -/
def testEof374 : K × Lbl := ⟨.stmt (.setCs 374) (.goto .testEof .done), .testEofN 375⟩
/-- rfc5424/builder.go:8514 -/
def testEof375 : K × Lbl := ⟨.stmt (.setCs 375) (.goto .testEof .done), .testEofN 376⟩
/-- rfc5424/builder.go:8517 -/
def testEof376 : K × Lbl := ⟨.stmt (.setCs 376) (.goto .testEof .done), .testEofN 377⟩
/-- rfc5424/builder.go:8520 -/
def testEof377 : K × Lbl := ⟨.stmt (.setCs 377) (.goto .testEof .done), .testEofN 378⟩
/-- rfc5424/builder.go:8523 -/
def testEof378 : K × Lbl := ⟨.stmt (.setCs 378) (.goto .testEof .done), .testEofN 379⟩
/-- rfc5424/builder.go:8526 -/
def testEof379 : K × Lbl := ⟨.stmt (.setCs 379) (.goto .testEof .done), .testEofN 380⟩
/-- rfc5424/builder.go:8529 -/
def testEof380 : K × Lbl := ⟨.stmt (.setCs 380) (.goto .testEof .done), .testEofN 381⟩
/-- rfc5424/builder.go:8532 -/
def testEof381 : K × Lbl := ⟨.stmt (.setCs 381) (.goto .testEof .done), .testEofN 382⟩
/-- rfc5424/builder.go:8535 -/
def testEof382 : K × Lbl := ⟨.stmt (.setCs 382) (.goto .testEof .done), .testEofN 383⟩
/-- rfc5424/builder.go:8538 -/
def testEof383 : K × Lbl := ⟨.stmt (.setCs 383) (.goto .testEof .done), .testEofN 384⟩
/-- rfc5424/builder.go:8541 -/
def testEof384 : K × Lbl := ⟨.stmt (.setCs 384) (.goto .testEof .done), .testEofN 385⟩
/-- rfc5424/builder.go:8544 -/
def testEof385 : K × Lbl := ⟨.stmt (.setCs 385) (.goto .testEof .done), .testEofN 386⟩
/-- rfc5424/builder.go:8547 -/
def testEof386 : K × Lbl := ⟨.stmt (.setCs 386) (.goto .testEof .done), .testEofN 387⟩
/-- rfc5424/builder.go:8550 -/
def testEof387 : K × Lbl := ⟨.stmt (.setCs 387) (.goto .testEof .done), .testEofN 388⟩
/-- rfc5424/builder.go:8553 -/
def testEof388 : K × Lbl := ⟨.stmt (.setCs 388) (.goto .testEof .done), .testEofN 389⟩
/-- rfc5424/builder.go:8556 -/
def testEof389 : K × Lbl := ⟨.stmt (.setCs 389) (.goto .testEof .done), .testEofN 390⟩
/-- rfc5424/builder.go:8559 -/
def testEof390 : K × Lbl := ⟨.stmt (.setCs 390) (.goto .testEof .done), .testEofN 391⟩
/-- rfc5424/builder.go:8562 -/
def testEof391 : K × Lbl := ⟨.stmt (.setCs 391) (.goto .testEof .done), .testEofN 392⟩
/-- rfc5424/builder.go:8565 -/
def testEof392 : K × Lbl := ⟨.stmt (.setCs 392) (.goto .testEof .done), .testEofN 393⟩
/-- rfc5424/builder.go:8568 -/
def testEof393 : K × Lbl := ⟨.stmt (.setCs 393) (.goto .testEof .done), .testEofN 394⟩
/-- rfc5424/builder.go:8571 -/
def testEof394 : K × Lbl := ⟨.stmt (.setCs 394) (.goto .testEof .done), .testEofN 395⟩
/-- rfc5424/builder.go:8574 -/
def testEof395 : K × Lbl := ⟨.stmt (.setCs 395) (.goto .testEof .done), .testEofN 396⟩
/-- rfc5424/builder.go:8577 -/
def testEof396 : K × Lbl := ⟨.stmt (.setCs 396) (.goto .testEof .done), .testEofN 397⟩
/-- rfc5424/builder.go:8580 -/
def testEof397 : K × Lbl := ⟨.stmt (.setCs 397) (.goto .testEof .done), .testEofN 398⟩
/-- rfc5424/builder.go:8583 -/
def testEof398 : K × Lbl := ⟨.stmt (.setCs 398) (.goto .testEof .done), .testEofN 399⟩
/-- rfc5424/builder.go:8586 -/
def testEof399 : K × Lbl := ⟨.stmt (.setCs 399) (.goto .testEof .done), .testEofN 400⟩
/-- rfc5424/builder.go:8589 -/
def testEof400 : K × Lbl := ⟨.stmt (.setCs 400) (.goto .testEof .done), .testEofN 401⟩
/-- rfc5424/builder.go:8592 -/
def testEof401 : K × Lbl := ⟨.stmt (.setCs 401) (.goto .testEof .done), .testEofN 402⟩
/-- rfc5424/builder.go:8595 -/
def testEof402 : K × Lbl := ⟨.stmt (.setCs 402) (.goto .testEof .done), .testEofN 403⟩
/-- rfc5424/builder.go:8598 -/
def testEof403 : K × Lbl := ⟨.stmt (.setCs 403) (.goto .testEof .done), .testEofN 404⟩
/-- rfc5424/builder.go:8601 -/
def testEof404 : K × Lbl := ⟨.stmt (.setCs 404) (.goto .testEof .done), .testEofN 405⟩
/-- rfc5424/builder.go:8604 -/
def testEof405 : K × Lbl := ⟨.stmt (.setCs 405) (.goto .testEof .done), .testEofN 406⟩
/-- rfc5424/builder.go:8607 -/
def testEof406 : K × Lbl := ⟨.stmt (.setCs 406) (.goto .testEof .done), .testEofN 407⟩
/-- rfc5424/builder.go:8610 -/
def testEof407 : K × Lbl := ⟨.stmt (.setCs 407) (.goto .testEof .done), .testEofN 408⟩
/-- rfc5424/builder.go:8613 -/
def testEof408 : K × Lbl := ⟨.stmt (.setCs 408) (.goto .testEof .done), .testEofN 409⟩
/-- rfc5424/builder.go:8616 -/
def testEof409 : K × Lbl := ⟨.stmt (.setCs 409) (.goto .testEof .done), .testEofN 410⟩
/-- rfc5424/builder.go:8619 -/
def testEof410 : K × Lbl := ⟨.stmt (.setCs 410) (.goto .testEof .done), .testEofN 411⟩
/-- rfc5424/builder.go:8622 -/
def testEof411 : K × Lbl := ⟨.stmt (.setCs 411) (.goto .testEof .done), .testEofN 412⟩
/-- rfc5424/builder.go:8625 -/
def testEof412 : K × Lbl := ⟨.stmt (.setCs 412) (.goto .testEof .done), .testEofN 413⟩
/-- rfc5424/builder.go:8628 -/
def testEof413 : K × Lbl := ⟨.stmt (.setCs 413) (.goto .testEof .done), .testEofN 414⟩
/-- rfc5424/builder.go:8631 -/
def testEof414 : K × Lbl := ⟨.stmt (.setCs 414) (.goto .testEof .done), .testEofN 415⟩
/-- rfc5424/builder.go:8634 -/
def testEof415 : K × Lbl := ⟨.stmt (.setCs 415) (.goto .testEof .done), .testEofN 416⟩
/-- rfc5424/builder.go:8637 -/
def testEof416 : K × Lbl := ⟨.stmt (.setCs 416) (.goto .testEof .done), .testEofN 417⟩
/-- rfc5424/builder.go:8640 -/
def testEof417 : K × Lbl := ⟨.stmt (.setCs 417) (.goto .testEof .done), .testEofN 418⟩
/-- rfc5424/builder.go:8643 -/
def testEof418 : K × Lbl := ⟨.stmt (.setCs 418) (.goto .testEof .done), .testEofN 419⟩
/-- rfc5424/builder.go:8646 -/
def testEof419 : K × Lbl := ⟨.stmt (.setCs 419) (.goto .testEof .done), .testEofN 420⟩
/-- rfc5424/builder.go:8649 -/
def testEof420 : K × Lbl := ⟨.stmt (.setCs 420) (.goto .testEof .done), .testEofN 421⟩
/-- rfc5424/builder.go:8652 -/
def testEof421 : K × Lbl := ⟨.stmt (.setCs 421) (.goto .testEof .done), .testEofN 422⟩
/-- rfc5424/builder.go:8655 -/
def testEof422 : K × Lbl := ⟨.stmt (.setCs 422) (.goto .testEof .done), .testEofN 423⟩
/-- rfc5424/builder.go:8658 -/
def testEof423 : K × Lbl := ⟨.stmt (.setCs 423) (.goto .testEof .done), .testEofN 424⟩
/-- rfc5424/builder.go:8661 -/
def testEof424 : K × Lbl := ⟨.stmt (.setCs 424) (.goto .testEof .done), .testEofN 425⟩
/-- rfc5424/builder.go:8664 -/
def testEof425 : K × Lbl := ⟨.stmt (.setCs 425) (.goto .testEof .done), .testEofN 426⟩
/-- rfc5424/builder.go:8667 -/
def testEof426 : K × Lbl := ⟨.stmt (.setCs 426) (.goto .testEof .done), .testEofN 427⟩
/-- rfc5424/builder.go:8670 -/
def testEof427 : K × Lbl := ⟨.stmt (.setCs 427) (.goto .testEof .done), .testEofN 428⟩
/-- rfc5424/builder.go:8673 -/
def testEof428 : K × Lbl := ⟨.stmt (.setCs 428) (.goto .testEof .done), .testEofN 429⟩
/-- rfc5424/builder.go:8676 -/
def testEof429 : K × Lbl := ⟨.stmt (.setCs 429) (.goto .testEof .done), .testEofN 430⟩
/-- rfc5424/builder.go:8679 -/
def testEof430 : K × Lbl := ⟨.stmt (.setCs 430) (.goto .testEof .done), .testEofN 431⟩
/-- rfc5424/builder.go:8682 -/
def testEof431 : K × Lbl := ⟨.stmt (.setCs 431) (.goto .testEof .done), .testEofN 432⟩
/-- rfc5424/builder.go:8685 -/
def testEof432 : K × Lbl := ⟨.stmt (.setCs 432) (.goto .testEof .done), .testEofN 433⟩
/-- rfc5424/builder.go:8688 -/
def testEof433 : K × Lbl := ⟨.stmt (.setCs 433) (.goto .testEof .done), .testEofN 434⟩
/-- rfc5424/builder.go:8691 -/
def testEof434 : K × Lbl := ⟨.stmt (.setCs 434) (.goto .testEof .done), .testEofN 435⟩
/-- rfc5424/builder.go:8694 -/
def testEof435 : K × Lbl := ⟨.stmt (.setCs 435) (.goto .testEof .done), .testEofN 436⟩
/-- rfc5424/builder.go:8697 -/
def testEof436 : K × Lbl := ⟨.stmt (.setCs 436) (.goto .testEof .done), .testEofN 437⟩
/-- rfc5424/builder.go:8700 -/
def testEof437 : K × Lbl := ⟨.stmt (.setCs 437) (.goto .testEof .done), .testEofN 438⟩
/-- rfc5424/builder.go:8703 -/
def testEof438 : K × Lbl := ⟨.stmt (.setCs 438) (.goto .testEof .done), .testEofN 439⟩
/-- rfc5424/builder.go:8706 -/
def testEof439 : K × Lbl := ⟨.stmt (.setCs 439) (.goto .testEof .done), .testEofN 440⟩
/-- rfc5424/builder.go:8709 -/
def testEof440 : K × Lbl := ⟨.stmt (.setCs 440) (.goto .testEof .done), .testEofN 441⟩
/-- rfc5424/builder.go:8712 -/
def testEof441 : K × Lbl := ⟨.stmt (.setCs 441) (.goto .testEof .done), .testEofN 442⟩
/-- rfc5424/builder.go:8715 -/
def testEof442 : K × Lbl := ⟨.stmt (.setCs 442) (.goto .testEof .done), .testEofN 443⟩
/-- rfc5424/builder.go:8718 -/
def testEof443 : K × Lbl := ⟨.stmt (.setCs 443) (.goto .testEof .done), .testEofN 444⟩
/-- rfc5424/builder.go:8721 -/
def testEof444 : K × Lbl := ⟨.stmt (.setCs 444) (.goto .testEof .done), .testEofN 445⟩
/-- rfc5424/builder.go:8724 -/
def testEof445 : K × Lbl := ⟨.stmt (.setCs 445) (.goto .testEof .done), .testEofN 446⟩
/-- rfc5424/builder.go:8727 -/
def testEof446 : K × Lbl := ⟨.stmt (.setCs 446) (.goto .testEof .done), .testEofN 447⟩
/-- rfc5424/builder.go:8730 -/
def testEof447 : K × Lbl := ⟨.stmt (.setCs 447) (.goto .testEof .done), .testEofN 448⟩
/-- rfc5424/builder.go:8733 -/
def testEof448 : K × Lbl := ⟨.stmt (.setCs 448) (.goto .testEof .done), .testEofN 449⟩
/-- rfc5424/builder.go:8736 -/
def testEof449 : K × Lbl := ⟨.stmt (.setCs 449) (.goto .testEof .done), .testEofN 450⟩
/-- rfc5424/builder.go:8739 -/
def testEof450 : K × Lbl := ⟨.stmt (.setCs 450) (.goto .testEof .done), .testEofN 451⟩
/-- rfc5424/builder.go:8742 -/
def testEof451 : K × Lbl := ⟨.stmt (.setCs 451) (.goto .testEof .done), .testEofN 452⟩
/-- rfc5424/builder.go:8745 -/
def testEof452 : K × Lbl := ⟨.stmt (.setCs 452) (.goto .testEof .done), .testEofN 453⟩
/-- rfc5424/builder.go:8748 -/
def testEof453 : K × Lbl := ⟨.stmt (.setCs 453) (.goto .testEof .done), .testEofN 454⟩
/-- rfc5424/builder.go:8751 -/
def testEof454 : K × Lbl := ⟨.stmt (.setCs 454) (.goto .testEof .done), .testEofN 455⟩
/-- rfc5424/builder.go:8754 -/
def testEof455 : K × Lbl := ⟨.stmt (.setCs 455) (.goto .testEof .done), .testEofN 456⟩
/-- rfc5424/builder.go:8757 -/
def testEof456 : K × Lbl := ⟨.stmt (.setCs 456) (.goto .testEof .done), .testEofN 457⟩
/-- rfc5424/builder.go:8760 -/
def testEof457 : K × Lbl := ⟨.stmt (.setCs 457) (.goto .testEof .done), .testEofN 458⟩
/-- rfc5424/builder.go:8763 -/
def testEof458 : K × Lbl := ⟨.stmt (.setCs 458) (.goto .testEof .done), .testEofN 459⟩
/-- rfc5424/builder.go:8766 -/
def testEof459 : K × Lbl := ⟨.stmt (.setCs 459) (.goto .testEof .done), .testEofN 460⟩
/-- rfc5424/builder.go:8769 -/
def testEof460 : K × Lbl := ⟨.stmt (.setCs 460) (.goto .testEof .done), .testEofN 461⟩
/-- rfc5424/builder.go:8772 -/
def testEof461 : K × Lbl := ⟨.stmt (.setCs 461) (.goto .testEof .done), .testEofN 462⟩
/-- rfc5424/builder.go:8775 -/
def testEof462 : K × Lbl := ⟨.stmt (.setCs 462) (.goto .testEof .done), .testEofN 463⟩
/-- rfc5424/builder.go:8778 -/
def testEof463 : K × Lbl := ⟨.stmt (.setCs 463) (.goto .testEof .done), .testEofN 464⟩
/-- rfc5424/builder.go:8781 -/
def testEof464 : K × Lbl := ⟨.stmt (.setCs 464) (.goto .testEof .done), .testEofN 465⟩
/-- rfc5424/builder.go:8784 -/
def testEof465 : K × Lbl := ⟨.stmt (.setCs 465) (.goto .testEof .done), .testEofN 466⟩
/-- rfc5424/builder.go:8787 -/
def testEof466 : K × Lbl := ⟨.stmt (.setCs 466) (.goto .testEof .done), .testEofN 467⟩
/-- rfc5424/builder.go:8790 -/
def testEof467 : K × Lbl := ⟨.stmt (.setCs 467) (.goto .testEof .done), .testEofN 468⟩
/-- rfc5424/builder.go:8793 -/
def testEof468 : K × Lbl := ⟨.stmt (.setCs 468) (.goto .testEof .done), .testEofN 469⟩
/-- rfc5424/builder.go:8796 -/
def testEof469 : K × Lbl := ⟨.stmt (.setCs 469) (.goto .testEof .done), .testEofN 470⟩
/-- rfc5424/builder.go:8799 -/
def testEof470 : K × Lbl := ⟨.stmt (.setCs 470) (.goto .testEof .done), .testEofN 471⟩
/-- rfc5424/builder.go:8802 -/
def testEof471 : K × Lbl := ⟨.stmt (.setCs 471) (.goto .testEof .done), .testEofN 472⟩
/-- rfc5424/builder.go:8805 -/
def testEof472 : K × Lbl := ⟨.stmt (.setCs 472) (.goto .testEof .done), .testEofN 473⟩
/-- rfc5424/builder.go:8808 -/
def testEof473 : K × Lbl := ⟨.stmt (.setCs 473) (.goto .testEof .done), .testEofN 474⟩
/-- rfc5424/builder.go:8811 -/
def testEof474 : K × Lbl := ⟨.stmt (.setCs 474) (.goto .testEof .done), .testEofN 475⟩
/-- rfc5424/builder.go:8814 -/
def testEof475 : K × Lbl := ⟨.stmt (.setCs 475) (.goto .testEof .done), .testEofN 476⟩
/-- rfc5424/builder.go:8817 -/
def testEof476 : K × Lbl := ⟨.stmt (.setCs 476) (.goto .testEof .done), .testEofN 477⟩
/-- rfc5424/builder.go:8820 -/
def testEof477 : K × Lbl := ⟨.stmt (.setCs 477) (.goto .testEof .done), .testEofN 478⟩
/-- rfc5424/builder.go:8823 -/
def testEof478 : K × Lbl := ⟨.stmt (.setCs 478) (.goto .testEof .done), .testEofN 479⟩
/-- rfc5424/builder.go:8826 -/
def testEof479 : K × Lbl := ⟨.stmt (.setCs 479) (.goto .testEof .done), .testEofN 480⟩
/-- rfc5424/builder.go:8829 -/
def testEof480 : K × Lbl := ⟨.stmt (.setCs 480) (.goto .testEof .done), .testEofN 481⟩
/-- rfc5424/builder.go:8832 -/
def testEof481 : K × Lbl := ⟨.stmt (.setCs 481) (.goto .testEof .done), .testEofN 482⟩
/-- rfc5424/builder.go:8835 -/
def testEof482 : K × Lbl := ⟨.stmt (.setCs 482) (.goto .testEof .done), .testEofN 483⟩
/-- rfc5424/builder.go:8838 -/
def testEof483 : K × Lbl := ⟨.stmt (.setCs 483) (.goto .testEof .done), .testEofN 484⟩
/-- rfc5424/builder.go:8841 -/
def testEof484 : K × Lbl := ⟨.stmt (.setCs 484) (.goto .testEof .done), .testEofN 485⟩
/-- rfc5424/builder.go:8844 -/
def testEof485 : K × Lbl := ⟨.stmt (.setCs 485) (.goto .testEof .done), .testEofN 486⟩
/-- rfc5424/builder.go:8847 -/
def testEof486 : K × Lbl := ⟨.stmt (.setCs 486) (.goto .testEof .done), .testEofN 487⟩
/-- rfc5424/builder.go:8850 -/
def testEof487 : K × Lbl := ⟨.stmt (.setCs 487) (.goto .testEof .done), .testEofN 488⟩
/-- rfc5424/builder.go:8853 -/
def testEof488 : K × Lbl := ⟨.stmt (.setCs 488) (.goto .testEof .done), .testEofN 489⟩
/-- rfc5424/builder.go:8856 -/
def testEof489 : K × Lbl := ⟨.stmt (.setCs 489) (.goto .testEof .done), .testEofN 490⟩
/-- rfc5424/builder.go:8859 -/
def testEof490 : K × Lbl := ⟨.stmt (.setCs 490) (.goto .testEof .done), .testEofN 491⟩
/-- rfc5424/builder.go:8862 -/
def testEof491 : K × Lbl := ⟨.stmt (.setCs 491) (.goto .testEof .done), .testEofN 492⟩
/-- rfc5424/builder.go:8865 -/
def testEof492 : K × Lbl := ⟨.stmt (.setCs 492) (.goto .testEof .done), .testEofN 493⟩
/-- rfc5424/builder.go:8868 -/
def testEof493 : K × Lbl := ⟨.stmt (.setCs 493) (.goto .testEof .done), .testEofN 494⟩
/-- rfc5424/builder.go:8871 -/
def testEof494 : K × Lbl := ⟨.stmt (.setCs 494) (.goto .testEof .done), .testEofN 495⟩
/-- rfc5424/builder.go:8874 -/
def testEof495 : K × Lbl := ⟨.stmt (.setCs 495) (.goto .testEof .done), .testEofN 496⟩
/-- rfc5424/builder.go:8877 -/
def testEof496 : K × Lbl := ⟨.stmt (.setCs 496) (.goto .testEof .done), .testEofN 497⟩
/-- rfc5424/builder.go:8880 -/
def testEof497 : K × Lbl := ⟨.stmt (.setCs 497) (.goto .testEof .done), .testEofN 498⟩
/-- rfc5424/builder.go:8883 -/
def testEof498 : K × Lbl := ⟨.stmt (.setCs 498) (.goto .testEof .done), .testEofN 499⟩
/-- rfc5424/builder.go:8886 -/
def testEof499 : K × Lbl := ⟨.stmt (.setCs 499) (.goto .testEof .done), .testEofN 500⟩
/-- rfc5424/builder.go:8889 -/
def testEof500 : K × Lbl := ⟨.stmt (.setCs 500) (.goto .testEof .done), .testEofN 501⟩
/-- rfc5424/builder.go:8892 -/
def testEof501 : K × Lbl := ⟨.stmt (.setCs 501) (.goto .testEof .done), .testEofN 502⟩
/-- rfc5424/builder.go:8895 -/
def testEof502 : K × Lbl := ⟨.stmt (.setCs 502) (.goto .testEof .done), .testEofN 503⟩
/-- rfc5424/builder.go:8898 -/
def testEof503 : K × Lbl := ⟨.stmt (.setCs 503) (.goto .testEof .done), .testEofN 504⟩
/-- rfc5424/builder.go:8901 -/
def testEof504 : K × Lbl := ⟨.stmt (.setCs 504) (.goto .testEof .done), .testEofN 505⟩
/-- rfc5424/builder.go:8904 -/
def testEof505 : K × Lbl := ⟨.stmt (.setCs 505) (.goto .testEof .done), .testEofN 506⟩
/-- rfc5424/builder.go:8907 -/
def testEof506 : K × Lbl := ⟨.stmt (.setCs 506) (.goto .testEof .done), .testEofN 507⟩
/-- rfc5424/builder.go:8910 -/
def testEof507 : K × Lbl := ⟨.stmt (.setCs 507) (.goto .testEof .done), .testEofN 508⟩
/-- rfc5424/builder.go:8913 -/
def testEof508 : K × Lbl := ⟨.stmt (.setCs 508) (.goto .testEof .done), .testEofN 509⟩
/-- rfc5424/builder.go:8916 -/
def testEof509 : K × Lbl := ⟨.stmt (.setCs 509) (.goto .testEof .done), .testEofN 510⟩
/-- rfc5424/builder.go:8919 -/
def testEof510 : K × Lbl := ⟨.stmt (.setCs 510) (.goto .testEof .done), .testEofN 511⟩
/-- rfc5424/builder.go:8922 -/
def testEof511 : K × Lbl := ⟨.stmt (.setCs 511) (.goto .testEof .done), .testEofN 512⟩
/-- rfc5424/builder.go:8925 -/
def testEof512 : K × Lbl := ⟨.stmt (.setCs 512) (.goto .testEof .done), .testEofN 513⟩
/-- rfc5424/builder.go:8928 -/
def testEof513 : K × Lbl := ⟨.stmt (.setCs 513) (.goto .testEof .done), .testEofN 514⟩
/-- rfc5424/builder.go:8931 -/
def testEof514 : K × Lbl := ⟨.stmt (.setCs 514) (.goto .testEof .done), .testEofN 515⟩
/-- rfc5424/builder.go:8934 -/
def testEof515 : K × Lbl := ⟨.stmt (.setCs 515) (.goto .testEof .done), .testEofN 516⟩
/-- rfc5424/builder.go:8937 -/
def testEof516 : K × Lbl := ⟨.stmt (.setCs 516) (.goto .testEof .done), .testEofN 517⟩
/-- rfc5424/builder.go:8940 -/
def testEof517 : K × Lbl := ⟨.stmt (.setCs 517) (.goto .testEof .done), .testEofN 518⟩
/-- rfc5424/builder.go:8943 -/
def testEof518 : K × Lbl := ⟨.stmt (.setCs 518) (.goto .testEof .done), .testEofN 519⟩
/-- rfc5424/builder.go:8946 -/
def testEof519 : K × Lbl := ⟨.stmt (.setCs 519) (.goto .testEof .done), .testEofN 520⟩
/-- rfc5424/builder.go:8949 -/
def testEof520 : K × Lbl := ⟨.stmt (.setCs 520) (.goto .testEof .done), .testEofN 521⟩
/-- rfc5424/builder.go:8952 -/
def testEof521 : K × Lbl := ⟨.stmt (.setCs 521) (.goto .testEof .done), .testEofN 522⟩
/-- rfc5424/builder.go:8955 -/
def testEof522 : K × Lbl := ⟨.stmt (.setCs 522) (.goto .testEof .done), .testEofN 523⟩
/-- rfc5424/builder.go:8958 -/
def testEof523 : K × Lbl := ⟨.stmt (.setCs 523) (.goto .testEof .done), .testEofN 524⟩
/-- rfc5424/builder.go:8961 -/
def testEof524 : K × Lbl := ⟨.stmt (.setCs 524) (.goto .testEof .done), .testEofN 525⟩
/-- rfc5424/builder.go:8964 -/
def testEof525 : K × Lbl := ⟨.stmt (.setCs 525) (.goto .testEof .done), .testEofN 526⟩
/-- rfc5424/builder.go:8967 -/
def testEof526 : K × Lbl := ⟨.stmt (.setCs 526) (.goto .testEof .done), .testEofN 527⟩
/-- rfc5424/builder.go:8970 -/
def testEof527 : K × Lbl := ⟨.stmt (.setCs 527) (.goto .testEof .done), .testEofN 528⟩
/-- rfc5424/builder.go:8973 -/
def testEof528 : K × Lbl := ⟨.stmt (.setCs 528) (.goto .testEof .done), .testEofN 529⟩
/-- rfc5424/builder.go:8976 -/
def testEof529 : K × Lbl := ⟨.stmt (.setCs 529) (.goto .testEof .done), .testEofN 530⟩
/-- rfc5424/builder.go:8979 -/
def testEof530 : K × Lbl := ⟨.stmt (.setCs 530) (.goto .testEof .done), .testEofN 531⟩
/-- rfc5424/builder.go:8982 -/
def testEof531 : K × Lbl := ⟨.stmt (.setCs 531) (.goto .testEof .done), .testEofN 532⟩
/-- rfc5424/builder.go:8985 -/
def testEof532 : K × Lbl := ⟨.stmt (.setCs 532) (.goto .testEof .done), .testEofN 533⟩
/-- rfc5424/builder.go:8988 -/
def testEof533 : K × Lbl := ⟨.stmt (.setCs 533) (.goto .testEof .done), .testEofN 534⟩
/-- rfc5424/builder.go:8991 -/
def testEof534 : K × Lbl := ⟨.stmt (.setCs 534) (.goto .testEof .done), .testEofN 535⟩
/-- rfc5424/builder.go:8994 -/
def testEof535 : K × Lbl := ⟨.stmt (.setCs 535) (.goto .testEof .done), .testEofN 536⟩
/-- rfc5424/builder.go:8997 -/
def testEof536 : K × Lbl := ⟨.stmt (.setCs 536) (.goto .testEof .done), .testEofN 537⟩
/-- rfc5424/builder.go:9000 -/
def testEof537 : K × Lbl := ⟨.stmt (.setCs 537) (.goto .testEof .done), .testEofN 538⟩
/-- rfc5424/builder.go:9003 -/
def testEof538 : K × Lbl := ⟨.stmt (.setCs 538) (.goto .testEof .done), .testEofN 539⟩
/-- rfc5424/builder.go:9006 -/
def testEof539 : K × Lbl := ⟨.stmt (.setCs 539) (.goto .testEof .done), .testEofN 540⟩
/-- rfc5424/builder.go:9009 -/
def testEof540 : K × Lbl := ⟨.stmt (.setCs 540) (.goto .testEof .done), .testEofN 541⟩
/-- rfc5424/builder.go:9012 -/
def testEof541 : K × Lbl := ⟨.stmt (.setCs 541) (.goto .testEof .done), .testEofN 542⟩
/-- rfc5424/builder.go:9015 -/
def testEof542 : K × Lbl := ⟨.stmt (.setCs 542) (.goto .testEof .done), .testEofN 543⟩
/-- rfc5424/builder.go:9018 -/
def testEof543 : K × Lbl := ⟨.stmt (.setCs 543) (.goto .testEof .done), .testEofN 544⟩
/-- rfc5424/builder.go:9021 -/
def testEof544 : K × Lbl := ⟨.stmt (.setCs 544) (.goto .testEof .done), .testEofN 545⟩
/-- rfc5424/builder.go:9024 -/
def testEof545 : K × Lbl := ⟨.stmt (.setCs 545) (.goto .testEof .done), .testEofN 546⟩
/-- rfc5424/builder.go:9027 -/
def testEof546 : K × Lbl := ⟨.stmt (.setCs 546) (.goto .testEof .done), .testEofN 547⟩
/-- rfc5424/builder.go:9030 -/
def testEof547 : K × Lbl := ⟨.stmt (.setCs 547) (.goto .testEof .done), .testEofN 548⟩
/-- rfc5424/builder.go:9033 -/
def testEof548 : K × Lbl := ⟨.stmt (.setCs 548) (.goto .testEof .done), .testEofN 549⟩
/-- rfc5424/builder.go:9036 -/
def testEof549 : K × Lbl := ⟨.stmt (.setCs 549) (.goto .testEof .done), .testEofN 550⟩
/-- rfc5424/builder.go:9039 -/
def testEof550 : K × Lbl := ⟨.stmt (.setCs 550) (.goto .testEof .done), .testEofN 551⟩
/-- rfc5424/builder.go:9042 -/
def testEof551 : K × Lbl := ⟨.stmt (.setCs 551) (.goto .testEof .done), .testEofN 552⟩
/-- rfc5424/builder.go:9045 -/
def testEof552 : K × Lbl := ⟨.stmt (.setCs 552) (.goto .testEof .done), .testEofN 553⟩
/-- rfc5424/builder.go:9048 -/
def testEof553 : K × Lbl := ⟨.stmt (.setCs 553) (.goto .testEof .done), .testEofN 554⟩
/-- rfc5424/builder.go:9051 -/
def testEof554 : K × Lbl := ⟨.stmt (.setCs 554) (.goto .testEof .done), .testEofN 555⟩
/-- rfc5424/builder.go:9054 -/
def testEof555 : K × Lbl := ⟨.stmt (.setCs 555) (.goto .testEof .done), .testEofN 556⟩
/-- rfc5424/builder.go:9057 -/
def testEof556 : K × Lbl := ⟨.stmt (.setCs 556) (.goto .testEof .done), .testEofN 557⟩
/-- rfc5424/builder.go:9060 -/
def testEof557 : K × Lbl := ⟨.stmt (.setCs 557) (.goto .testEof .done), .testEofN 558⟩
/-- rfc5424/builder.go:9063 -/
def testEof558 : K × Lbl := ⟨.stmt (.setCs 558) (.goto .testEof .done), .testEofN 559⟩
/-- rfc5424/builder.go:9066 -/
def testEof559 : K × Lbl := ⟨.stmt (.setCs 559) (.goto .testEof .done), .testEofN 560⟩
/-- rfc5424/builder.go:9069 -/
def testEof560 : K × Lbl := ⟨.stmt (.setCs 560) (.goto .testEof .done), .testEofN 561⟩
/-- rfc5424/builder.go:9072 -/
def testEof561 : K × Lbl := ⟨.stmt (.setCs 561) (.goto .testEof .done), .testEofN 562⟩
/-- rfc5424/builder.go:9075 -/
def testEof562 : K × Lbl := ⟨.stmt (.setCs 562) (.goto .testEof .done), .testEofN 563⟩
/-- rfc5424/builder.go:9078 -/
def testEof563 : K × Lbl := ⟨.stmt (.setCs 563) (.goto .testEof .done), .testEofN 564⟩
/-- rfc5424/builder.go:9081 -/
def testEof564 : K × Lbl := ⟨.stmt (.setCs 564) (.goto .testEof .done), .testEofN 565⟩
/-- rfc5424/builder.go:9084 -/
def testEof565 : K × Lbl := ⟨.stmt (.setCs 565) (.goto .testEof .done), .testEofN 566⟩
/-- rfc5424/builder.go:9087 -/
def testEof566 : K × Lbl := ⟨.stmt (.setCs 566) (.goto .testEof .done), .testEofN 567⟩
/-- rfc5424/builder.go:9090 -/
def testEof567 : K × Lbl := ⟨.stmt (.setCs 567) (.goto .testEof .done), .testEofN 568⟩
/-- rfc5424/builder.go:9093 -/
def testEof568 : K × Lbl := ⟨.stmt (.setCs 568) (.goto .testEof .done), .testEofN 569⟩
/-- rfc5424/builder.go:9096 -/
def testEof569 : K × Lbl := ⟨.stmt (.setCs 569) (.goto .testEof .done), .testEofN 570⟩
/-- rfc5424/builder.go:9099 -/
def testEof570 : K × Lbl := ⟨.stmt (.setCs 570) (.goto .testEof .done), .testEofN 571⟩
/-- rfc5424/builder.go:9102 -/
def testEof571 : K × Lbl := ⟨.stmt (.setCs 571) (.goto .testEof .done), .testEofN 572⟩
/-- rfc5424/builder.go:9105 -/
def testEof572 : K × Lbl := ⟨.stmt (.setCs 572) (.goto .testEof .done), .testEofN 573⟩
/-- rfc5424/builder.go:9108 -/
def testEof573 : K × Lbl := ⟨.stmt (.setCs 573) (.goto .testEof .done), .testEofN 574⟩
/-- rfc5424/builder.go:9111 -/
def testEof574 : K × Lbl := ⟨.stmt (.setCs 574) (.goto .testEof .done), .testEofN 575⟩
/-- rfc5424/builder.go:9114 -/
def testEof575 : K × Lbl := ⟨.stmt (.setCs 575) (.goto .testEof .done), .testEofN 576⟩
/-- rfc5424/builder.go:9117 -/
def testEof576 : K × Lbl := ⟨.stmt (.setCs 576) (.goto .testEof .done), .testEofN 577⟩
/-- rfc5424/builder.go:9120 -/
def testEof577 : K × Lbl := ⟨.stmt (.setCs 577) (.goto .testEof .done), .testEofN 578⟩
/-- rfc5424/builder.go:9123 -/
def testEof578 : K × Lbl := ⟨.stmt (.setCs 578) (.goto .testEof .done), .testEofN 579⟩
/-- rfc5424/builder.go:9126 -/
def testEof579 : K × Lbl := ⟨.stmt (.setCs 579) (.goto .testEof .done), .testEofN 580⟩
/-- rfc5424/builder.go:9129 -/
def testEof580 : K × Lbl := ⟨.stmt (.setCs 580) (.goto .testEof .done), .testEofN 581⟩
/-- rfc5424/builder.go:9132 -/
def testEof581 : K × Lbl := ⟨.stmt (.setCs 581) (.goto .testEof .done), .testEofN 583⟩
/-- rfc5424/builder.go:9135 -/
def testEof583 : K × Lbl := ⟨.stmt (.setCs 583) (.goto .testEof .done), .testEofN 44⟩
/-- rfc5424/builder.go:9138 -/
def testEof44 : K × Lbl := ⟨.stmt (.setCs 44) (.goto .testEof .done), .testEofN 45⟩
/-- rfc5424/builder.go:9141 -/
def testEof45 : K × Lbl := ⟨.stmt (.setCs 45) (.goto .testEof .done), .testEofN 46⟩
/-- rfc5424/builder.go:9144 -/
def testEof46 : K × Lbl := ⟨.stmt (.setCs 46) (.goto .testEof .done), .testEofN 47⟩
/-- rfc5424/builder.go:9147 -/
def testEof47 : K × Lbl := ⟨.stmt (.setCs 47) (.goto .testEof .done), .testEofN 48⟩
/-- rfc5424/builder.go:9150 -/
def testEof48 : K × Lbl := ⟨.stmt (.setCs 48) (.goto .testEof .done), .testEofN 49⟩
/-- rfc5424/builder.go:9153 -/
def testEof49 : K × Lbl := ⟨.stmt (.setCs 49) (.goto .testEof .done), .testEofN 50⟩
/-- rfc5424/builder.go:9156 -/
def testEof50 : K × Lbl := ⟨.stmt (.setCs 50) (.goto .testEof .done), .testEofN 51⟩
/-- rfc5424/builder.go:9159 -/
def testEof51 : K × Lbl := ⟨.stmt (.setCs 51) (.goto .testEof .done), .testEof⟩
/-- rfc5424/builder.go:9163 -/
def testEof : K × Lbl := ⟨.ifElse .pEqEof (.ifElse (.csIn [54]) (.stmt (.prim .timeParse) (.ifElse (.prim .eNil) (.stmt (.prim .timestamp) .done) .done .done)) (.ifElse (.csIn [55, 56, 57, 58, 59, 60, 61, 62, 63, 64, 65, 66, 67, 68, 69, 70, 71, 72, 73, 74, 75, 76, 77, 78, 79, 80, 81, 82, 83, 84, 85, 86, 87, 88, 89, 90, 91, 92, 93, 94, 95, 96, 97, 98, 99, 100, 101, 102, 103, 104, 105, 106, 107, 108, 109, 110, 111, 112, 113, 114, 115, 116, 117, 118, 119, 120, 121, 122, 123, 124, 125, 126, 127, 128, 129, 130, 131, 132, 133, 134, 135, 136, 137, 138, 139, 140, 141, 142, 143, 144, 145, 146, 147, 148, 149, 150, 151, 152, 153, 154, 155, 156, 157, 158, 159, 160, 161, 162, 163, 164, 165, 166, 167, 168, 169, 170, 171, 172, 173, 174, 175, 176, 177, 178, 179, 180, 181, 182, 183, 184, 185, 186, 187, 188, 189, 190, 191, 192, 193, 194, 195, 196, 197, 198, 199, 200, 201, 202, 203, 204, 205, 206, 207, 208, 209, 210, 211, 212, 213, 214, 215, 216, 217, 218, 219, 220, 221, 222, 223, 224, 225, 226, 227, 228, 229, 230, 231, 232, 233, 234, 235, 236, 237, 238, 239, 240, 241, 242, 243, 244, 245, 246, 247, 248, 249, 250, 251, 252, 253, 254, 255, 256, 257, 258, 259, 260, 261, 262, 263, 264, 265, 266, 267, 268, 269, 270, 271, 272, 273, 274, 275, 276, 277, 278, 279, 280, 281, 282, 283, 284, 285, 286, 287, 288, 289, 290, 291, 292, 293, 294, 295, 296, 297, 298, 299, 300, 301, 302, 303, 304, 305, 306, 307, 308, 309]) (.stmt (.prim .sText) (.ifElse (.prim .sNotDash) (.stmt (.prim .hostname) .done) .done .done)) (.ifElse (.csIn [310, 311, 312, 313, 314, 315, 316, 317, 318, 319, 320, 321, 322, 323, 324, 325, 326, 327, 328, 329, 330, 331, 332, 333, 334, 335, 336, 337, 338, 339, 340, 341, 342, 343, 344, 345, 346, 347, 348, 349, 350, 351, 352, 353, 354, 355, 356, 357]) (.stmt (.prim .sText) (.ifElse (.prim .sNotDash) (.stmt (.prim .appname) .done) .done .done)) (.ifElse (.csIn [358, 359, 360, 361, 362, 363, 364, 365, 366, 367, 368, 369, 370, 371, 372, 373, 374, 375, 376, 377, 378, 379, 380, 381, 382, 383, 384, 385, 386, 387, 388, 389, 390, 391, 392, 393, 394, 395, 396, 397, 398, 399, 400, 401, 402, 403, 404, 405, 406, 407, 408, 409, 410, 411, 412, 413, 414, 415, 416, 417, 418, 419, 420, 421, 422, 423, 424, 425, 426, 427, 428, 429, 430, 431, 432, 433, 434, 435, 436, 437, 438, 439, 440, 441, 442, 443, 444, 445, 446, 447, 448, 449, 450, 451, 452, 453, 454, 455, 456, 457, 458, 459, 460, 461, 462, 463, 464, 465, 466, 467, 468, 469, 470, 471, 472, 473, 474, 475, 476, 477, 478, 479, 480, 481, 482, 483, 484, 485]) (.stmt (.prim .sText) (.ifElse (.prim .sNotDash) (.stmt (.prim .procID) .done) .done .done)) (.ifElse (.csIn [486, 487, 488, 489, 490, 491, 492, 493, 494, 495, 496, 497, 498, 499, 500, 501, 502, 503, 504, 505, 506, 507, 508, 509, 510, 511, 512, 513, 514, 515, 516, 517]) (.stmt (.prim .sText) (.ifElse (.prim .sNotDash) (.stmt (.prim .msgID) .done) .done .done)) (.ifElse (.csIn [518, 519, 520, 521, 522, 523, 524, 525, 526, 527, 528, 529, 530, 531, 532, 533, 534, 535, 536, 537, 538, 539, 540, 541, 542, 543, 544, 545, 546, 547, 548, 549]) (.ifElse (.prim .sdNil) (.stmt (.prim .sdNew) .done) .done (.stmt (.prim .idText) (.stmt (.prim .elements) (.stmt (.prim .elementLookup) (.ifElse (.prim .notOk) (.stmt (.prim .elementAdd) .done) .done .done))))) (.ifElse (.csIn [550, 551, 552, 553, 554, 555, 556, 557, 558, 559, 560, 561, 562, 563, 564, 565, 566, 567, 568, 569, 570, 571, 572, 573, 574, 575, 576, 577, 578, 579, 580, 581]) (.stmt (.prim .elements) (.stmt (.prim .paramAdd) .done)) (.ifElse (.csIn [583]) (.stmt (.prim .textNew) (.ifElse (.prim .hasBackslashes) (.stmt (.prim .removeBytes) .done) .done (.stmt (.prim .elements) (.stmt (.prim .paramSet) .done)))) (.ifElse (.csIn [53]) (.stmt (.prim .sText) (.ifElse (.prim .sNotEmpty) (.stmt (.prim .message) .done) .done .done)) (.ifElse (.csIn [582]) (.stmt (.prim .pbP) (.stmt (.prim .textNew) (.ifElse (.prim .hasBackslashes) (.stmt (.prim .removeBytes) .done) .done (.stmt (.prim .elements) (.stmt (.prim .paramSet) .done))))) (.ifElse (.csIn [52]) (.stmt (.prim .pbP) (.stmt (.prim .sText) (.ifElse (.prim .sNotEmpty) (.stmt (.prim .message) .done) .done .done))) .done .done) .done) .done) .done) .done) .done) .done) .done) .done) .done) .done) .done .done, .out⟩
/-- rfc5424/builder.go:9259 -/
def out : K × Lbl := ⟨.ret .sm .done, .out⟩

/-- the labels `stN:` by number -/
def sts : Tree (K × Lbl) :=
  (.node (.node (.node (.node (.node (.node (.node (.node (.node (.node .nil 0 st0 .nil) 2 st2 .nil) 3 st3 (.node .nil 4 st4 .nil)) 5 st5
  (.node (.node .nil 6 st6 .nil) 7 st7 (.node .nil 8 st8 .nil))) 9 st9
  (.node (.node (.node (.node .nil 10 st10 .nil) 11 st11 .nil) 12 st12 (.node .nil 13 st13 .nil)) 14 st14
  (.node (.node .nil 15 st15 .nil) 16 st16 (.node .nil 17 st17 .nil)))) 18 st18
  (.node (.node (.node (.node (.node .nil 19 st19 .nil) 20 st20 .nil) 21 st21 (.node .nil 22 st22 .nil)) 23 st23
  (.node (.node .nil 24 st24 .nil) 25 st25 (.node .nil 26 st26 .nil))) 27 st27
  (.node (.node (.node (.node .nil 28 st28 .nil) 29 st29 .nil) 30 st30 (.node .nil 31 st31 .nil)) 32 st32
  (.node (.node .nil 33 st33 .nil) 34 st34 (.node .nil 35 st35 .nil))))) 36 st36
  (.node (.node (.node (.node (.node (.node .nil 37 st37 .nil) 44 st44 .nil) 45 st45 (.node .nil 46 st46 .nil)) 47 st47
  (.node (.node .nil 48 st48 .nil) 49 st49 (.node .nil 50 st50 .nil))) 51 st51
  (.node (.node (.node (.node .nil 53 st53 .nil) 54 st54 .nil) 55 st55 (.node .nil 56 st56 .nil)) 57 st57
  (.node (.node .nil 58 st58 .nil) 59 st59 (.node .nil 60 st60 .nil)))) 61 st61
  (.node (.node (.node (.node (.node .nil 62 st62 .nil) 63 st63 .nil) 64 st64 (.node .nil 65 st65 .nil)) 66 st66
  (.node (.node .nil 67 st67 .nil) 68 st68 (.node .nil 69 st69 .nil))) 70 st70
  (.node (.node (.node (.node .nil 71 st71 .nil) 72 st72 .nil) 73 st73 (.node .nil 74 st74 .nil)) 75 st75
  (.node (.node .nil 76 st76 .nil) 77 st77 (.node .nil 78 st78 .nil)))))) 79 st79
  (.node (.node (.node (.node (.node (.node (.node .nil 80 st80 .nil) 81 st81 .nil) 82 st82 (.node .nil 83 st83 .nil)) 84 st84
  (.node (.node .nil 85 st85 .nil) 86 st86 (.node .nil 87 st87 .nil))) 88 st88
  (.node (.node (.node (.node .nil 89 st89 .nil) 90 st90 .nil) 91 st91 (.node .nil 92 st92 .nil)) 93 st93
  (.node (.node .nil 94 st94 .nil) 95 st95 (.node .nil 96 st96 .nil)))) 97 st97
  (.node (.node (.node (.node (.node .nil 98 st98 .nil) 99 st99 .nil) 100 st100 (.node .nil 101 st101 .nil)) 102 st102
  (.node (.node .nil 103 st103 .nil) 104 st104 (.node .nil 105 st105 .nil))) 106 st106
  (.node (.node (.node (.node .nil 107 st107 .nil) 108 st108 .nil) 109 st109 (.node .nil 110 st110 .nil)) 111 st111
  (.node (.node .nil 112 st112 .nil) 113 st113 (.node .nil 114 st114 .nil))))) 115 st115
  (.node (.node (.node (.node (.node (.node .nil 116 st116 .nil) 117 st117 .nil) 118 st118 (.node .nil 119 st119 .nil)) 120 st120
  (.node (.node .nil 121 st121 .nil) 122 st122 (.node .nil 123 st123 .nil))) 124 st124
  (.node (.node (.node (.node .nil 125 st125 .nil) 126 st126 .nil) 127 st127 (.node .nil 128 st128 .nil)) 129 st129
  (.node (.node .nil 130 st130 .nil) 131 st131 (.node .nil 132 st132 .nil)))) 133 st133
  (.node (.node (.node (.node (.node .nil 134 st134 .nil) 135 st135 .nil) 136 st136 (.node .nil 137 st137 .nil)) 138 st138
  (.node (.node .nil 139 st139 .nil) 140 st140 (.node .nil 141 st141 .nil))) 142 st142
  (.node (.node (.node (.node .nil 143 st143 .nil) 144 st144 .nil) 145 st145 (.node .nil 146 st146 .nil)) 147 st147
  (.node (.node .nil 148 st148 .nil) 149 st149 (.node .nil 150 st150 .nil))))))) 151 st151
  (.node (.node (.node (.node (.node (.node (.node (.node .nil 152 st152 .nil) 153 st153 .nil) 154 st154 (.node .nil 155 st155 .nil)) 156 st156
  (.node (.node .nil 157 st157 .nil) 158 st158 (.node .nil 159 st159 .nil))) 160 st160
  (.node (.node (.node (.node .nil 161 st161 .nil) 162 st162 .nil) 163 st163 (.node .nil 164 st164 .nil)) 165 st165
  (.node (.node .nil 166 st166 .nil) 167 st167 (.node .nil 168 st168 .nil)))) 169 st169
  (.node (.node (.node (.node (.node .nil 170 st170 .nil) 171 st171 .nil) 172 st172 (.node .nil 173 st173 .nil)) 174 st174
  (.node (.node .nil 175 st175 .nil) 176 st176 (.node .nil 177 st177 .nil))) 178 st178
  (.node (.node (.node (.node .nil 179 st179 .nil) 180 st180 .nil) 181 st181 (.node .nil 182 st182 .nil)) 183 st183
  (.node (.node .nil 184 st184 .nil) 185 st185 (.node .nil 186 st186 .nil))))) 187 st187
  (.node (.node (.node (.node (.node (.node .nil 188 st188 .nil) 189 st189 .nil) 190 st190 (.node .nil 191 st191 .nil)) 192 st192
  (.node (.node .nil 193 st193 .nil) 194 st194 (.node .nil 195 st195 .nil))) 196 st196
  (.node (.node (.node (.node .nil 197 st197 .nil) 198 st198 .nil) 199 st199 (.node .nil 200 st200 .nil)) 201 st201
  (.node (.node .nil 202 st202 .nil) 203 st203 (.node .nil 204 st204 .nil)))) 205 st205
  (.node (.node (.node (.node (.node .nil 206 st206 .nil) 207 st207 .nil) 208 st208 (.node .nil 209 st209 .nil)) 210 st210
  (.node (.node .nil 211 st211 .nil) 212 st212 (.node .nil 213 st213 .nil))) 214 st214
  (.node (.node (.node (.node .nil 215 st215 .nil) 216 st216 .nil) 217 st217 (.node .nil 218 st218 .nil)) 219 st219
  (.node (.node .nil 220 st220 .nil) 221 st221 (.node .nil 222 st222 .nil)))))) 223 st223
  (.node (.node (.node (.node (.node (.node (.node .nil 224 st224 .nil) 225 st225 .nil) 226 st226 (.node .nil 227 st227 .nil)) 228 st228
  (.node (.node .nil 229 st229 .nil) 230 st230 (.node .nil 231 st231 .nil))) 232 st232
  (.node (.node (.node (.node .nil 233 st233 .nil) 234 st234 .nil) 235 st235 (.node .nil 236 st236 .nil)) 237 st237
  (.node (.node .nil 238 st238 .nil) 239 st239 (.node .nil 240 st240 .nil)))) 241 st241
  (.node (.node (.node (.node (.node .nil 242 st242 .nil) 243 st243 .nil) 244 st244 (.node .nil 245 st245 .nil)) 246 st246
  (.node (.node .nil 247 st247 .nil) 248 st248 (.node .nil 249 st249 .nil))) 250 st250
  (.node (.node (.node (.node .nil 251 st251 .nil) 252 st252 .nil) 253 st253 (.node .nil 254 st254 .nil)) 255 st255
  (.node (.node .nil 256 st256 .nil) 257 st257 (.node .nil 258 st258 .nil))))) 259 st259
  (.node (.node (.node (.node (.node (.node .nil 260 st260 .nil) 261 st261 .nil) 262 st262 (.node .nil 263 st263 .nil)) 264 st264
  (.node (.node .nil 265 st265 .nil) 266 st266 (.node .nil 267 st267 .nil))) 268 st268
  (.node (.node (.node (.node .nil 269 st269 .nil) 270 st270 .nil) 271 st271 (.node .nil 272 st272 .nil)) 273 st273
  (.node (.node .nil 274 st274 .nil) 275 st275 (.node .nil 276 st276 .nil)))) 277 st277
  (.node (.node (.node (.node (.node .nil 278 st278 .nil) 279 st279 .nil) 280 st280 (.node .nil 281 st281 .nil)) 282 st282
  (.node (.node .nil 283 st283 .nil) 284 st284 (.node .nil 285 st285 .nil))) 286 st286
  (.node (.node (.node (.node .nil 287 st287 .nil) 288 st288 .nil) 289 st289 (.node .nil 290 st290 .nil)) 291 st291
  (.node (.node .nil 292 st292 .nil) 293 st293 (.node .nil 294 st294 .nil)))))))) 295 st295
  (.node (.node (.node (.node (.node (.node (.node (.node (.node .nil 296 st296 .nil) 297 st297 .nil) 298 st298 (.node .nil 299 st299 .nil)) 300 st300
  (.node (.node .nil 301 st301 .nil) 302 st302 (.node .nil 303 st303 .nil))) 304 st304
  (.node (.node (.node (.node .nil 305 st305 .nil) 306 st306 .nil) 307 st307 (.node .nil 308 st308 .nil)) 309 st309
  (.node (.node .nil 310 st310 .nil) 311 st311 (.node .nil 312 st312 .nil)))) 313 st313
  (.node (.node (.node (.node (.node .nil 314 st314 .nil) 315 st315 .nil) 316 st316 (.node .nil 317 st317 .nil)) 318 st318
  (.node (.node .nil 319 st319 .nil) 320 st320 (.node .nil 321 st321 .nil))) 322 st322
  (.node (.node (.node (.node .nil 323 st323 .nil) 324 st324 .nil) 325 st325 (.node .nil 326 st326 .nil)) 327 st327
  (.node (.node .nil 328 st328 .nil) 329 st329 (.node .nil 330 st330 .nil))))) 331 st331
  (.node (.node (.node (.node (.node (.node .nil 332 st332 .nil) 333 st333 .nil) 334 st334 (.node .nil 335 st335 .nil)) 336 st336
  (.node (.node .nil 337 st337 .nil) 338 st338 (.node .nil 339 st339 .nil))) 340 st340
  (.node (.node (.node (.node .nil 341 st341 .nil) 342 st342 .nil) 343 st343 (.node .nil 344 st344 .nil)) 345 st345
  (.node (.node .nil 346 st346 .nil) 347 st347 (.node .nil 348 st348 .nil)))) 349 st349
  (.node (.node (.node (.node (.node .nil 350 st350 .nil) 351 st351 .nil) 352 st352 (.node .nil 353 st353 .nil)) 354 st354
  (.node (.node .nil 355 st355 .nil) 356 st356 (.node .nil 357 st357 .nil))) 358 st358
  (.node (.node (.node (.node .nil 359 st359 .nil) 360 st360 .nil) 361 st361 (.node .nil 362 st362 .nil)) 363 st363
  (.node (.node .nil 364 st364 .nil) 365 st365 (.node .nil 366 st366 .nil)))))) 367 st367
  (.node (.node (.node (.node (.node (.node (.node .nil 368 st368 .nil) 369 st369 .nil) 370 st370 (.node .nil 371 st371 .nil)) 372 st372
  (.node (.node .nil 373 st373 .nil) 374 st374 (.node .nil 375 st375 .nil))) 376 st376
  (.node (.node (.node (.node .nil 377 st377 .nil) 378 st378 .nil) 379 st379 (.node .nil 380 st380 .nil)) 381 st381
  (.node (.node .nil 382 st382 .nil) 383 st383 (.node .nil 384 st384 .nil)))) 385 st385
  (.node (.node (.node (.node (.node .nil 386 st386 .nil) 387 st387 .nil) 388 st388 (.node .nil 389 st389 .nil)) 390 st390
  (.node (.node .nil 391 st391 .nil) 392 st392 (.node .nil 393 st393 .nil))) 394 st394
  (.node (.node (.node (.node .nil 395 st395 .nil) 396 st396 .nil) 397 st397 (.node .nil 398 st398 .nil)) 399 st399
  (.node (.node .nil 400 st400 .nil) 401 st401 (.node .nil 402 st402 .nil))))) 403 st403
  (.node (.node (.node (.node (.node (.node .nil 404 st404 .nil) 405 st405 .nil) 406 st406 (.node .nil 407 st407 .nil)) 408 st408
  (.node (.node .nil 409 st409 .nil) 410 st410 (.node .nil 411 st411 .nil))) 412 st412
  (.node (.node (.node (.node .nil 413 st413 .nil) 414 st414 .nil) 415 st415 (.node .nil 416 st416 .nil)) 417 st417
  (.node (.node .nil 418 st418 .nil) 419 st419 (.node .nil 420 st420 .nil)))) 421 st421
  (.node (.node (.node (.node (.node .nil 422 st422 .nil) 423 st423 .nil) 424 st424 (.node .nil 425 st425 .nil)) 426 st426
  (.node (.node .nil 427 st427 .nil) 428 st428 (.node .nil 429 st429 .nil))) 430 st430
  (.node (.node (.node (.node .nil 431 st431 .nil) 432 st432 .nil) 433 st433 (.node .nil 434 st434 .nil)) 435 st435
  (.node (.node .nil 436 st436 .nil) 437 st437 (.node .nil 438 st438 .nil))))))) 439 st439
  (.node (.node (.node (.node (.node (.node (.node (.node .nil 440 st440 .nil) 441 st441 .nil) 442 st442 (.node .nil 443 st443 .nil)) 444 st444
  (.node (.node .nil 445 st445 .nil) 446 st446 (.node .nil 447 st447 .nil))) 448 st448
  (.node (.node (.node (.node .nil 449 st449 .nil) 450 st450 .nil) 451 st451 (.node .nil 452 st452 .nil)) 453 st453
  (.node (.node .nil 454 st454 .nil) 455 st455 (.node .nil 456 st456 .nil)))) 457 st457
  (.node (.node (.node (.node (.node .nil 458 st458 .nil) 459 st459 .nil) 460 st460 (.node .nil 461 st461 .nil)) 462 st462
  (.node (.node .nil 463 st463 .nil) 464 st464 (.node .nil 465 st465 .nil))) 466 st466
  (.node (.node (.node (.node .nil 467 st467 .nil) 468 st468 .nil) 469 st469 (.node .nil 470 st470 .nil)) 471 st471
  (.node (.node .nil 472 st472 .nil) 473 st473 (.node .nil 474 st474 .nil))))) 475 st475
  (.node (.node (.node (.node (.node (.node .nil 476 st476 .nil) 477 st477 .nil) 478 st478 (.node .nil 479 st479 .nil)) 480 st480
  (.node (.node .nil 481 st481 .nil) 482 st482 (.node .nil 483 st483 .nil))) 484 st484
  (.node (.node (.node (.node .nil 485 st485 .nil) 486 st486 .nil) 487 st487 (.node .nil 488 st488 .nil)) 489 st489
  (.node (.node .nil 490 st490 .nil) 491 st491 (.node .nil 492 st492 .nil)))) 493 st493
  (.node (.node (.node (.node (.node .nil 494 st494 .nil) 495 st495 .nil) 496 st496 (.node .nil 497 st497 .nil)) 498 st498
  (.node (.node .nil 499 st499 .nil) 500 st500 (.node .nil 501 st501 .nil))) 502 st502
  (.node (.node (.node (.node .nil 503 st503 .nil) 504 st504 .nil) 505 st505 (.node .nil 506 st506 .nil)) 507 st507
  (.node (.node .nil 508 st508 .nil) 509 st509 (.node .nil 510 st510 .nil)))))) 511 st511
  (.node (.node (.node (.node (.node (.node (.node .nil 512 st512 .nil) 513 st513 .nil) 514 st514 (.node .nil 515 st515 .nil)) 516 st516
  (.node (.node .nil 517 st517 .nil) 518 st518 (.node .nil 519 st519 .nil))) 520 st520
  (.node (.node (.node (.node .nil 521 st521 .nil) 522 st522 .nil) 523 st523 (.node .nil 524 st524 .nil)) 525 st525
  (.node (.node .nil 526 st526 .nil) 527 st527 (.node .nil 528 st528 .nil)))) 529 st529
  (.node (.node (.node (.node (.node .nil 530 st530 .nil) 531 st531 .nil) 532 st532 (.node .nil 533 st533 .nil)) 534 st534
  (.node (.node .nil 535 st535 .nil) 536 st536 (.node .nil 537 st537 .nil))) 538 st538
  (.node (.node (.node (.node .nil 539 st539 .nil) 540 st540 .nil) 541 st541 (.node .nil 542 st542 .nil)) 543 st543
  (.node (.node .nil 544 st544 .nil) 545 st545 (.node .nil 546 st546 .nil))))) 547 st547
  (.node (.node (.node (.node (.node (.node .nil 548 st548 .nil) 549 st549 .nil) 550 st550 (.node .nil 551 st551 .nil)) 552 st552
  (.node (.node .nil 553 st553 .nil) 554 st554 (.node .nil 555 st555 .nil))) 556 st556
  (.node (.node (.node (.node .nil 557 st557 .nil) 558 st558 .nil) 559 st559 (.node .nil 560 st560 .nil)) 561 st561
  (.node (.node .nil 562 st562 .nil) 563 st563 (.node .nil 564 st564 .nil)))) 565 st565
  (.node (.node (.node (.node (.node .nil 566 st566 .nil) 567 st567 .nil) 568 st568 (.node .nil 569 st569 .nil)) 570 st570
  (.node (.node .nil 571 st571 .nil) 572 st572 (.node .nil 573 st573 .nil))) 574 st574
  (.node (.node (.node (.node .nil 575 st575 .nil) 576 st576 .nil) 577 st577 (.node .nil 578 st578 .nil)) 579 st579
  (.node (.node .nil 580 st580 .nil) 581 st581 (.node .nil 583 st583 .nil)))))))))

/-- the labels `stCaseN:` by number -/
def stCases : Tree (K × Lbl) :=
  (.node (.node (.node (.node (.node (.node (.node (.node (.node (.node .nil 0 stCase0 .nil) 1 stCase1 .nil) 2 stCase2 (.node .nil 3 stCase3 .nil)) 4 stCase4
  (.node (.node (.node .nil 5 stCase5 .nil) 6 stCase6 .nil) 7 stCase7 (.node .nil 8 stCase8 .nil))) 9 stCase9
  (.node (.node (.node (.node .nil 10 stCase10 .nil) 11 stCase11 .nil) 12 stCase12 (.node .nil 13 stCase13 .nil)) 14 stCase14
  (.node (.node .nil 15 stCase15 .nil) 16 stCase16 (.node .nil 17 stCase17 .nil)))) 18 stCase18
  (.node (.node (.node (.node (.node .nil 19 stCase19 .nil) 20 stCase20 .nil) 21 stCase21 (.node .nil 22 stCase22 .nil)) 23 stCase23
  (.node (.node .nil 24 stCase24 .nil) 25 stCase25 (.node .nil 26 stCase26 .nil))) 27 stCase27
  (.node (.node (.node (.node .nil 28 stCase28 .nil) 29 stCase29 .nil) 30 stCase30 (.node .nil 31 stCase31 .nil)) 32 stCase32
  (.node (.node .nil 33 stCase33 .nil) 34 stCase34 (.node .nil 35 stCase35 .nil))))) 36 stCase36
  (.node (.node (.node (.node (.node (.node .nil 37 stCase37 .nil) 38 stCase38 .nil) 39 stCase39 (.node .nil 40 stCase40 .nil)) 41 stCase41
  (.node (.node (.node .nil 42 stCase42 .nil) 43 stCase43 .nil) 44 stCase44 (.node .nil 45 stCase45 .nil))) 46 stCase46
  (.node (.node (.node (.node .nil 47 stCase47 .nil) 48 stCase48 .nil) 49 stCase49 (.node .nil 50 stCase50 .nil)) 51 stCase51
  (.node (.node .nil 52 stCase52 .nil) 53 stCase53 (.node .nil 54 stCase54 .nil)))) 55 stCase55
  (.node (.node (.node (.node (.node .nil 56 stCase56 .nil) 57 stCase57 .nil) 58 stCase58 (.node .nil 59 stCase59 .nil)) 60 stCase60
  (.node (.node .nil 61 stCase61 .nil) 62 stCase62 (.node .nil 63 stCase63 .nil))) 64 stCase64
  (.node (.node (.node (.node .nil 65 stCase65 .nil) 66 stCase66 .nil) 67 stCase67 (.node .nil 68 stCase68 .nil)) 69 stCase69
  (.node (.node .nil 70 stCase70 .nil) 71 stCase71 (.node .nil 72 stCase72 .nil)))))) 73 stCase73
  (.node (.node (.node (.node (.node (.node (.node .nil 74 stCase74 .nil) 75 stCase75 .nil) 76 stCase76 (.node .nil 77 stCase77 .nil)) 78 stCase78
  (.node (.node (.node .nil 79 stCase79 .nil) 80 stCase80 .nil) 81 stCase81 (.node .nil 82 stCase82 .nil))) 83 stCase83
  (.node (.node (.node (.node .nil 84 stCase84 .nil) 85 stCase85 .nil) 86 stCase86 (.node .nil 87 stCase87 .nil)) 88 stCase88
  (.node (.node .nil 89 stCase89 .nil) 90 stCase90 (.node .nil 91 stCase91 .nil)))) 92 stCase92
  (.node (.node (.node (.node (.node .nil 93 stCase93 .nil) 94 stCase94 .nil) 95 stCase95 (.node .nil 96 stCase96 .nil)) 97 stCase97
  (.node (.node .nil 98 stCase98 .nil) 99 stCase99 (.node .nil 100 stCase100 .nil))) 101 stCase101
  (.node (.node (.node (.node .nil 102 stCase102 .nil) 103 stCase103 .nil) 104 stCase104 (.node .nil 105 stCase105 .nil)) 106 stCase106
  (.node (.node .nil 107 stCase107 .nil) 108 stCase108 (.node .nil 109 stCase109 .nil))))) 110 stCase110
  (.node (.node (.node (.node (.node (.node .nil 111 stCase111 .nil) 112 stCase112 .nil) 113 stCase113 (.node .nil 114 stCase114 .nil)) 115 stCase115
  (.node (.node .nil 116 stCase116 .nil) 117 stCase117 (.node .nil 118 stCase118 .nil))) 119 stCase119
  (.node (.node (.node (.node .nil 120 stCase120 .nil) 121 stCase121 .nil) 122 stCase122 (.node .nil 123 stCase123 .nil)) 124 stCase124
  (.node (.node .nil 125 stCase125 .nil) 126 stCase126 (.node .nil 127 stCase127 .nil)))) 128 stCase128
  (.node (.node (.node (.node (.node .nil 129 stCase129 .nil) 130 stCase130 .nil) 131 stCase131 (.node .nil 132 stCase132 .nil)) 133 stCase133
  (.node (.node .nil 134 stCase134 .nil) 135 stCase135 (.node .nil 136 stCase136 .nil))) 137 stCase137
  (.node (.node (.node (.node .nil 138 stCase138 .nil) 139 stCase139 .nil) 140 stCase140 (.node .nil 141 stCase141 .nil)) 142 stCase142
  (.node (.node .nil 143 stCase143 .nil) 144 stCase144 (.node .nil 145 stCase145 .nil))))))) 146 stCase146
  (.node (.node (.node (.node (.node (.node (.node (.node .nil 147 stCase147 .nil) 148 stCase148 .nil) 149 stCase149 (.node .nil 150 stCase150 .nil)) 151 stCase151
  (.node (.node (.node .nil 152 stCase152 .nil) 153 stCase153 .nil) 154 stCase154 (.node .nil 155 stCase155 .nil))) 156 stCase156
  (.node (.node (.node (.node .nil 157 stCase157 .nil) 158 stCase158 .nil) 159 stCase159 (.node .nil 160 stCase160 .nil)) 161 stCase161
  (.node (.node .nil 162 stCase162 .nil) 163 stCase163 (.node .nil 164 stCase164 .nil)))) 165 stCase165
  (.node (.node (.node (.node (.node .nil 166 stCase166 .nil) 167 stCase167 .nil) 168 stCase168 (.node .nil 169 stCase169 .nil)) 170 stCase170
  (.node (.node .nil 171 stCase171 .nil) 172 stCase172 (.node .nil 173 stCase173 .nil))) 174 stCase174
  (.node (.node (.node (.node .nil 175 stCase175 .nil) 176 stCase176 .nil) 177 stCase177 (.node .nil 178 stCase178 .nil)) 179 stCase179
  (.node (.node .nil 180 stCase180 .nil) 181 stCase181 (.node .nil 182 stCase182 .nil))))) 183 stCase183
  (.node (.node (.node (.node (.node (.node .nil 184 stCase184 .nil) 185 stCase185 .nil) 186 stCase186 (.node .nil 187 stCase187 .nil)) 188 stCase188
  (.node (.node .nil 189 stCase189 .nil) 190 stCase190 (.node .nil 191 stCase191 .nil))) 192 stCase192
  (.node (.node (.node (.node .nil 193 stCase193 .nil) 194 stCase194 .nil) 195 stCase195 (.node .nil 196 stCase196 .nil)) 197 stCase197
  (.node (.node .nil 198 stCase198 .nil) 199 stCase199 (.node .nil 200 stCase200 .nil)))) 201 stCase201
  (.node (.node (.node (.node (.node .nil 202 stCase202 .nil) 203 stCase203 .nil) 204 stCase204 (.node .nil 205 stCase205 .nil)) 206 stCase206
  (.node (.node .nil 207 stCase207 .nil) 208 stCase208 (.node .nil 209 stCase209 .nil))) 210 stCase210
  (.node (.node (.node (.node .nil 211 stCase211 .nil) 212 stCase212 .nil) 213 stCase213 (.node .nil 214 stCase214 .nil)) 215 stCase215
  (.node (.node .nil 216 stCase216 .nil) 217 stCase217 (.node .nil 218 stCase218 .nil)))))) 219 stCase219
  (.node (.node (.node (.node (.node (.node (.node .nil 220 stCase220 .nil) 221 stCase221 .nil) 222 stCase222 (.node .nil 223 stCase223 .nil)) 224 stCase224
  (.node (.node (.node .nil 225 stCase225 .nil) 226 stCase226 .nil) 227 stCase227 (.node .nil 228 stCase228 .nil))) 229 stCase229
  (.node (.node (.node (.node .nil 230 stCase230 .nil) 231 stCase231 .nil) 232 stCase232 (.node .nil 233 stCase233 .nil)) 234 stCase234
  (.node (.node .nil 235 stCase235 .nil) 236 stCase236 (.node .nil 237 stCase237 .nil)))) 238 stCase238
  (.node (.node (.node (.node (.node .nil 239 stCase239 .nil) 240 stCase240 .nil) 241 stCase241 (.node .nil 242 stCase242 .nil)) 243 stCase243
  (.node (.node .nil 244 stCase244 .nil) 245 stCase245 (.node .nil 246 stCase246 .nil))) 247 stCase247
  (.node (.node (.node (.node .nil 248 stCase248 .nil) 249 stCase249 .nil) 250 stCase250 (.node .nil 251 stCase251 .nil)) 252 stCase252
  (.node (.node .nil 253 stCase253 .nil) 254 stCase254 (.node .nil 255 stCase255 .nil))))) 256 stCase256
  (.node (.node (.node (.node (.node (.node .nil 257 stCase257 .nil) 258 stCase258 .nil) 259 stCase259 (.node .nil 260 stCase260 .nil)) 261 stCase261
  (.node (.node .nil 262 stCase262 .nil) 263 stCase263 (.node .nil 264 stCase264 .nil))) 265 stCase265
  (.node (.node (.node (.node .nil 266 stCase266 .nil) 267 stCase267 .nil) 268 stCase268 (.node .nil 269 stCase269 .nil)) 270 stCase270
  (.node (.node .nil 271 stCase271 .nil) 272 stCase272 (.node .nil 273 stCase273 .nil)))) 274 stCase274
  (.node (.node (.node (.node (.node .nil 275 stCase275 .nil) 276 stCase276 .nil) 277 stCase277 (.node .nil 278 stCase278 .nil)) 279 stCase279
  (.node (.node .nil 280 stCase280 .nil) 281 stCase281 (.node .nil 282 stCase282 .nil))) 283 stCase283
  (.node (.node (.node (.node .nil 284 stCase284 .nil) 285 stCase285 .nil) 286 stCase286 (.node .nil 287 stCase287 .nil)) 288 stCase288
  (.node (.node .nil 289 stCase289 .nil) 290 stCase290 (.node .nil 291 stCase291 .nil)))))))) 292 stCase292
  (.node (.node (.node (.node (.node (.node (.node (.node (.node .nil 293 stCase293 .nil) 294 stCase294 .nil) 295 stCase295 (.node .nil 296 stCase296 .nil)) 297 stCase297
  (.node (.node (.node .nil 298 stCase298 .nil) 299 stCase299 .nil) 300 stCase300 (.node .nil 301 stCase301 .nil))) 302 stCase302
  (.node (.node (.node (.node .nil 303 stCase303 .nil) 304 stCase304 .nil) 305 stCase305 (.node .nil 306 stCase306 .nil)) 307 stCase307
  (.node (.node .nil 308 stCase308 .nil) 309 stCase309 (.node .nil 310 stCase310 .nil)))) 311 stCase311
  (.node (.node (.node (.node (.node .nil 312 stCase312 .nil) 313 stCase313 .nil) 314 stCase314 (.node .nil 315 stCase315 .nil)) 316 stCase316
  (.node (.node .nil 317 stCase317 .nil) 318 stCase318 (.node .nil 319 stCase319 .nil))) 320 stCase320
  (.node (.node (.node (.node .nil 321 stCase321 .nil) 322 stCase322 .nil) 323 stCase323 (.node .nil 324 stCase324 .nil)) 325 stCase325
  (.node (.node .nil 326 stCase326 .nil) 327 stCase327 (.node .nil 328 stCase328 .nil))))) 329 stCase329
  (.node (.node (.node (.node (.node (.node .nil 330 stCase330 .nil) 331 stCase331 .nil) 332 stCase332 (.node .nil 333 stCase333 .nil)) 334 stCase334
  (.node (.node .nil 335 stCase335 .nil) 336 stCase336 (.node .nil 337 stCase337 .nil))) 338 stCase338
  (.node (.node (.node (.node .nil 339 stCase339 .nil) 340 stCase340 .nil) 341 stCase341 (.node .nil 342 stCase342 .nil)) 343 stCase343
  (.node (.node .nil 344 stCase344 .nil) 345 stCase345 (.node .nil 346 stCase346 .nil)))) 347 stCase347
  (.node (.node (.node (.node (.node .nil 348 stCase348 .nil) 349 stCase349 .nil) 350 stCase350 (.node .nil 351 stCase351 .nil)) 352 stCase352
  (.node (.node .nil 353 stCase353 .nil) 354 stCase354 (.node .nil 355 stCase355 .nil))) 356 stCase356
  (.node (.node (.node (.node .nil 357 stCase357 .nil) 358 stCase358 .nil) 359 stCase359 (.node .nil 360 stCase360 .nil)) 361 stCase361
  (.node (.node .nil 362 stCase362 .nil) 363 stCase363 (.node .nil 364 stCase364 .nil)))))) 365 stCase365
  (.node (.node (.node (.node (.node (.node (.node .nil 366 stCase366 .nil) 367 stCase367 .nil) 368 stCase368 (.node .nil 369 stCase369 .nil)) 370 stCase370
  (.node (.node (.node .nil 371 stCase371 .nil) 372 stCase372 .nil) 373 stCase373 (.node .nil 374 stCase374 .nil))) 375 stCase375
  (.node (.node (.node (.node .nil 376 stCase376 .nil) 377 stCase377 .nil) 378 stCase378 (.node .nil 379 stCase379 .nil)) 380 stCase380
  (.node (.node .nil 381 stCase381 .nil) 382 stCase382 (.node .nil 383 stCase383 .nil)))) 384 stCase384
  (.node (.node (.node (.node (.node .nil 385 stCase385 .nil) 386 stCase386 .nil) 387 stCase387 (.node .nil 388 stCase388 .nil)) 389 stCase389
  (.node (.node .nil 390 stCase390 .nil) 391 stCase391 (.node .nil 392 stCase392 .nil))) 393 stCase393
  (.node (.node (.node (.node .nil 394 stCase394 .nil) 395 stCase395 .nil) 396 stCase396 (.node .nil 397 stCase397 .nil)) 398 stCase398
  (.node (.node .nil 399 stCase399 .nil) 400 stCase400 (.node .nil 401 stCase401 .nil))))) 402 stCase402
  (.node (.node (.node (.node (.node (.node .nil 403 stCase403 .nil) 404 stCase404 .nil) 405 stCase405 (.node .nil 406 stCase406 .nil)) 407 stCase407
  (.node (.node .nil 408 stCase408 .nil) 409 stCase409 (.node .nil 410 stCase410 .nil))) 411 stCase411
  (.node (.node (.node (.node .nil 412 stCase412 .nil) 413 stCase413 .nil) 414 stCase414 (.node .nil 415 stCase415 .nil)) 416 stCase416
  (.node (.node .nil 417 stCase417 .nil) 418 stCase418 (.node .nil 419 stCase419 .nil)))) 420 stCase420
  (.node (.node (.node (.node (.node .nil 421 stCase421 .nil) 422 stCase422 .nil) 423 stCase423 (.node .nil 424 stCase424 .nil)) 425 stCase425
  (.node (.node .nil 426 stCase426 .nil) 427 stCase427 (.node .nil 428 stCase428 .nil))) 429 stCase429
  (.node (.node (.node (.node .nil 430 stCase430 .nil) 431 stCase431 .nil) 432 stCase432 (.node .nil 433 stCase433 .nil)) 434 stCase434
  (.node (.node .nil 435 stCase435 .nil) 436 stCase436 (.node .nil 437 stCase437 .nil))))))) 438 stCase438
  (.node (.node (.node (.node (.node (.node (.node (.node .nil 439 stCase439 .nil) 440 stCase440 .nil) 441 stCase441 (.node .nil 442 stCase442 .nil)) 443 stCase443
  (.node (.node (.node .nil 444 stCase444 .nil) 445 stCase445 .nil) 446 stCase446 (.node .nil 447 stCase447 .nil))) 448 stCase448
  (.node (.node (.node (.node .nil 449 stCase449 .nil) 450 stCase450 .nil) 451 stCase451 (.node .nil 452 stCase452 .nil)) 453 stCase453
  (.node (.node .nil 454 stCase454 .nil) 455 stCase455 (.node .nil 456 stCase456 .nil)))) 457 stCase457
  (.node (.node (.node (.node (.node .nil 458 stCase458 .nil) 459 stCase459 .nil) 460 stCase460 (.node .nil 461 stCase461 .nil)) 462 stCase462
  (.node (.node .nil 463 stCase463 .nil) 464 stCase464 (.node .nil 465 stCase465 .nil))) 466 stCase466
  (.node (.node (.node (.node .nil 467 stCase467 .nil) 468 stCase468 .nil) 469 stCase469 (.node .nil 470 stCase470 .nil)) 471 stCase471
  (.node (.node .nil 472 stCase472 .nil) 473 stCase473 (.node .nil 474 stCase474 .nil))))) 475 stCase475
  (.node (.node (.node (.node (.node (.node .nil 476 stCase476 .nil) 477 stCase477 .nil) 478 stCase478 (.node .nil 479 stCase479 .nil)) 480 stCase480
  (.node (.node .nil 481 stCase481 .nil) 482 stCase482 (.node .nil 483 stCase483 .nil))) 484 stCase484
  (.node (.node (.node (.node .nil 485 stCase485 .nil) 486 stCase486 .nil) 487 stCase487 (.node .nil 488 stCase488 .nil)) 489 stCase489
  (.node (.node .nil 490 stCase490 .nil) 491 stCase491 (.node .nil 492 stCase492 .nil)))) 493 stCase493
  (.node (.node (.node (.node (.node .nil 494 stCase494 .nil) 495 stCase495 .nil) 496 stCase496 (.node .nil 497 stCase497 .nil)) 498 stCase498
  (.node (.node .nil 499 stCase499 .nil) 500 stCase500 (.node .nil 501 stCase501 .nil))) 502 stCase502
  (.node (.node (.node (.node .nil 503 stCase503 .nil) 504 stCase504 .nil) 505 stCase505 (.node .nil 506 stCase506 .nil)) 507 stCase507
  (.node (.node .nil 508 stCase508 .nil) 509 stCase509 (.node .nil 510 stCase510 .nil)))))) 511 stCase511
  (.node (.node (.node (.node (.node (.node (.node .nil 512 stCase512 .nil) 513 stCase513 .nil) 514 stCase514 (.node .nil 515 stCase515 .nil)) 516 stCase516
  (.node (.node (.node .nil 517 stCase517 .nil) 518 stCase518 .nil) 519 stCase519 (.node .nil 520 stCase520 .nil))) 521 stCase521
  (.node (.node (.node (.node .nil 522 stCase522 .nil) 523 stCase523 .nil) 524 stCase524 (.node .nil 525 stCase525 .nil)) 526 stCase526
  (.node (.node .nil 527 stCase527 .nil) 528 stCase528 (.node .nil 529 stCase529 .nil)))) 530 stCase530
  (.node (.node (.node (.node (.node .nil 531 stCase531 .nil) 532 stCase532 .nil) 533 stCase533 (.node .nil 534 stCase534 .nil)) 535 stCase535
  (.node (.node .nil 536 stCase536 .nil) 537 stCase537 (.node .nil 538 stCase538 .nil))) 539 stCase539
  (.node (.node (.node (.node .nil 540 stCase540 .nil) 541 stCase541 .nil) 542 stCase542 (.node .nil 543 stCase543 .nil)) 544 stCase544
  (.node (.node .nil 545 stCase545 .nil) 546 stCase546 (.node .nil 547 stCase547 .nil))))) 548 stCase548
  (.node (.node (.node (.node (.node (.node .nil 549 stCase549 .nil) 550 stCase550 .nil) 551 stCase551 (.node .nil 552 stCase552 .nil)) 553 stCase553
  (.node (.node .nil 554 stCase554 .nil) 555 stCase555 (.node .nil 556 stCase556 .nil))) 557 stCase557
  (.node (.node (.node (.node .nil 558 stCase558 .nil) 559 stCase559 .nil) 560 stCase560 (.node .nil 561 stCase561 .nil)) 562 stCase562
  (.node (.node .nil 563 stCase563 .nil) 564 stCase564 (.node .nil 565 stCase565 .nil)))) 566 stCase566
  (.node (.node (.node (.node (.node .nil 567 stCase567 .nil) 568 stCase568 .nil) 569 stCase569 (.node .nil 570 stCase570 .nil)) 571 stCase571
  (.node (.node .nil 572 stCase572 .nil) 573 stCase573 (.node .nil 574 stCase574 .nil))) 575 stCase575
  (.node (.node (.node (.node .nil 576 stCase576 .nil) 577 stCase577 .nil) 578 stCase578 (.node .nil 579 stCase579 .nil)) 580 stCase580
  (.node (.node .nil 581 stCase581 .nil) 582 stCase582 (.node .nil 583 stCase583 .nil)))))))))

/-- the labels `trN:` by number -/
def trs : Tree (K × Lbl) :=
  (.node (.node (.node (.node (.node .nil 0 tr0 .nil) 38 tr38 .nil) 39 tr39 (.node .nil 40 tr40 .nil)) 41 tr41
  (.node (.node (.node .nil 42 tr42 .nil) 43 tr43 .nil) 47 tr47 (.node .nil 570 tr570 .nil))) 571 tr571
  (.node (.node (.node (.node .nil 572 tr572 .nil) 573 tr573 .nil) 574 tr574 (.node .nil 575 tr575 .nil)) 576 tr576
  (.node (.node .nil 577 tr577 .nil) 578 tr578 (.node .nil 579 tr579 .nil))))

/-- the labels `_testEofN:` by number -/
def testEofs : Tree (K × Lbl) :=
  (.node (.node (.node (.node (.node (.node (.node (.node (.node (.node .nil 2 testEof2 .nil) 3 testEof3 .nil) 4 testEof4 (.node .nil 5 testEof5 .nil)) 6 testEof6
  (.node (.node .nil 7 testEof7 .nil) 8 testEof8 (.node .nil 9 testEof9 .nil))) 10 testEof10
  (.node (.node (.node (.node .nil 11 testEof11 .nil) 12 testEof12 .nil) 13 testEof13 (.node .nil 14 testEof14 .nil)) 15 testEof15
  (.node (.node .nil 16 testEof16 .nil) 17 testEof17 (.node .nil 18 testEof18 .nil)))) 19 testEof19
  (.node (.node (.node (.node (.node .nil 20 testEof20 .nil) 21 testEof21 .nil) 22 testEof22 (.node .nil 23 testEof23 .nil)) 24 testEof24
  (.node (.node .nil 25 testEof25 .nil) 26 testEof26 (.node .nil 27 testEof27 .nil))) 28 testEof28
  (.node (.node (.node (.node .nil 29 testEof29 .nil) 30 testEof30 .nil) 31 testEof31 (.node .nil 32 testEof32 .nil)) 33 testEof33
  (.node (.node .nil 34 testEof34 .nil) 35 testEof35 (.node .nil 36 testEof36 .nil))))) 37 testEof37
  (.node (.node (.node (.node (.node (.node .nil 44 testEof44 .nil) 45 testEof45 .nil) 46 testEof46 (.node .nil 47 testEof47 .nil)) 48 testEof48
  (.node (.node .nil 49 testEof49 .nil) 50 testEof50 (.node .nil 51 testEof51 .nil))) 53 testEof53
  (.node (.node (.node (.node .nil 54 testEof54 .nil) 55 testEof55 .nil) 56 testEof56 (.node .nil 57 testEof57 .nil)) 58 testEof58
  (.node (.node .nil 59 testEof59 .nil) 60 testEof60 (.node .nil 61 testEof61 .nil)))) 62 testEof62
  (.node (.node (.node (.node (.node .nil 63 testEof63 .nil) 64 testEof64 .nil) 65 testEof65 (.node .nil 66 testEof66 .nil)) 67 testEof67
  (.node (.node .nil 68 testEof68 .nil) 69 testEof69 (.node .nil 70 testEof70 .nil))) 71 testEof71
  (.node (.node (.node (.node .nil 72 testEof72 .nil) 73 testEof73 .nil) 74 testEof74 (.node .nil 75 testEof75 .nil)) 76 testEof76
  (.node (.node .nil 77 testEof77 .nil) 78 testEof78 (.node .nil 79 testEof79 .nil)))))) 80 testEof80
  (.node (.node (.node (.node (.node (.node (.node .nil 81 testEof81 .nil) 82 testEof82 .nil) 83 testEof83 (.node .nil 84 testEof84 .nil)) 85 testEof85
  (.node (.node .nil 86 testEof86 .nil) 87 testEof87 (.node .nil 88 testEof88 .nil))) 89 testEof89
  (.node (.node (.node (.node .nil 90 testEof90 .nil) 91 testEof91 .nil) 92 testEof92 (.node .nil 93 testEof93 .nil)) 94 testEof94
  (.node (.node .nil 95 testEof95 .nil) 96 testEof96 (.node .nil 97 testEof97 .nil)))) 98 testEof98
  (.node (.node (.node (.node (.node .nil 99 testEof99 .nil) 100 testEof100 .nil) 101 testEof101 (.node .nil 102 testEof102 .nil)) 103 testEof103
  (.node (.node .nil 104 testEof104 .nil) 105 testEof105 (.node .nil 106 testEof106 .nil))) 107 testEof107
  (.node (.node (.node (.node .nil 108 testEof108 .nil) 109 testEof109 .nil) 110 testEof110 (.node .nil 111 testEof111 .nil)) 112 testEof112
  (.node (.node .nil 113 testEof113 .nil) 114 testEof114 (.node .nil 115 testEof115 .nil))))) 116 testEof116
  (.node (.node (.node (.node (.node (.node .nil 117 testEof117 .nil) 118 testEof118 .nil) 119 testEof119 (.node .nil 120 testEof120 .nil)) 121 testEof121
  (.node (.node .nil 122 testEof122 .nil) 123 testEof123 (.node .nil 124 testEof124 .nil))) 125 testEof125
  (.node (.node (.node (.node .nil 126 testEof126 .nil) 127 testEof127 .nil) 128 testEof128 (.node .nil 129 testEof129 .nil)) 130 testEof130
  (.node (.node .nil 131 testEof131 .nil) 132 testEof132 (.node .nil 133 testEof133 .nil)))) 134 testEof134
  (.node (.node (.node (.node (.node .nil 135 testEof135 .nil) 136 testEof136 .nil) 137 testEof137 (.node .nil 138 testEof138 .nil)) 139 testEof139
  (.node (.node .nil 140 testEof140 .nil) 141 testEof141 (.node .nil 142 testEof142 .nil))) 143 testEof143
  (.node (.node (.node (.node .nil 144 testEof144 .nil) 145 testEof145 .nil) 146 testEof146 (.node .nil 147 testEof147 .nil)) 148 testEof148
  (.node (.node .nil 149 testEof149 .nil) 150 testEof150 (.node .nil 151 testEof151 .nil))))))) 152 testEof152
  (.node (.node (.node (.node (.node (.node (.node (.node .nil 153 testEof153 .nil) 154 testEof154 .nil) 155 testEof155 (.node .nil 156 testEof156 .nil)) 157 testEof157
  (.node (.node .nil 158 testEof158 .nil) 159 testEof159 (.node .nil 160 testEof160 .nil))) 161 testEof161
  (.node (.node (.node (.node .nil 162 testEof162 .nil) 163 testEof163 .nil) 164 testEof164 (.node .nil 165 testEof165 .nil)) 166 testEof166
  (.node (.node .nil 167 testEof167 .nil) 168 testEof168 (.node .nil 169 testEof169 .nil)))) 170 testEof170
  (.node (.node (.node (.node (.node .nil 171 testEof171 .nil) 172 testEof172 .nil) 173 testEof173 (.node .nil 174 testEof174 .nil)) 175 testEof175
  (.node (.node .nil 176 testEof176 .nil) 177 testEof177 (.node .nil 178 testEof178 .nil))) 179 testEof179
  (.node (.node (.node (.node .nil 180 testEof180 .nil) 181 testEof181 .nil) 182 testEof182 (.node .nil 183 testEof183 .nil)) 184 testEof184
  (.node (.node .nil 185 testEof185 .nil) 186 testEof186 (.node .nil 187 testEof187 .nil))))) 188 testEof188
  (.node (.node (.node (.node (.node (.node .nil 189 testEof189 .nil) 190 testEof190 .nil) 191 testEof191 (.node .nil 192 testEof192 .nil)) 193 testEof193
  (.node (.node .nil 194 testEof194 .nil) 195 testEof195 (.node .nil 196 testEof196 .nil))) 197 testEof197
  (.node (.node (.node (.node .nil 198 testEof198 .nil) 199 testEof199 .nil) 200 testEof200 (.node .nil 201 testEof201 .nil)) 202 testEof202
  (.node (.node .nil 203 testEof203 .nil) 204 testEof204 (.node .nil 205 testEof205 .nil)))) 206 testEof206
  (.node (.node (.node (.node (.node .nil 207 testEof207 .nil) 208 testEof208 .nil) 209 testEof209 (.node .nil 210 testEof210 .nil)) 211 testEof211
  (.node (.node .nil 212 testEof212 .nil) 213 testEof213 (.node .nil 214 testEof214 .nil))) 215 testEof215
  (.node (.node (.node (.node .nil 216 testEof216 .nil) 217 testEof217 .nil) 218 testEof218 (.node .nil 219 testEof219 .nil)) 220 testEof220
  (.node (.node .nil 221 testEof221 .nil) 222 testEof222 (.node .nil 223 testEof223 .nil)))))) 224 testEof224
  (.node (.node (.node (.node (.node (.node (.node .nil 225 testEof225 .nil) 226 testEof226 .nil) 227 testEof227 (.node .nil 228 testEof228 .nil)) 229 testEof229
  (.node (.node .nil 230 testEof230 .nil) 231 testEof231 (.node .nil 232 testEof232 .nil))) 233 testEof233
  (.node (.node (.node (.node .nil 234 testEof234 .nil) 235 testEof235 .nil) 236 testEof236 (.node .nil 237 testEof237 .nil)) 238 testEof238
  (.node (.node .nil 239 testEof239 .nil) 240 testEof240 (.node .nil 241 testEof241 .nil)))) 242 testEof242
  (.node (.node (.node (.node (.node .nil 243 testEof243 .nil) 244 testEof244 .nil) 245 testEof245 (.node .nil 246 testEof246 .nil)) 247 testEof247
  (.node (.node .nil 248 testEof248 .nil) 249 testEof249 (.node .nil 250 testEof250 .nil))) 251 testEof251
  (.node (.node (.node (.node .nil 252 testEof252 .nil) 253 testEof253 .nil) 254 testEof254 (.node .nil 255 testEof255 .nil)) 256 testEof256
  (.node (.node .nil 257 testEof257 .nil) 258 testEof258 (.node .nil 259 testEof259 .nil))))) 260 testEof260
  (.node (.node (.node (.node (.node (.node .nil 261 testEof261 .nil) 262 testEof262 .nil) 263 testEof263 (.node .nil 264 testEof264 .nil)) 265 testEof265
  (.node (.node .nil 266 testEof266 .nil) 267 testEof267 (.node .nil 268 testEof268 .nil))) 269 testEof269
  (.node (.node (.node (.node .nil 270 testEof270 .nil) 271 testEof271 .nil) 272 testEof272 (.node .nil 273 testEof273 .nil)) 274 testEof274
  (.node (.node .nil 275 testEof275 .nil) 276 testEof276 (.node .nil 277 testEof277 .nil)))) 278 testEof278
  (.node (.node (.node (.node (.node .nil 279 testEof279 .nil) 280 testEof280 .nil) 281 testEof281 (.node .nil 282 testEof282 .nil)) 283 testEof283
  (.node (.node .nil 284 testEof284 .nil) 285 testEof285 (.node .nil 286 testEof286 .nil))) 287 testEof287
  (.node (.node (.node (.node .nil 288 testEof288 .nil) 289 testEof289 .nil) 290 testEof290 (.node .nil 291 testEof291 .nil)) 292 testEof292
  (.node (.node .nil 293 testEof293 .nil) 294 testEof294 (.node .nil 295 testEof295 .nil)))))))) 296 testEof296
  (.node (.node (.node (.node (.node (.node (.node (.node (.node .nil 297 testEof297 .nil) 298 testEof298 .nil) 299 testEof299 (.node .nil 300 testEof300 .nil)) 301 testEof301
  (.node (.node .nil 302 testEof302 .nil) 303 testEof303 (.node .nil 304 testEof304 .nil))) 305 testEof305
  (.node (.node (.node (.node .nil 306 testEof306 .nil) 307 testEof307 .nil) 308 testEof308 (.node .nil 309 testEof309 .nil)) 310 testEof310
  (.node (.node .nil 311 testEof311 .nil) 312 testEof312 (.node .nil 313 testEof313 .nil)))) 314 testEof314
  (.node (.node (.node (.node (.node .nil 315 testEof315 .nil) 316 testEof316 .nil) 317 testEof317 (.node .nil 318 testEof318 .nil)) 319 testEof319
  (.node (.node .nil 320 testEof320 .nil) 321 testEof321 (.node .nil 322 testEof322 .nil))) 323 testEof323
  (.node (.node (.node (.node .nil 324 testEof324 .nil) 325 testEof325 .nil) 326 testEof326 (.node .nil 327 testEof327 .nil)) 328 testEof328
  (.node (.node .nil 329 testEof329 .nil) 330 testEof330 (.node .nil 331 testEof331 .nil))))) 332 testEof332
  (.node (.node (.node (.node (.node (.node .nil 333 testEof333 .nil) 334 testEof334 .nil) 335 testEof335 (.node .nil 336 testEof336 .nil)) 337 testEof337
  (.node (.node .nil 338 testEof338 .nil) 339 testEof339 (.node .nil 340 testEof340 .nil))) 341 testEof341
  (.node (.node (.node (.node .nil 342 testEof342 .nil) 343 testEof343 .nil) 344 testEof344 (.node .nil 345 testEof345 .nil)) 346 testEof346
  (.node (.node .nil 347 testEof347 .nil) 348 testEof348 (.node .nil 349 testEof349 .nil)))) 350 testEof350
  (.node (.node (.node (.node (.node .nil 351 testEof351 .nil) 352 testEof352 .nil) 353 testEof353 (.node .nil 354 testEof354 .nil)) 355 testEof355
  (.node (.node .nil 356 testEof356 .nil) 357 testEof357 (.node .nil 358 testEof358 .nil))) 359 testEof359
  (.node (.node (.node (.node .nil 360 testEof360 .nil) 361 testEof361 .nil) 362 testEof362 (.node .nil 363 testEof363 .nil)) 364 testEof364
  (.node (.node .nil 365 testEof365 .nil) 366 testEof366 (.node .nil 367 testEof367 .nil)))))) 368 testEof368
  (.node (.node (.node (.node (.node (.node (.node .nil 369 testEof369 .nil) 370 testEof370 .nil) 371 testEof371 (.node .nil 372 testEof372 .nil)) 373 testEof373
  (.node (.node .nil 374 testEof374 .nil) 375 testEof375 (.node .nil 376 testEof376 .nil))) 377 testEof377
  (.node (.node (.node (.node .nil 378 testEof378 .nil) 379 testEof379 .nil) 380 testEof380 (.node .nil 381 testEof381 .nil)) 382 testEof382
  (.node (.node .nil 383 testEof383 .nil) 384 testEof384 (.node .nil 385 testEof385 .nil)))) 386 testEof386
  (.node (.node (.node (.node (.node .nil 387 testEof387 .nil) 388 testEof388 .nil) 389 testEof389 (.node .nil 390 testEof390 .nil)) 391 testEof391
  (.node (.node .nil 392 testEof392 .nil) 393 testEof393 (.node .nil 394 testEof394 .nil))) 395 testEof395
  (.node (.node (.node (.node .nil 396 testEof396 .nil) 397 testEof397 .nil) 398 testEof398 (.node .nil 399 testEof399 .nil)) 400 testEof400
  (.node (.node .nil 401 testEof401 .nil) 402 testEof402 (.node .nil 403 testEof403 .nil))))) 404 testEof404
  (.node (.node (.node (.node (.node (.node .nil 405 testEof405 .nil) 406 testEof406 .nil) 407 testEof407 (.node .nil 408 testEof408 .nil)) 409 testEof409
  (.node (.node .nil 410 testEof410 .nil) 411 testEof411 (.node .nil 412 testEof412 .nil))) 413 testEof413
  (.node (.node (.node (.node .nil 414 testEof414 .nil) 415 testEof415 .nil) 416 testEof416 (.node .nil 417 testEof417 .nil)) 418 testEof418
  (.node (.node .nil 419 testEof419 .nil) 420 testEof420 (.node .nil 421 testEof421 .nil)))) 422 testEof422
  (.node (.node (.node (.node (.node .nil 423 testEof423 .nil) 424 testEof424 .nil) 425 testEof425 (.node .nil 426 testEof426 .nil)) 427 testEof427
  (.node (.node .nil 428 testEof428 .nil) 429 testEof429 (.node .nil 430 testEof430 .nil))) 431 testEof431
  (.node (.node (.node (.node .nil 432 testEof432 .nil) 433 testEof433 .nil) 434 testEof434 (.node .nil 435 testEof435 .nil)) 436 testEof436
  (.node (.node .nil 437 testEof437 .nil) 438 testEof438 (.node .nil 439 testEof439 .nil))))))) 440 testEof440
  (.node (.node (.node (.node (.node (.node (.node (.node .nil 441 testEof441 .nil) 442 testEof442 .nil) 443 testEof443 (.node .nil 444 testEof444 .nil)) 445 testEof445
  (.node (.node .nil 446 testEof446 .nil) 447 testEof447 (.node .nil 448 testEof448 .nil))) 449 testEof449
  (.node (.node (.node (.node .nil 450 testEof450 .nil) 451 testEof451 .nil) 452 testEof452 (.node .nil 453 testEof453 .nil)) 454 testEof454
  (.node (.node .nil 455 testEof455 .nil) 456 testEof456 (.node .nil 457 testEof457 .nil)))) 458 testEof458
  (.node (.node (.node (.node (.node .nil 459 testEof459 .nil) 460 testEof460 .nil) 461 testEof461 (.node .nil 462 testEof462 .nil)) 463 testEof463
  (.node (.node .nil 464 testEof464 .nil) 465 testEof465 (.node .nil 466 testEof466 .nil))) 467 testEof467
  (.node (.node (.node (.node .nil 468 testEof468 .nil) 469 testEof469 .nil) 470 testEof470 (.node .nil 471 testEof471 .nil)) 472 testEof472
  (.node (.node .nil 473 testEof473 .nil) 474 testEof474 (.node .nil 475 testEof475 .nil))))) 476 testEof476
  (.node (.node (.node (.node (.node (.node .nil 477 testEof477 .nil) 478 testEof478 .nil) 479 testEof479 (.node .nil 480 testEof480 .nil)) 481 testEof481
  (.node (.node .nil 482 testEof482 .nil) 483 testEof483 (.node .nil 484 testEof484 .nil))) 485 testEof485
  (.node (.node (.node (.node .nil 486 testEof486 .nil) 487 testEof487 .nil) 488 testEof488 (.node .nil 489 testEof489 .nil)) 490 testEof490
  (.node (.node .nil 491 testEof491 .nil) 492 testEof492 (.node .nil 493 testEof493 .nil)))) 494 testEof494
  (.node (.node (.node (.node (.node .nil 495 testEof495 .nil) 496 testEof496 .nil) 497 testEof497 (.node .nil 498 testEof498 .nil)) 499 testEof499
  (.node (.node .nil 500 testEof500 .nil) 501 testEof501 (.node .nil 502 testEof502 .nil))) 503 testEof503
  (.node (.node (.node (.node .nil 504 testEof504 .nil) 505 testEof505 .nil) 506 testEof506 (.node .nil 507 testEof507 .nil)) 508 testEof508
  (.node (.node .nil 509 testEof509 .nil) 510 testEof510 (.node .nil 511 testEof511 .nil)))))) 512 testEof512
  (.node (.node (.node (.node (.node (.node (.node .nil 513 testEof513 .nil) 514 testEof514 .nil) 515 testEof515 (.node .nil 516 testEof516 .nil)) 517 testEof517
  (.node (.node .nil 518 testEof518 .nil) 519 testEof519 (.node .nil 520 testEof520 .nil))) 521 testEof521
  (.node (.node (.node (.node .nil 522 testEof522 .nil) 523 testEof523 .nil) 524 testEof524 (.node .nil 525 testEof525 .nil)) 526 testEof526
  (.node (.node .nil 527 testEof527 .nil) 528 testEof528 (.node .nil 529 testEof529 .nil)))) 530 testEof530
  (.node (.node (.node (.node (.node .nil 531 testEof531 .nil) 532 testEof532 .nil) 533 testEof533 (.node .nil 534 testEof534 .nil)) 535 testEof535
  (.node (.node .nil 536 testEof536 .nil) 537 testEof537 (.node .nil 538 testEof538 .nil))) 539 testEof539
  (.node (.node (.node (.node .nil 540 testEof540 .nil) 541 testEof541 .nil) 542 testEof542 (.node .nil 543 testEof543 .nil)) 544 testEof544
  (.node (.node .nil 545 testEof545 .nil) 546 testEof546 (.node .nil 547 testEof547 .nil))))) 548 testEof548
  (.node (.node (.node (.node (.node (.node .nil 549 testEof549 .nil) 550 testEof550 .nil) 551 testEof551 (.node .nil 552 testEof552 .nil)) 553 testEof553
  (.node (.node .nil 554 testEof554 .nil) 555 testEof555 (.node .nil 556 testEof556 .nil))) 557 testEof557
  (.node (.node (.node (.node .nil 558 testEof558 .nil) 559 testEof559 .nil) 560 testEof560 (.node .nil 561 testEof561 .nil)) 562 testEof562
  (.node (.node .nil 563 testEof563 .nil) 564 testEof564 (.node .nil 565 testEof565 .nil)))) 566 testEof566
  (.node (.node (.node (.node (.node .nil 567 testEof567 .nil) 568 testEof568 .nil) 569 testEof569 (.node .nil 570 testEof570 .nil)) 571 testEof571
  (.node (.node .nil 572 testEof572 .nil) 573 testEof573 (.node .nil 574 testEof574 .nil))) 575 testEof575
  (.node (.node (.node .nil 576 testEof576 .nil) 577 testEof577 (.node .nil 578 testEof578 .nil)) 579 testEof579
  (.node (.node .nil 580 testEof580 .nil) 581 testEof581 (.node .nil 583 testEof583 .nil)))))))))

/-- The function: what is at each label, and the label that follows. -/
def prog : Prog A C R
  | .entry => some entry
  | .st n => sts.find n
  | .stCase n => stCases.find n
  | .tr n => trs.find n
  | .testEofN n => testEofs.find n
  | .stOut => some stOut
  | .testEof => some testEof
  | .out => some out

end Verif.Gen.GoBuilder
