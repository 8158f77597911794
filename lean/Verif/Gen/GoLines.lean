import Verif.Go.Lang

/-!
# The body of `func (m *machine) Exec(` in `nontransparent/parser.go` (lines 28-169), statement by statement

GENERATED by `tools/goast.py` from the Go source; do not edit by hand.
-/

namespace Verif.Gen.GoLines
open Verif.Go

/-- Statements of `nontransparent/parser.go`. -/
inductive A where
  /-- `cs, p, pe, eof, data := s.Get()` -/
  | get
  /-- `s.Set(cs, p, pe, eof)` -/
  | set
  /-- `m.process()` -/
  | process
  /-- `m.candidate = make([]byte, 0)` -/
  | candidateNew
  /-- `m.candidate = append(m.candidate, data...)` -/
  | candidateAppend
  deriving DecidableEq, Repr

/-- Conditions of `nontransparent/parser.go`. -/
inductive C where
  /-- `len(m.candidate) > 0` -/
  | hasCandidate
  /-- `m.trailertyp == LF` -/
  | isLF
  /-- `m.trailertyp == NUL` -/
  | isNUL
  deriving DecidableEq, Repr

/-- Return statements of `nontransparent/parser.go`. -/
inductive R where
  /-- `return p, pe` -/
  | pPe
  deriving DecidableEq, Repr

/-- Code of this function. -/
abbrev K := Code A C R

/-- `switch cs`: the state and the label -/
def jumps : List (Nat × Lbl) := [(1, .stCase 1), (0, .stCase 0), (2, .stCase 2), (3, .stCase 3)]

/-- nontransparent/parser.go:28 -/
def entry : K × Lbl := ⟨.stmt (.prim .get) (.stmt .widecZero (.ifElse .pEqPe (.goto .testEof .done) .done (.jumpCs jumps (.goto .stOut .done)))), .stCase 1⟩
/-- nontransparent/parser.go:48 -/
def stCase1 : K × Lbl := ⟨.ifElse (.cmp .eq .byte (.lit 60)) (.goto (.tr 0) .done) .done (.goto (.st 0) .done), .stCase 0⟩
/-- nontransparent/parser.go:53 -/
def stCase0 : K × Lbl := ⟨.done, .st 0⟩
/-- nontransparent/parser.go:54 -/
def st0 : K × Lbl := ⟨.stmt (.setCs 0) (.goto .out .done), .tr 0⟩
/-- nontransparent/parser.go:57 -/
def tr0 : K × Lbl := ⟨.ifElse (.prim .hasCandidate) (.stmt (.prim .process) .done) .done (.stmt (.prim .candidateNew) (.goto (.st 2) .done)), .st 2⟩
/-- nontransparent/parser.go:65 -/
def st2 : K × Lbl := ⟨.stmt .incP (.ifElse .pEqPe (.goto (.testEofN 2) .done) .done .done), .stCase 2⟩
/-- nontransparent/parser.go:69 -/
def stCase2 : K × Lbl := ⟨.stmt .widecByte (.ifElse (.cmp .gt .byte (.lit 0)) (.ifElse (.and (.cmp .le (.lit 10) .byte) (.cmp .le .byte (.lit 10))) (.stmt (.widecBase 256 0) (.ifElse (.prim .isLF) (.stmt (.widecAdd 256) .done) .done .done)) .done .done) (.stmt (.widecBase 768 0) (.ifElse (.prim .isNUL) (.stmt (.widecAdd 256) .done) .done .done)) (.ifElse (.cmp .eq .widec (.lit 266)) (.goto (.st 2) .done) (.ifElse (.cmp .eq .widec (.lit 522)) (.goto (.tr 3) .done) (.ifElse (.cmp .eq .widec (.lit 768)) (.goto (.st 2) .done) (.ifElse (.cmp .eq .widec (.lit 1024)) (.goto (.tr 3) .done) .done .done) .done) .done) (.ifElse (.cmp .gt .widec (.lit 9)) (.ifElse (.cmp .le (.lit 11) .widec) (.goto (.st 2) .done) .done .done) (.ifElse (.cmp .ge .widec (.lit 1)) (.goto (.st 2) .done) .done .done) (.goto (.st 0) .done)))), .tr 3⟩
/-- nontransparent/parser.go:104 -/
def tr3 : K × Lbl := ⟨.stmt (.prim .candidateAppend) (.goto (.st 3) .done), .st 3⟩
/-- nontransparent/parser.go:109 -/
def st3 : K × Lbl := ⟨.stmt .incP (.ifElse .pEqPe (.goto (.testEofN 3) .done) .done .done), .stCase 3⟩
/-- nontransparent/parser.go:113 -/
def stCase3 : K × Lbl := ⟨.stmt .widecByte (.ifElse (.cmp .gt .byte (.lit 0)) (.ifElse (.and (.cmp .le (.lit 10) .byte) (.cmp .le .byte (.lit 10))) (.stmt (.widecBase 256 0) (.ifElse (.prim .isLF) (.stmt (.widecAdd 256) .done) .done .done)) .done .done) (.stmt (.widecBase 768 0) (.ifElse (.prim .isNUL) (.stmt (.widecAdd 256) .done) .done .done)) (.ifElse (.cmp .eq .widec (.lit 60)) (.goto (.tr 0) .done) (.ifElse (.cmp .eq .widec (.lit 266)) (.goto (.st 2) .done) (.ifElse (.cmp .eq .widec (.lit 522)) (.goto (.tr 3) .done) (.ifElse (.cmp .eq .widec (.lit 768)) (.goto (.st 2) .done) (.ifElse (.cmp .eq .widec (.lit 1024)) (.goto (.tr 3) .done) .done .done) .done) .done) .done) (.ifElse (.cmp .gt .widec (.lit 9)) (.ifElse (.cmp .le (.lit 11) .widec) (.goto (.st 2) .done) .done .done) (.ifElse (.cmp .ge .widec (.lit 1)) (.goto (.st 2) .done) .done .done) (.goto (.st 0) .done)))), .stOut⟩
/-- nontransparent/parser.go:150 -/
def stOut : K × Lbl := ⟨.done, .testEofN 2⟩
/-- nontransparent/parser.go:151 -/
def testEof2 : K × Lbl := ⟨.stmt (.setCs 2) (.goto .testEof .done), .testEofN 3⟩
/-- nontransparent/parser.go:154 -/
def testEof3 : K × Lbl := ⟨.stmt (.setCs 3) (.goto .testEof .done), .testEof⟩
/-- nontransparent/parser.go:158 -/
def testEof : K × Lbl := ⟨.done, .out⟩
/-- nontransparent/parser.go:161 -/
def out : K × Lbl := ⟨.stmt (.prim .set) (.ret .pPe .done), .out⟩

/-- the labels `stN:` by number -/
def sts : Tree (K × Lbl) :=
  (.node (.node .nil 0 st0 .nil) 2 st2 (.node .nil 3 st3 .nil))

/-- the labels `stCaseN:` by number -/
def stCases : Tree (K × Lbl) :=
  (.node (.node (.node .nil 0 stCase0 .nil) 1 stCase1 .nil) 2 stCase2 (.node .nil 3 stCase3 .nil))

/-- the labels `trN:` by number -/
def trs : Tree (K × Lbl) :=
  (.node (.node .nil 0 tr0 .nil) 3 tr3 .nil)

/-- the labels `_testEofN:` by number -/
def testEofs : Tree (K × Lbl) :=
  (.node (.node .nil 2 testEof2 .nil) 3 testEof3 .nil)

/-- The function: what is at each label, and the label that follows. -/
def prog : Prog A C R
  | .entry => some entry
  | .st n => sts.find n
  | .stCase n => stCases.find n
  | .tr n => trs.find n
  | .testEofN n => testEofs.find n
  | .stOut => some stOut
  | .testEof => some testEof
  | .out => some out

end Verif.Gen.GoLines
