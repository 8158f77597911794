import Verif.Props.MiniOctet
import Verif.Props.OctetScanner
import Verif.Props.Texts

/-!
# The exported scanner of octet counting, statement by statement (C116)

`octetcounting.NewScanner`, `Scan` and the methods `String` of its tokens, executed as they stand in the repository. The fields of a token are not exported: what a user
can see of it is its text. The tokens are compared with `Spec.Scanned` (`Verif/Spec/OctetScanner.lean`).
-/

set_option linter.constructorNameAsVariable false

namespace Verif.Props
open Verif.Mini Verif.Gen.Mini MiniSrc
open Verif.Octet (Token TokenType)
open Verif.Spec (Delivers)

namespace Scn

/-- what `String` returns of a token: the text of an end or a space is not shown -/
def tokenText : Token → Bytes
  | ⟨.WS, _⟩ => ascii "WS"
  | ⟨.EOF, _⟩ => ascii "EOF"
  | ⟨.ILLEGAL, lit⟩ => ascii "ILLEGAL(" ++ lit ++ ascii ")"
  | ⟨.MSGLEN, lit⟩ => ascii "MSGLEN(" ++ lit ++ ascii ")"
  | ⟨.SYSLOGMSG, lit⟩ => ascii "SYSLOGMSG(" ++ lit ++ ascii ")"

/-- as many calls of `Scan` on the scanner in the variable `a` as there are texts: each returns a token with that text; the listeners of parsers get nothing, variables
below `lo` and the package variables are not changed -/
def ScanCalls (X : Env0 EO) (a lo : Nat) : List Bytes → W EO → Prop
  | [], _ => True
  | text :: texts, w => Does X .octetcounting_Scanner_Scan [.ptr a []] w fun o => ∃ tok w', o = .ok tok w' ∧
      Returns X .octetcounting_Token_String [tok] w' (.str text) ∧ w'.ext.out = w.ext.out ∧ (∀ c, c < lo → w'.heap c = w.heap c) ∧ w'.glob = w.glob ∧
      ScanCalls X a lo texts w'

/-- a reader of a few reads without an error before the end -/
theorem few_reads {sched : List Octet.Read} {bytes : Bytes} (hd : sched.flatMap Octet.Read.data = bytes) (he : ∀ r ∈ sched, r.err = false) (hl : sched.length < 100) :
    Delivers sched bytes := by
  refine ⟨hd, fun a r b h hr => ?_, fun a e b h _ => ?_⟩
  · have := he r (by rw [h]; simp)
    rw [this] at hr; cases hr
  · have := congrArg List.length h
    simp only [List.length_append] at this
    omega

variable (extra : Nat → Nat) (order : List Bytes → List Bytes)

theorem tokenText_eq (t : Token) : tokenText t = Texts.tokenString t := by
  rw [tokenString_eq]
  obtain ⟨typ, lit⟩ := t
  cases typ <;> rfl

theorem scan_calls (a lo : Nat) (hlo : lo ≤ a) : ∀ (k : Nat) (s : Octet.Scanner) (w : W EO), w.heap a = scanVal s → a < w.next → w.ext.rd = s.r → s.msglen < 2 ^ 64 →
    ScanCalls (octX extra order) a lo ((scanTimes k s).map tokenText) w := by
  intro k
  induction k with
  | zero => intro s w _ _ _ _; exact trivial
  | succ k ih =>
    intro s w h ha hr hl
    refine does 4 fun n => ?_
    obtain ⟨tok, w', e, t, af⟩ := scan_call (extra := extra) (order := order) (parse := xParse5) (emit := xEmit) n slot_scanner h ha hr hl
    refine ⟨_, e, tok, w', rfl, returns 2 fun n => ?_, af.out, fun c hc => af.step.1 c (by omega) (by omega), af.step.2.2.1,
      ih _ w' af.heap (Nat.lt_of_lt_of_le ha af.step.2.1) af.rd (Octet.scan_len _ rfl s hl)⟩
    rw [tokenText_eq]
    exact tokenString_call (X := octX extra order) rfl n t w'

end Scn

open Scn

variable (extra : Nat → Nat) (order : List Bytes → List Bytes)

/-- **C116**: `NewScanner(r, max)` for a reader that delivers `bytes`, then any number of calls of `Scan`: every call returns a token, with the text of the token that
the specification asks for. -/
theorem C116_every_stream (w : W EO) (bytes : Bytes) (hs : Delivers w.ext.src bytes) (max : Int) (toks : List Token)
    (h : Spec.Scanned (bufferSize max) 0 false bytes toks) :
    Does (octX extra order) .octetcounting_NewScanner [.ext (.obj 0), .int .int max] w fun o => ∃ a w0, o = .ok (.ptr a []) w0 ∧ w0.ext.out = w.ext.out ∧ w.next ≤ a ∧
      (∀ c, c < w.next → w0.heap c = w.heap c) ∧ w0.glob = w.glob ∧ ScanCalls (octX extra order) a w.next (toks.map tokenText) w0 := by
  refine does 2 fun n => ?_
  have e := newScanner_call (extra := extra) (order := order) (parse := xParse5) (emit := xEmit) n w max
  refine ⟨_, e, _, _, rfl, rfl, Nat.le_refl _, fun c hc => ?_, rfl, ?_⟩
  · exact if_neg (by omega)
  · have := (C115_every_stream bytes _ hs max toks.length toks).mpr ⟨rfl, h⟩
    rw [← this]
    exact scan_calls extra order _ _ (Nat.le_refl _) _ _ _ (if_pos rfl) (Nat.lt_succ_self _) rfl (Nat.two_pow_pos 64)

/-- **C116** (there is always such a list): for every stream and every number of calls the specification asks for just one list of tokens. -/
theorem C116_one_list (bytes : Bytes) (max : Int) (k : Nat) : ∃ toks, (toks.length = k ∧ Spec.Scanned (bufferSize max) 0 false bytes toks) ∧
    ∀ toks', toks'.length = k ∧ Spec.Scanned (bufferSize max) 0 false bytes toks' → toks' = toks := by
  have hs : Delivers [⟨bytes, false⟩] bytes := few_reads (by simp) (by simp) (by simp)
  exact ⟨_, (C115_every_stream bytes _ hs max k _).mp rfl, fun toks' h => ((C115_every_stream bytes _ hs max k _).mpr h).symm⟩

/-- a length, a space and a message in two reads -/
example (w : W EO) (hw : w.ext.src = [⟨ascii "4 <1", false⟩, ⟨ascii ">x?", false⟩]) :
    Does (octX extra order) .octetcounting_NewScanner [.ext (.obj 0), .int .int 100] w fun o => ∃ a w0, o = .ok (.ptr a []) w0 ∧ w0.ext.out = w.ext.out ∧ w.next ≤ a ∧
      (∀ c, c < w.next → w0.heap c = w.heap c) ∧ w0.glob = w.glob ∧
      ScanCalls (octX extra order) a w.next [ascii "MSGLEN(4)", ascii "WS", ascii "SYSLOGMSG(<1>x)", ascii "ILLEGAL(?)", ascii "EOF"] w0 :=
  have hs : Delivers w.ext.src (ascii "4 <1>x?") := by rw [hw]; exact few_reads (by decide +kernel) (by decide +kernel) (by decide)
  C116_every_stream extra order w _ hs 100 [⟨.MSGLEN, ascii "4"⟩, ⟨.WS, [32]⟩, ⟨.SYSLOGMSG, ascii "<1>x"⟩, ⟨.ILLEGAL, ascii "?"⟩, ⟨.EOF, []⟩]
    ((C115_every_stream _ _ hs 100 5 _).mp (by rw [hw]; decide +kernel)).2

end Verif.Props
