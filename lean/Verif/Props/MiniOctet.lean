import Verif.Mini.OctetText
import Verif.Props.Mini
import Verif.Props.Octet
import Verif.Props.Texts

/-!
# Octet counting, statement by statement (C103)

The bodies of `octetcounting/parser.go`, `octetcounting/scanner.go` and `octetcounting/tokens.go` as they stand in the repository
(`Verif.Gen.Mini.prog`), executed by `Mini.call`: what the listener gets are the results that the properties C39 to C47 are about.
-/

set_option linter.constructorNameAsVariable false

namespace Verif.Props
open Verif.Mini Verif.Gen.Mini

namespace MiniSrc

/-- the world when the user hands over a reader that delivers `s` -/
def reading (w : W EO) (s : List Octet.Read) : W EO := { w with ext := { w.ext with src := s } }

/-- `p.Parse(r)` for one reader after the other: all the calls return, and then `P` holds -/
def AfterStreams (X : Env0 EO) (p : Val) : List (List Octet.Read) → W EO → (W EO → Prop) → Prop
  | [], w, P => P w
  | s :: ss, w, P => Does X .octetcounting_parser_Parse [p, .ext (.obj 0)] (reading w s) fun o => ∃ w', o = .ok (.tuple []) w' ∧ AfterStreams X p ss w' P

/-- the results for all the streams, each as for a new parser -/
def allResults (opts : List Octet.Opt) (streams : List (List Octet.Read)) : List Octet.Result := streams.flatMap fun s => (results opts s).getD []

theorem Does.mono {E : Type} {X : Env0 E} {f : Nm} {args : List Val} {w : W E} {P Q : Out E Val → Prop} (h : Does X f args w P) (hpq : ∀ o, P o → Q o) : Does X f args w Q := by
  obtain ⟨d, h⟩ := h
  exact ⟨d, fun n hn => by obtain ⟨o, e, p⟩ := h n hn; exact ⟨o, e, hpq o p⟩⟩

theorem AfterStreams.mono {X : Env0 EO} {p : Val} {P Q : W EO → Prop} (hpq : ∀ w, P w → Q w) : ∀ {streams : List (List Octet.Read)} {w : W EO}, AfterStreams X p streams w P → AfterStreams X p streams w Q := by
  intro streams
  induction streams with
  | nil => intro w h; exact hpq w h
  | cons s ss ih => intro w h; exact Does.mono h fun o ⟨w', e, h'⟩ => ⟨w', e, ih h'⟩

theorem rep_reading {w : W EO} {a mi : Nat} {p : Octet.Parser} {out : List (Val × Val)} (h : Rep0 L w a mi p out) (s : List Octet.Read) : Rep0 L (reading w s) a mi p out :=
  ⟨h.heap, h.lt, h.mlt, h.ne, h.mbe, h.mco, h.mty, h.out⟩

theorem after_streams (extra : Nat → Nat) (order : List Bytes → List Bytes) {parse : List Val → M EO Val} {MR : MsgRel} (hp : Parses parse MR) (opts : List Octet.Opt) (L : Option (List (Val × Val))) (a mi : Nat) : ∀ (streams : List (List Octet.Read)) (w : W EO) (p : Octet.Parser) (out : List (Val × Val)),
    Rep0 L w a mi p out → Octet.Idle (isBestEffort opts) (maxLength opts) p → ∀ (P : W EO → Prop),
    (∀ w' vs, w'.ext.out = L.getD (out ++ vs) → OutRepP MR w.next w'.next w' vs (allResults opts streams) → (∀ c, c < w.next → c ≠ a → w'.heap c = w.heap c) → w.next ≤ w'.next → w'.glob = w.glob → P w') →
    AfterStreams (octXP extra order parse) (.ptr a []) streams w P := by
  intro streams
  induction streams with
  | nil =>
    intro w p out h hi P hP
    exact hP w [] (by simp [h.out]) (Nat.le_refl _) (fun _ _ _ => rfl) (Nat.le_refl _) rfl
  | cons s ss ih =>
    intro w p out h hi P hP
    obtain ⟨p', e, hi'⟩ := Octet.parse_idle_cap hi s
    have er := results_cap opts s
    refine does 7 fun n => ?_
    obtain ⟨w', vs, e1, v1, R1, S1⟩ := parse_call (extra := extra) (order := order) hp n (w := reading w s) e (rep_reading h s) Guard.plain trivial
    refine ⟨_, e1, w', rfl, ih w' p' (out ++ vs) R1.idle hi' P ?_⟩
    intro w2 vs2 o2 v2 k1 k2 k3
    have n1 : w.next ≤ w'.next := S1.2.1
    refine hP w2 (vs ++ vs2) (by rw [o2, List.append_assoc]) ?_ ?_ (Nat.le_trans n1 k2) (k3.trans S1.2.2.1)
    · simp only [allResults, List.flatMap_cons, er, Option.getD_some]
      exact (v1.keep hp (Nat.le_refl _) k2 fun x hx hx' => k1 x hx' (by have := h.lt; have : w.next ≤ x := hx; omega)).append hp v2
    · intro c hc hn
      rw [k1 c (by omega) hn]
      exact S1.1 c hc hn

end MiniSrc

open MiniSrc

variable (extra : Nat → Nat) (order : List Bytes → List Bytes)

/-- **C103** (`syslog.WithListener`, `WithBestEffort`, `WithMaxMessageLength`): what the option functions return; nothing changes. -/
theorem C103_options (w : W EO) (k : Int) :
    Returns (octX extra order) .syslog_WithListener [.ext .listener] w (SOpt.val .listener) ∧
    Returns (octX extra order) .syslog_WithBestEffort [] w (SOpt.val .bestEffort) ∧
    Returns (octX extra order) .syslog_WithMaxMessageLength [.int .int k] w (SOpt.val (.maxLength k)) := by
  refine ⟨returns 1 fun n => ?_, returns 1 fun n => ?_, returns 1 fun n => ?_⟩
  · rw [call_fn (oct_prog _ _ _ _) prog_syslog_WithListener]; rfl
  · rw [call_fn (oct_prog _ _ _ _) prog_syslog_WithBestEffort]; rfl
  · rw [call_fn (oct_prog _ _ _ _) prog_syslog_WithMaxMessageLength]; rfl

/-- **C103** (`octetcounting.NewParser(opts...)`, then `Parse(r)` for any sequence of readers): with any options, all the calls end without a
panic; the listener, if there is one among the options, gets for each stream exactly the results that the other properties are about, in
order; without one no listener gets anything; and nothing that existed before is changed. -/
theorem C103_parse (opts : List SOpt) (w : W EO) (s : Val) (hs : IsSlice w s (opts.map SOpt.val)) (streams : List (List Octet.Read)) :
    Does (octX extra order) .octetcounting_NewParser [s] w fun o => ∃ a w0, o = .ok (.ptr a []) w0 ∧ w.next ≤ a ∧
      AfterStreams (octX extra order) (.ptr a []) streams w0 fun w' =>
        (SOpt.listener ∈ opts → ∃ vs, w'.ext.out = w.ext.out ++ vs ∧ OutRep vs (allResults (SOpt.model opts) streams)) ∧
        (SOpt.listener ∉ opts → w'.ext.out = w.ext.out) ∧
        (∀ c, c < w.next → w'.heap c = w.heap c) ∧ w'.glob = w.glob := by
  refine does 5 fun n => ?_
  obtain ⟨w0, e, ⟨mi, -, R⟩, h1, h2⟩ := newParser_call (extra := extra) (order := order) n hs
  refine ⟨_, e, w.next, w0, rfl, Nat.le_refl _, ?_⟩
  refine after_streams extra order xParse5_ok (SOpt.model opts) _ w.next mi streams w0 _ _ R (idle_new _) _ ?_
  intro w' vs o v k1 k2 k3
  refine ⟨fun hl => ⟨vs, ?_, v.values⟩, fun hl => ?_, fun c hc => ?_, k3.trans h2.2.2.1⟩
  · rw [o, SOpt.muted, if_pos ((SOpt.hears_iff opts).mpr hl)]; rfl
  · rw [o, SOpt.muted, if_neg (mt (SOpt.hears_iff opts).mp hl)]; rfl
  · rw [k1 c (by have := h2.2.1; omega) (by omega)]
    exact h2.1 c hc

/-- **C103** (`(*parser).HasBestEffort`): after `NewParser(opts...)`, true exactly if `WithBestEffort()` is among the options. -/
theorem C103_hasBestEffort (opts : List SOpt) (w : W EO) (s : Val) (hs : IsSlice w s (opts.map SOpt.val)) :
    Does (octX extra order) .octetcounting_NewParser [s] w fun o => ∃ a w0, o = .ok (.ptr a []) w0 ∧ ∃ b : Bool, (b = true ↔ SOpt.bestEffort ∈ opts) ∧
      Returns (octX extra order) .octetcounting_parser_HasBestEffort [.ptr a []] w0 (.bool b) := by
  refine does 5 fun n => ?_
  obtain ⟨w0, e, ⟨mi, -, R⟩, _, _⟩ := newParser_call (extra := extra) (order := order) n hs
  refine ⟨_, e, w.next, w0, rfl, (Octet.newParser (SOpt.model opts)).bestEffort, ?_, returns 1 fun n => ?_⟩
  · have key : ∀ (os : List SOpt) (p : Octet.Parser), ((SOpt.model os).foldl Octet.applyOpt p).bestEffort = true ↔ SOpt.bestEffort ∈ os ∨ p.bestEffort = true := by
      intro os
      induction os with
      | nil => intro p; simp [SOpt.model]
      | cons o os ih =>
        intro p
        cases o with
        | listener => simp only [SOpt.model, ih]; simp
        | bestEffort => simp only [SOpt.model, List.foldl_cons, ih, Octet.applyOpt]; simp
        | maxLength k => simp only [SOpt.model, List.foldl_cons, ih, Octet.applyOpt]; simp
    have := key opts {}
    simpa [Octet.newParser] using this
  · obtain ⟨last, sv, h1, _⟩ := R.heap
    rw [call_fn (oct_prog _ _ _ _) prog_octetcounting_parser_HasBestEffort]
    simp only [parserVal0] at h1
    simp [octetcounting_parser_HasBestEffort, h1]

/-- **C103** (the texts of the framing errors): `Error()` of what `fmt.Errorf` gets, with the `String` methods of tokens and token types of
the package, is the text of C61. -/
theorem C103_texts (w : W EO) (input : Bytes) (v : Val) (e : Octet.Error) (h : ErrRep v (some e)) (hm : ∀ e', e ≠ .message e') :
    ∃ d, ∀ n, d ≤ n → errText (octX extra order) n w v = some (Texts.octetText input e) :=
  ⟨2, fun n hn => by
    obtain ⟨k, rfl⟩ := Nat.exists_eq_add_of_le hn
    rw [Nat.add_comm]
    exact errText_eq (oct_prog _ _ _ _) k w input h hm⟩

/-! ## Cases -/

namespace MiniSrc
/-- `[]syslog.ParserOption{WithMaxMessageLength(20), WithListener(f), WithBestEffort()}` -/
def exOpts : List SOpt := [.maxLength 20, .listener, .bestEffort]
def exOctet : W EO :=
  { heap := fun a => if a = 0 then .arr (exOpts.map SOpt.val) else .nil, next := 1, glob := fun _ => .nil
    ext := { src := [], rd := Octet.newReader 0 [], out := [] } }
/-- a stream, in two pieces, with a message that is too long after a good one, then another stream -/
def exStreams : List (List Octet.Read) :=
  [[⟨ascii "16 <1>1 - - - - - -21 <1>1", false⟩, ⟨ascii " - - - - - - hi", false⟩], [⟨ascii "16 <2>1 - - - - - -", false⟩]]

/-- three results, the second is the error -/
def exGot : List Octet.Result → Bool
  | [⟨some m1, none⟩, ⟨none, some (.tooLong 21 20)⟩, ⟨some m2, none⟩] => m1.priority == some 1 && m2.priority == some 2
  | _ => false

theorem exGot_inv {l : List Octet.Result} (h : exGot l = true) : ∃ m1 m2, l = [⟨some m1, none⟩, ⟨none, some (.tooLong 21 20)⟩, ⟨some m2, none⟩] ∧ m1.priority = some 1 ∧ m2.priority = some 2 := by
  unfold exGot at h
  split at h
  · simp only [Bool.and_eq_true, beq_iff_eq] at h
    exact ⟨_, _, rfl, h.1, h.2⟩
  · cases h

set_option maxRecDepth 100000 in
theorem exResults : exGot (allResults (SOpt.model exOpts) exStreams) = true := by decide +kernel
end MiniSrc

example : Does (octX extra order) .octetcounting_NewParser [.slice 0 0 3 3] exOctet fun o => ∃ a w0, o = .ok (.ptr a []) w0 ∧
    AfterStreams (octX extra order) (.ptr a []) exStreams w0 fun w' =>
      ∃ m1 m2, w'.ext.out = [(.ext (.msg5 m1), .nil), (.nil, .err (ascii "message too long to parse. was size %d, max length %d") [.int .u64 21, .int .int 20]), (.ext (.msg5 m2), .nil)] ∧
        m1.priority = some 1 ∧ m2.priority = some 2 := by
  refine Does.mono (C103_parse extra order exOpts exOctet (.slice 0 0 3 3) (Or.inr ⟨0, 0, 3, 3, _, rfl, rfl, by decide, by decide, by decide, rfl⟩) exStreams) ?_
  rintro o ⟨a, w0, rfl, _, h⟩
  refine ⟨a, w0, rfl, AfterStreams.mono ?_ h⟩
  rintro w' ⟨hw, _⟩
  obtain ⟨vs, o, v⟩ := hw (by simp [exOpts])
  obtain ⟨m1, m2, e, p1, p2⟩ := exGot_inv exResults
  rw [e] at v
  refine ⟨m1, m2, ?_, p1, p2⟩
  rw [o]
  match vs, v with
  | [(a1, b1), (a2, b2), (a3, b3)], ⟨⟨x1, y1⟩, ⟨x2, y2⟩, ⟨x3, y3⟩, _⟩ =>
    simp only [msgVal] at x1 x2 x3
    simp only [ErrRep] at y1 y2 y3
    rw [x1, x2, x3, y1, y2, y3]
    rfl

-- the same streams without a listener: the calls end and nothing is heard
example : Does (octX extra order) .octetcounting_NewParser [.slice 0 0 1 1] { exOctet with heap := upd exOctet.heap 0 (.arr [SOpt.val (.maxLength 20)]) } fun o => ∃ a w0, o = .ok (.ptr a []) w0 ∧
    AfterStreams (octX extra order) (.ptr a []) exStreams w0 fun w' => w'.ext.out = [] := by
  refine Does.mono (C103_parse extra order [.maxLength 20] _ (.slice 0 0 1 1) (Or.inr ⟨0, 0, 1, 1, _, rfl, by simp; rfl, by decide, by decide, by decide, rfl⟩) exStreams) ?_
  rintro o ⟨a, w0, rfl, _, h⟩
  refine ⟨a, w0, rfl, AfterStreams.mono ?_ h⟩
  rintro w' ⟨-, hw, -⟩
  exact hw (by simp)

/-- an option list without a best effort option -/
example (w : W EO) (h : w.heap 0 = .arr [SOpt.val .listener]) (hn : 0 < w.next) : Does (octX extra order) .octetcounting_NewParser [.slice 0 0 1 1] w fun o => ∃ a w0, o = .ok (.ptr a []) w0 ∧
    ∃ b : Bool, (b = true ↔ SOpt.bestEffort ∈ [SOpt.listener]) ∧ Returns (octX extra order) .octetcounting_parser_HasBestEffort [.ptr a []] w0 (.bool b) :=
  C103_hasBestEffort extra order [.listener] w _ (Or.inr ⟨0, 0, 1, 1, _, rfl, h, hn, by simp, by simp, rfl⟩)

/-- `found EOF after "<1", expecting a SYSLOGMSG containing 9 octets` -/
example (w : W EO) : ∃ d, ∀ n, d ≤ n → errText (octX extra order) n w
      (.err (ascii "found %s after \"%s\", expecting a %s containing %d octets")
        [.struct .octetcounting_Token [(.typ, .int .int 1), (.lit, .str (ascii "<1"))], .str (ascii "<1"), .int .int 4, .int .u64 9]) =
    some (ascii "found EOF after \"<1\", expecting a SYSLOGMSG containing 9 octets") := by
  have e : Texts.octetText [] (.notMsg ⟨.EOF, ascii "<1"⟩ 9) = ascii "found EOF after \"<1\", expecting a SYSLOGMSG containing 9 octets" := by decide +kernel
  rw [← e]
  exact C103_texts extra order w [] _ (.notMsg ⟨.EOF, ascii "<1"⟩ 9) ⟨_, _, ⟨_, rfl, Or.inl rfl⟩, Or.inl rfl, rfl⟩ (by intro e; nofun)

end Verif.Props
