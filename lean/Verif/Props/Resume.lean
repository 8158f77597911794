import Verif.Props.Octet
import Verif.Octet.Resume

/-!
# C71, C72: the buffer of the octet counting parser

C71: what happens when the maximum is so large that the size of the buffer overflows. C72: calling `Parse` again on the same reader
after it stopped at an error.
-/

namespace Verif.Props
open Verif.Spec Verif.Octet
open Verif.Rfc5424 (parse1 SyslogMessage)

/-! ## C71 -/

/-- C71: with a maximum within 20 of the largest `int` the size of the buffer overflows: every message longer than 16 bytes is an error,
although it is far below the maximum; parsing ends there. -/
theorem C71_huge_maximum (opts : List Opt) (hlo : 2 ^ 63 - 20 ≤ maxLength opts) (hhi : maxLength opts < 2 ^ 63)
    (m : Bytes) (h60 : m.head? = some 60) (hlen : 16 < m.length) (hmax : (m.length : Int) ≤ maxLength opts) (rest : Bytes)
    (sched : List Read) (hs : Delivers sched (octetFrame m ++ rest)) :
    ∃ e, results opts sched = some [⟨if isBestEffort opts then (alone true (m.take 16)).msg else none, some e⟩] := by
  have hb : bufSize (maxLength opts) = 16 := by
    unfold bufSize wrapInt
    rw [if_pos (by omega)]
  have hf := octetFrame_wf (max := maxLength opts) (m := m) ⟨h60, hmax, by omega⟩
  have h := prunc_full (be := isBestEffort opts) (cap := 16) hf hlen (rest.map some)
  rw [← octetFrame_text] at h
  rw [results_cap, hb, delivers_delivered hs, List.map_append, h]
  cases hbe : isBestEffort opts with
  | true => exact ⟨_, rfl⟩
  | false => exact ⟨_, rfl⟩

/-- a correct message of 25 bytes, with the maximum an application would use for "no limit" -/
example : (∃ x, parse1 {} msgB = some ⟨some x, none⟩) ∧
    ∃ e, results [.maxMessageLength (2 ^ 63 - 1)] (sched1 (octetFrame msgB)) = some [⟨none, some e⟩] := by
  refine ⟨ex_of' (by decide +kernel), ?_⟩
  have := C71_huge_maximum [.maxMessageLength (2 ^ 63 - 1)] (by decide) (by decide) msgB rfl (by decide +kernel) (by decide +kernel) []
    (sched1 (octetFrame msgB)) (by rw [List.append_nil]; exact sched1_delivers _)
  exact this

/-! ## C72 -/

/-- `n` calls of `Parse`, one after the other, with the same `*bufio.Reader`, the buffer of which is large enough to be used directly:
the results of each -/
def callsOn : Nat → Parser → Reader → Option (List (List Result))
  | 0, _, _ => some []
  | n + 1, p, rd =>
    match p.parseOn rd with
    | none => none
    | some (rs, p') => (callsOn n p' p'.s.r).map (rs :: ·)

/-- `n` calls of `Parse`, one after the other, with the same reader, not a `*bufio.Reader`: each call continues with the `Read`
calls that the one before has not made -/
def callsPlain : Nat → Parser → List Read → Option (List (List Result))
  | 0, _, _ => some []
  | n + 1, p, sched =>
    match p.parse sched with
    | none => none
    | some (rs, p') => (callsPlain n p' p'.s.r.sched).map (rs :: ·)

/-- the result of `Parse` on a reader that delivers nothing -/
def nothingResult : Result := ⟨none, some (.notMsgLen ⟨.EOF, []⟩)⟩

theorem alone_err {m : Bytes} : (pmsg false m).err ≠ none ↔ (alone false m).err ≠ none := by rw [alone_eq]

theorem calls_aux {max : Int} (groups : List (List Bytes × Bytes)) (last : List Bytes) (p : Parser) (rd : Reader)
    (hi : Idle false max p) (hok : rd.Ok) (hc : wrapInt (max + 20) ≤ rd.cap) (hc' : max ≤ rd.cap)
    (hg : ∀ g ∈ groups, (∀ m ∈ g.1, (m.head? = some 60 ∧ (m.length : Int) ≤ max ∧ m.length < 2 ^ 63) ∧ (alone false m).err = none) ∧
      (g.2.head? = some 60 ∧ (g.2.length : Int) ≤ max ∧ g.2.length < 2 ^ 63) ∧ (alone false g.2).err ≠ none)
    (hl : ∀ m ∈ last, (m.head? = some 60 ∧ (m.length : Int) ≤ max ∧ m.length < 2 ^ 63) ∧ (alone false m).err = none)
    (habs : rd.abs = ((groups.flatMap fun g => g.1.flatMap octetFrame ++ octetFrame g.2) ++ last.flatMap octetFrame).map some) :
    callsOn (groups.length + 1) p rd = some ((groups.map fun g => g.1.map (alone false) ++ [alone false g.2]) ++
      [if last = [] then [nothingResult] else last.map (alone false)]) := by
  induction groups generalizing p rd with
  | nil =>
    obtain ⟨p', h1, -⟩ := parseOn_idle hi rd hok hc
    simp only [List.length_nil, callsOn, h1, habs, List.flatMap_nil, List.nil_append, List.map_nil, Option.map_some]
    by_cases hn : last = []
    · rw [if_pos hn, hn, List.flatMap_nil, List.map_nil, prunc_empty]; rfl
    · rw [if_neg hn, prunc_good hc' last hn hl]; rfl
  | cons g groups ih =>
    obtain ⟨p', h1, h2, h3, h4, h5⟩ := parseOn_idle hi rd hok hc
    have hgg := hg g (by simp)
    have hp := prunc_group hc' g.1 g.2 (((groups.flatMap fun g => g.1.flatMap octetFrame ++ octetFrame g.2) ++ last.flatMap octetFrame).map some)
      hgg.1 hgg.2.1 hgg.2.2
    have habs' : rd.abs = (g.1.flatMap octetFrame ++ octetFrame g.2).map some ++
        ((groups.flatMap fun g => g.1.flatMap octetFrame ++ octetFrame g.2) ++ last.flatMap octetFrame).map some := by
      rw [habs, List.flatMap_cons, ← List.map_append, List.append_assoc (g.1.flatMap octetFrame ++ octetFrame g.2)]
    rw [← habs'] at hp
    rw [hp] at h1 h2
    have hi' := ih p' p'.s.r h5 h3 (by rw [h4]; exact hc) (by rw [h4]; exact hc') (fun g hg' => hg g (by simp [hg'])) h2
    show (match p.parseOn rd with | none => none | some (rs, p') => (callsOn (groups.length + 1) p' p'.s.r).map (rs :: ·)) = _
    rw [h1]
    simp only []
    rw [hi']
    rfl

/-- C72: in strict mode, with a `*bufio.Reader` whose buffer has at least the size the scanner asks for, `Parse` can be called again
after it stopped at a wrong message: it goes on with the frame after it. For a stream of groups of accepted messages each followed by a
wrong one, and accepted messages after the last group, call by call: the messages of one group and the error; then the rest; or, when
there is nothing left, the error for an empty stream. -/
theorem C72_resume (opts : List Opt) (hfit : Fits opts) (hbe : isBestEffort opts = false) (hint : -2 ^ 63 ≤ maxLength opts)
    (size : Int) (hsize : maxLength opts + 20 ≤ size)
    (groups : List (List Bytes × Bytes)) (last : List Bytes)
    (hg : ∀ g ∈ groups, (∀ m ∈ g.1, (m.head? = some 60 ∧ (m.length : Int) ≤ maxLength opts ∧ m.length < 2 ^ 63) ∧ (alone false m).err = none) ∧
      (g.2.head? = some 60 ∧ (g.2.length : Int) ≤ maxLength opts ∧ g.2.length < 2 ^ 63) ∧ (alone false g.2).err ≠ none)
    (hl : ∀ m ∈ last, (m.head? = some 60 ∧ (m.length : Int) ≤ maxLength opts ∧ m.length < 2 ^ 63) ∧ (alone false m).err = none)
    (sched : List Read)
    (hs : Delivers sched ((groups.flatMap fun g => g.1.flatMap octetFrame ++ octetFrame g.2) ++ last.flatMap octetFrame)) :
    callsOn (groups.length + 1) (newParser opts) (newReader size sched) =
      some ((groups.map fun g => g.1.map (alone false) ++ [alone false g.2]) ++
        [if last = [] then [nothingResult] else last.map (alone false)]) := by
  have hidle := idle_new opts
  rw [hbe] at hidle
  have hF : maxLength opts < 2 ^ 63 - 20 := hfit
  have hcap : ((newReader size sched).cap : Int) = if size < 16 then 16 else size := by
    simp only [newReader]; split <;> omega
  refine calls_aux groups last (newParser opts) (newReader size sched) hidle ?_ ?_ ?_ hg hl ?_
  · refine ⟨?_, by simp [newReader]⟩
    simp only [newReader]; split <;> omega
  · rw [hcap, show wrapInt (maxLength opts + 20) = maxLength opts + 20 by unfold wrapInt; omega]; split <;> omega
  · rw [hcap]; split <;> omega
  · rw [← delivers_delivered hs]; simp [newReader, Reader.abs, delivered]

/-- a good message, a wrong one, a good one, a wrong one: three calls -/
example : ∃ a e, callsOn 3 (newParser []) (newReader 9000 (sched1 ([msgA, msgBad, msgA, msgBad].flatMap octetFrame))) =
    some [[⟨some a, none⟩, ⟨none, some e⟩], [⟨some a, none⟩, ⟨none, some e⟩], [nothingResult]] := by
  obtain ⟨a, ha⟩ : ∃ a, parse1 {} msgA = some ⟨some a, none⟩ := ex_of' (by decide +kernel)
  have hbad : parse1 {} msgBad = some ⟨none, some ⟨.timestamp, 5⟩⟩ := by decide +kernel
  have e1 : alone false msgA = ⟨some a, none⟩ := by simp [alone, ha]
  have e2 : alone false msgBad = ⟨none, some (.message ⟨.timestamp, 5⟩)⟩ := by simp [alone, hbad]
  refine ⟨a, .message ⟨.timestamp, 5⟩, ?_⟩
  have := C72_resume [] (by decide) rfl (by decide) 9000 (by decide) [([msgA], msgBad), ([msgA], msgBad)] [] ?_ (by simp)
    (sched1 ([msgA, msgBad, msgA, msgBad].flatMap octetFrame)) ?_
  · simpa [e1, e2] using this
  · have hA : msgA.head? = some 60 ∧ (msgA.length : Int) ≤ maxLength [] ∧ msgA.length < 2 ^ 63 := by decide +kernel
    have hB : msgBad.head? = some 60 ∧ (msgBad.length : Int) ≤ maxLength [] ∧ msgBad.length < 2 ^ 63 := by decide +kernel
    intro g hgm
    have hgm : g = ([msgA], msgBad) := by simpa using hgm
    subst hgm
    refine ⟨?_, hB, by rw [e2]; simp⟩
    intro m hm
    have hm : m = msgA := by simpa using hm
    subst hm
    exact ⟨hA, by rw [e1]⟩
  · have := sched1_delivers ([msgA, msgBad, msgA, msgBad].flatMap octetFrame)
    simpa using this

/-- C72: with another reader this does not work. If one `Read` delivers the whole stream and it fits the scanner's buffer, the first
call of `Parse` has taken all of it, whatever the bytes, the mode and the number of messages it reported; a second call finds nothing. -/
theorem C72_plain_reader_loses (opts : List Opt) (hfit : Fits opts) (bytes : Bytes) (err : Bool)
    (hlen : (bytes.length : Int) ≤ maxLength opts + 20) :
    ∃ rs, results opts [⟨bytes, err⟩] = some rs ∧ callsPlain 2 (newParser opts) [⟨bytes, err⟩] = some [rs, [nothingResult]] := by
  have hF : maxLength opts < 2 ^ 63 - 20 := hfit
  obtain ⟨p', h, hi⟩ := parse_idle_cap (idle_new opts) [⟨bytes, err⟩]
  refine ⟨_, results_cap opts _, ?_⟩
  have hb : bytes.length ≤ bufSize (maxLength opts) := by
    unfold bufSize wrapInt; split <;> omega
  have hn := parse_sched_nil (idle_new opts) bytes err hb h
  obtain ⟨p2, h2, -⟩ := parse_idle_cap hi []
  have h0 : delivered [] = [] := by decide
  rw [h0, prunc_empty] at h2
  simp only [callsPlain, h, hn, h2, Option.map_some]
  rfl

/-- the frame after the wrong message is lost -/
example : ∃ a e, callsPlain 2 (newParser []) [⟨[msgA, msgBad, msgA].flatMap octetFrame, false⟩] =
    some [[⟨some a, none⟩, ⟨none, some e⟩], [nothingResult]] := by
  obtain ⟨a, ha⟩ : ∃ a, parse1 {} msgA = some ⟨some a, none⟩ := ex_of' (by decide +kernel)
  have hbad : parse1 {} msgBad = some ⟨none, some ⟨.timestamp, 5⟩⟩ := by decide +kernel
  refine ⟨a, .message ⟨.timestamp, 5⟩, ?_⟩
  obtain ⟨rs, h1, h2⟩ := C72_plain_reader_loses [] (by decide) ([msgA, msgBad, msgA].flatMap octetFrame) false (by decide +kernel)
  rw [h2]
  have h3 := C41_nothing_after_error [] (by decide) rfl [(msgA, a)] (by simp [ha]) (by
      intro x hx
      have hx : x = (msgA, a) := by simpa using hx
      subst hx
      exact (by decide +kernel : (msgA.length : Int) ≤ maxLength [] ∧ msgA.length < 2 ^ 63)) msgBad rfl
    (by decide +kernel) _ hbad (octetFrame msgA) [⟨[msgA, msgBad, msgA].flatMap octetFrame, false⟩] (by
      refine ⟨by simp, ?_, ?_⟩
      · intro l r b h hr
        match l with
        | [] => simp at h; rw [h.2]; simp
        | x :: l => simp at h
      · intro l e b h he
        have := congrArg List.length h
        simp only [List.length_append, List.length_singleton] at this; omega)
  rw [h3] at h1
  simp only [Option.some.injEq] at h1
  rw [← h1]
  rfl

theorem delivers_cons {sched : List Read} {rest : Bytes} (h : Delivers sched rest) (q : Bytes) (hq : q ≠ []) :
    Delivers (⟨q, false⟩ :: sched) (q ++ rest) := by
  refine ⟨by simp [h.data], ?_, ?_⟩
  · intro a r b he hr
    cases a with
    | nil => simp at he; rw [← he.1] at hr; simp at hr
    | cons x a => simp at he; exact h.errors a r b he.2 hr
  · intro a e b he hx
    cases a with
    | cons x a => simp at he; exact h.progress a e b he.2 hx
    | nil =>
      cases e with
      | nil => simp
      | cons x e =>
        simp at he
        have := (hx x (by simp)).1
        rw [← he.1] at this
        exact absurd this hq

/-- C72: what a `*bufio.Reader` of any size has buffered before the call (the application read from it, or peeked) is parsed first, then
what its own reader delivers: the results are those of any reader that delivers these bytes. -/
theorem C72_buffered (opts : List Opt) (hfit : Fits opts) (rd : Reader) (hcap : 1 ≤ rd.cap) (hq : rd.q.length ≤ rd.cap)
    (herr : rd.err = false) (rest : Bytes) (hs : Delivers rd.sched rest) (sched : List Read) (hd : Delivers sched (rd.q ++ rest)) :
    ((newParser opts).parseOn rd).map Prod.fst = results opts sched := by
  have hF : maxLength opts < 2 ^ 63 - 20 := hfit
  rw [results_bytes opts hfit hd]
  by_cases hc : wrapInt (maxLength opts + 20) ≤ rd.cap
  · obtain ⟨p', h1, -⟩ := parseOn_idle (idle_new opts) rd ⟨hcap, hq⟩ hc
    rw [h1, prunc_prun _ _ _ (by unfold wrapInt at hc; omega)]
    have : rd.abs = (rd.q ++ rest).map some := by
      have h2 := delivers_delivered hs
      unfold delivered at h2
      simp only [Reader.abs, herr, Bool.false_eq_true, if_false, List.nil_append, trim_somes, h2, List.map_append]
    rw [this]; rfl
  · have hp : (newParser opts).parseOn rd = (newParser opts).parse rd.asReads := by
      have hm := (idle_new opts).hmax
      simp only [Parser.parseOn, Parser.parse, newScannerOn, newScanner, newReaderOn, hm, if_neg hc]
    have hdel : Delivers rd.asReads (rd.q ++ rest) := by
      simp only [Reader.asReads, herr, Bool.false_eq_true, if_false, List.append_nil]
      by_cases hn : rd.q = []
      · rw [if_pos hn, hn]; exact hs
      · rw [if_neg hn]; exact delivers_cons hs rd.q hn
    obtain ⟨p', h1, -⟩ := parse_idle (idle_new opts) hfit rd.asReads
    rw [hp, h1, delivers_delivered hdel]; rfl

/-- a `*bufio.Reader` with a small buffer from which the application has peeked the first bytes -/
example : ∃ a, ((newParser []).parseOn { cap := 16, q := (octetFrame msgA).take 5, sched := [⟨(octetFrame msgA).drop 5, false⟩] }).map Prod.fst
    = some [⟨some a, none⟩] := by
  obtain ⟨a, ha⟩ : ∃ a, parse1 {} msgA = some ⟨some a, none⟩ := ex_of' (by decide +kernel)
  refine ⟨a, ?_⟩
  rw [C72_buffered [] (by decide) _ (by decide) (by decide +kernel) rfl ((octetFrame msgA).drop 5) (by
      have := delivers_cons (sched := []) (rest := []) ⟨rfl, by simp, by rintro a e b h -; simp at h; simp [h.2.1]⟩
        ((octetFrame msgA).drop 5) (by decide +kernel)
      rwa [List.append_nil] at this) (sched1 (octetFrame msgA)) (by
      have := sched1_delivers (octetFrame msgA)
      rwa [List.take_append_drop])]
  have := C39_round_trip [] (by decide) [(msgA, a)] (by simp) (by simp [ha]) (by
      intro x hx
      have hx : x = (msgA, a) := by simpa using hx
      subst hx
      exact (by decide +kernel : (msgA.length : Int) ≤ maxLength [] ∧ msgA.length < 2 ^ 63)) (sched1 (octetFrame msgA)) (by simpa using sched1_delivers (octetFrame msgA))
  simpa using this

end Verif.Props
