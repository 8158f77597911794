import Verif.Props.Abnf
import Verif.Props.OctetStream
import Verif.Props.NonTransparent

/-!
# C89, C90: choosing the wrong framing; messages that contain the trailer
-/

namespace Verif.Props
open Verif.Spec Verif.Rfc5424

open Verif.Octet (Opt Read) in
/-- C89: a stream with non-transparent framing (indeed, every stream that starts with `<`) given to an octet counting parser gives one error and
no message, in both modes. -/
theorem C89_lines_to_octet (opts : List Opt) (hfit : Fits opts) (bytes : Bytes) (h : bytes.head? = some 60) (sched : List Read)
    (hs : Delivers sched bytes) :
    results opts sched = some [⟨none, some (.notMsgLen ⟨.ILLEGAL, [60]⟩)⟩] := by
  rw [C60_every_stream opts hfit bytes sched hs]
  rcases bytes with _ | ⟨b, x⟩
  · simp at h
  · simp only [List.head?_cons, Option.some.injEq] at h
    subst h
    exact .noLen (.other (by decide) (by decide) (by decide)) (by decide)

/-- the part after the last trailer byte -/
theorem cut_last (t : UInt8) : ∀ x : Bytes, t ∈ x → ∃ body rest, x = body ++ t :: rest ∧ t ∉ rest := by
  intro x
  induction x with
  | nil => intro h; simp at h
  | cons b x ih =>
    intro h
    by_cases hx : t ∈ x
    · obtain ⟨body, rest, rfl, hr⟩ := ih hx
      exact ⟨b :: body, rest, rfl, hr⟩
    · rcases List.mem_cons.mp h with rfl | h
      · exact ⟨[], x, rfl, hx⟩
      · exact absurd h hx

open Verif.NonTransparent (Driver Opt ReadErr) in
/-- C89: a stream with octet counting framing (indeed, every stream that does not start with `<`) given to a non-transparent parser gives no
message without an error and at most one result, for what follows the last trailer byte. If no trailer byte occurs in the stream there
is exactly one result: an error, no message. If the stream ends with a trailer byte there is no result at all. -/
theorem C89_octet_to_lines (d : Driver) (opts : List Opt) (bytes : Bytes) (hne : bytes ≠ []) (h : bytes.head? ≠ some 60) (e : ReadErr) :
    (∃ rs, NT.results d opts bytes e = some rs ∧ rs.length ≤ 1 ∧ ∀ r ∈ rs, r.err ≠ none) ∧
    (NT.trailerByte opts ∉ bytes → NT.results d opts bytes e = some [⟨none, some (.message ⟨.pri, 0⟩)⟩]) ∧
    (bytes.getLast? = some (NT.trailerByte opts) → NT.results d opts bytes e = some []) := by
  have hno : NT.trailerByte opts ∉ bytes → NT.results d opts bytes e = some [⟨none, some (.message ⟨.pri, 0⟩)⟩] := by
    intro hn
    have := NT.results_eq d opts [] bytes e (by simp) hn
    rw [show framed (NT.trailerByte opts) [] ++ bytes = bytes from rfl, if_neg hne] at this
    rw [this]
    have hp : parse1 { bestEffort := NT.isBestEffort opts } bytes = some ⟨none, some ⟨.pri, 0⟩⟩ := by
      refine (C57_refused_iff (NT.isBestEffort opts) false _ _ _).mpr ⟨none, .noLt ?_, by simp⟩
      rintro t rfl
      exact h rfl
    simp [NT.aloneUnterminated, NT.alone, hp]
  have hcut : NT.trailerByte opts ∈ bytes → ∃ body rest, bytes = body ++ NT.trailerByte opts :: rest ∧ NT.trailerByte opts ∉ rest ∧
      (body ++ [NT.trailerByte opts]).head? ≠ some 60 := by
    intro hm
    obtain ⟨body, rest, hb, hr⟩ := cut_last _ _ hm
    refine ⟨body, rest, hb, hr, ?_⟩
    rw [hb] at h
    rcases body with _ | ⟨b, body⟩
    · simpa using h
    · simpa using h
  refine ⟨?_, hno, ?_⟩
  · by_cases hm : NT.trailerByte opts ∈ bytes
    · obtain ⟨body, rest, rfl, hr, h60⟩ := hcut hm
      rcases C51_silent_drop d opts body rest e h60 hr with h' | ⟨-, h'⟩
      · exact ⟨[], h', by simp, by simp⟩
      · exact ⟨_, h', by simp, by simp [NT.aloneUnterminated]⟩
    · exact ⟨_, hno hm, by simp, by simp⟩
  · intro hl
    obtain ⟨body, rest, rfl, hr, h60⟩ := hcut (List.mem_of_getLast? hl)
    have hrest : rest = [] := by
      rcases List.eq_nil_or_concat rest with rfl | ⟨r, b, rfl⟩
      · rfl
      · rw [List.concat_eq_append] at hl hr
        rw [show body ++ NT.trailerByte opts :: (r ++ [b]) = (body ++ NT.trailerByte opts :: r) ++ [b] by simp,
          List.getLast?_concat, Option.some.injEq] at hl
        exact absurd (by simp [hl]) hr
    rcases C51_silent_drop d opts body rest e h60 hr with h' | ⟨h', -⟩
    · exact h'
    · exact absurd hrest h'

/-! ## C90 -/

open Verif.NonTransparent (Driver Opt ReadErr) in
/-- C90: whoever chooses the text of a message can make a stream with non-transparent framing deliver additional messages. `p` is a message with
text `w`; its text is extended with the trailer and any message `m` that starts with `<`. The parser for single messages takes that for one
message, as does a receiver with octet counting; with non-transparent framing two messages arrive, the second one exactly as if `m` had been
sent. -/
theorem C90_injection (d : Driver) (opts : List Opt) (p : Parts) (hp : p.WF) (w : Bytes) (hw : p.msg = some w) (m : Bytes)
    (h1 : Framable (NT.trailerByte opts) p.render) (h2 : Framable (NT.trailerByte opts) m) (e : ReadErr) :
    (∀ be, parse1 ⟨be, false⟩ (p.render ++ [NT.trailerByte opts] ++ m) =
      some ⟨some { p.toMessage with message := some (w ++ [NT.trailerByte opts] ++ m) }, none⟩) ∧
    (∀ (oo : List Octet.Opt) (sched : List Octet.Read), Fits oo →
      (((p.render ++ [NT.trailerByte opts] ++ m).length : Nat) : Int) ≤ maxLength oo → (p.render ++ [NT.trailerByte opts] ++ m).length < 2 ^ 63 →
      Delivers sched (octetFrame (p.render ++ [NT.trailerByte opts] ++ m)) →
      results oo sched = some [⟨some { p.toMessage with message := some (w ++ [NT.trailerByte opts] ++ m) }, none⟩]) ∧
    NT.results d opts (framed (NT.trailerByte opts) [p.render ++ [NT.trailerByte opts] ++ m]) e =
      some [⟨some p.toMessage, none⟩, NT.alone (NT.isBestEffort opts) m] := by
  generalize ht : NT.trailerByte opts = t at *
  have hacc : ∀ (be : Bool) (q : Parts), q.WF → parse1 ⟨be, false⟩ q.render = some ⟨some q.toMessage, none⟩ := fun be q hq =>
    (C57_every_outcome be false _ _).mpr (Or.inl ⟨q, hq, rfl, fun _ _ h => absurd h (by simp), rfl⟩)
  have hq : ({ p with msg := some (w ++ [t] ++ m) } : Parts).WF :=
    ⟨hp.pri, hp.version, hp.timestamp, hp.hostname, hp.appname, hp.procID, hp.msgID, hp.sd, hp.ids⟩
  have er : p.render ++ [t] ++ m = ({ p with msg := some (w ++ [t] ++ m) } : Parts).render := by
    simp [Parts.render, hw, msgText]
  have em : ({ p with msg := some (w ++ [t] ++ m) } : Parts).toMessage = { p.toMessage with message := some (w ++ [t] ++ m) } := by
    simp [Parts.toMessage]
  have hone : ∀ be, parse1 ⟨be, false⟩ (p.render ++ [t] ++ m) = some ⟨some { p.toMessage with message := some (w ++ [t] ++ m) }, none⟩ := by
    intro be; rw [er, hacc be _ hq, em]
  refine ⟨hone, ?_, ?_⟩
  · intro oo sched hfit hmax h63 hs
    have := C39_round_trip oo hfit [(p.render ++ [t] ++ m, { p.toMessage with message := some (w ++ [t] ++ m) })] (by simp)
      (fun x hx => by rw [List.mem_singleton.mp hx]; exact hone false) (fun x hx => by rw [List.mem_singleton.mp hx]; exact ⟨hmax, h63⟩) sched
      (by simpa only [List.map_cons, List.map_nil, List.flatMap_cons, List.flatMap_nil, List.append_nil] using hs)
    simpa only [List.map_cons, List.map_nil] using this
  · have : framed t [p.render ++ [t] ++ m] = framed t [p.render, m] := by simp [framed]
    rw [this, ← ht, C48_nontransparent_round_trip d opts [p.render, m] e (by rw [ht]; simpa using ⟨h1, h2⟩)]
    have hp' := hacc (NT.isBestEffort opts) p hp
    simp only [List.map_cons, List.map_nil, NT.alone, hp', Option.map_none]

/-! ## Concrete cases -/

/-- `<34>1 - h - - - - x`, then a line feed and a message of another host that was never sent -/
example (d : NonTransparent.Driver) : ∃ a b, NT.results d [] (ascii "<34>1 - h - - - - x\n<0>1 - root - - - - y\n") .unexpectedEOF =
    some [⟨some a, none⟩, ⟨some b, none⟩] ∧ a.hostname = some (ascii "h") ∧ b.hostname = some (ascii "root") := by
  have hp : (⟨34, 1, none, some [104], none, none, none, [], some [120]⟩ : Parts).WF :=
    ⟨by decide, by decide, by simp, by simp [FieldWF, NameWF, Printable], trivial, trivial, trivial, by simp, by simp⟩
  have hfr : ∀ s : Bytes, s.head? = some 60 → (10 : UInt8) ∉ s → Framable (NT.trailerByte []) s := by
    intro s h1 h2
    refine ⟨h1, ?_⟩
    rintro a b rfl
    exact h2 (by simp [show NT.trailerByte [] = 10 from rfl])
  have e1 : (⟨34, 1, none, some [104], none, none, none, [], some [120]⟩ : Parts).render = ascii "<34>1 - h - - - - x" := by decide +kernel
  have := (C90_injection d [] _ hp [120] rfl (ascii "<0>1 - root - - - - y") (by rw [e1]; exact hfr _ (by decide) (by decide))
    (hfr _ (by decide) (by decide)) .unexpectedEOF).2.2
  rw [e1] at this
  have e2 : framed (NT.trailerByte []) [ascii "<34>1 - h - - - - x" ++ [NT.trailerByte []] ++ ascii "<0>1 - root - - - - y"] =
    ascii "<34>1 - h - - - - x\n<0>1 - root - - - - y\n" := by decide
  rw [e2] at this
  rw [this]
  refine ⟨(⟨34, 1, none, some [104], none, none, none, [], some [120]⟩ : Parts).toMessage, { priority := some 0, facility := some 0, severity := some 0, version := 1, hostname := some (ascii "root"), message := some (ascii "y") },
    ?_, rfl, rfl⟩
  have : NT.alone (NT.isBestEffort []) (ascii "<0>1 - root - - - - y") =
    ⟨some { priority := some 0, facility := some 0, severity := some 0, version := 1, hostname := some (ascii "root"), message := some (ascii "y") }, none⟩ := by
    decide +kernel
  rw [this]

/-- lines to an octet counting parser -/
example : results [] [⟨ascii "<34>1 - h - - - - x\n", true⟩] = some [⟨none, some (.notMsgLen ⟨.ILLEGAL, [60]⟩)⟩] :=
  C89_lines_to_octet [] (by decide) (ascii "<34>1 - h - - - - x\n") (by decide) _ (delivers_whole _ (by decide))

/-- octet counted frames to a non-transparent parser: an error for the whole; nothing at all if the last frame ends with a line feed -/
example (d : NonTransparent.Driver) :
    NT.results d [] (ascii "19 <34>1 - h - - - - x") .unexpectedEOF = some [⟨none, some (.message ⟨.pri, 0⟩)⟩] ∧
    NT.results d [] (ascii "20 <34>1 - h - - - - x\n20 <34>1 - h - - - - x\n") .unexpectedEOF = some [] :=
  ⟨(C89_octet_to_lines d [] _ (by decide) (by decide) _).2.1 (by decide), (C89_octet_to_lines d [] _ (by decide) (by decide) _).2.2 (by decide)⟩

end Verif.Props
