import Verif.Rfc5424.Abnf
import Verif.Props.Rfc5424Errors
import Verif.Props.Octet

/-!
# C87: conformance with the text of RFC 5424 (and RFC 6587)

The README promises an "RFC5424-compliant parser". `Verif/Spec/Abnf.lean` is the ABNF of the RFCs, rule by rule.
-/

namespace Verif.Props
open Verif.Spec Verif.Rfc5424 Verif.Spec.Abnf

/-- C87: with `WithCompliantMsg`, the accepted inputs are exactly the SYSLOG-MSGs of RFC 5424. -/
theorem C87_compliant (be : Bool) (input : Bytes) :
    (∃ m, parse1 ⟨be, true⟩ input = some ⟨some m, none⟩) ↔ SYSLOG_MSG input := by
  rw [SYSLOG_MSG, Abnf.syslog_iff Abnf.msg_iff]
  constructor
  · rintro ⟨m, h⟩
    rcases (C57_every_outcome be true input _).mp h with ⟨p, hp, hr, hm, -⟩ | ⟨k, c, m', -, hr⟩
    · exact ⟨p, hp, hr, fun w hw => hm w hw rfl⟩
    · simp at hr
  · rintro ⟨p, hp, hr, hm⟩
    exact ⟨p.toMessage, (C57_every_outcome be true input _).mpr (Or.inl ⟨p, hp, hr, fun w hw _ => hm w hw, rfl⟩)⟩

/-- C87: without it, the accepted inputs are the same but for MSG, which may be any bytes. -/
theorem C87_default (be : Bool) (input : Bytes) :
    (∃ m, parse1 ⟨be, false⟩ input = some ⟨some m, none⟩) ↔ SYSLOG_MSG_OCTETS input := by
  rw [SYSLOG_MSG_OCTETS, Abnf.syslog_iff (P := fun _ => True) fun w => ⟨fun _ => trivial, fun _ => Abnf.many_octet w⟩]
  constructor
  · rintro ⟨m, h⟩
    rcases (C57_every_outcome be false input _).mp h with ⟨p, hp, hr, -, -⟩ | ⟨k, c, m', -, hr⟩
    · exact ⟨p, hp, hr, fun _ _ => trivial⟩
    · simp at hr
  · rintro ⟨p, hp, hr, -⟩
    exact ⟨p.toMessage, (C57_every_outcome be false input _).mpr (Or.inl ⟨p, hp, hr, fun w _ h => absurd h (by simp), rfl⟩)⟩

/-- C87: a SYSLOG-MSG of RFC 5424 is accepted whatever the options are, with the same message. -/
theorem C87_conforming (input : Bytes) (h : SYSLOG_MSG input) :
    ∃ m, ∀ o : Opts, parse1 o input = some ⟨some m, none⟩ := by
  rw [SYSLOG_MSG, Abnf.syslog_iff Abnf.msg_iff] at h
  obtain ⟨p, hp, hr, hm⟩ := h
  exact ⟨p.toMessage, fun o => (C57_every_outcome o.bestEffort o.compliantMsg input _).mpr (Or.inl ⟨p, hp, hr, fun w hw _ => hm w hw, rfl⟩)⟩

/-- C11, for every accepted input: there is a message without MSG such that the input is its text and `Message` is nil, or the input is
its text, a space and `w`, and `Message` is `w` (nil if `w` is empty). -/
theorem C11_every (be : Bool) (input : Bytes) (m : SyslogMessage) (h : parse1 ⟨be, false⟩ input = some ⟨some m, none⟩) :
    ∃ p : Parts, p.WF ∧ p.msg = none ∧
      ((input = p.render ∧ m = { p.toMessage with message := none }) ∨
        ∃ w, input = p.render ++ [32] ++ w ∧ m = { p.toMessage with message := if w = [] then none else some w }) := by
  rcases (C57_every_outcome be false input _).mp h with ⟨p, hp, hr, -, hm⟩ | ⟨k, c, m', -, hr⟩
  · simp only [Result.mk.injEq, Option.some.injEq, and_true] at hm
    refine ⟨{ p with msg := none }, ⟨hp.pri, hp.version, hp.timestamp, hp.hostname, hp.appname, hp.procID, hp.msgID, hp.sd, hp.ids⟩, rfl, ?_⟩
    subst hr hm
    cases hmsg : p.msg with
    | none => exact Or.inl ⟨by simp [Parts.render, hmsg], by simp [Parts.toMessage, hmsg]⟩
    | some w =>
      refine Or.inr ⟨w, by simp [Parts.render, hmsg, msgText], ?_⟩
      by_cases hw : w = [] <;> simp [Parts.toMessage, hmsg, hw]
  · simp at hr

/-! ## Octet counting -/

theorem frame_iff {m w : Bytes} : SYSLOG_FRAME m w ↔ SYSLOG_MSG m ∧ w = octetFrame m := by
  constructor
  · rintro ⟨len, v, rfl, ⟨hl, hn⟩, hv⟩
    replace hv := (Abnf.chr_seq (b := 32) rfl).mp hv
    obtain ⟨v, rfl, hm, rfl⟩ := hv
    refine ⟨hm, ?_⟩
    obtain ⟨u, v', rfl, ⟨b, rfl, h1, h2⟩, l, hl, rfl⟩ := hl
    have hd : IsDigits ([b] ++ l.flatten) := by
      intro c hc
      simp only [List.cons_append, List.nil_append, List.mem_cons, List.mem_flatten] at hc
      rcases hc with rfl | ⟨x, hx, hc⟩
      · exact ⟨by omega, h2⟩
      · obtain ⟨d, rfl, hd⟩ := (Abnf.digit_iff x).mp (hl x hx)
        simp only [List.mem_singleton] at hc
        subst hc; exact hd
    have e := dec_numVal _ hd (by simp) (Or.inl (by
      intro he
      simp only [List.cons_append, List.nil_append, List.head?_cons, Option.some.injEq] at he
      subst he; simp at h1))
    rw [← Abnf.number_eq, hn] at e
    rw [octetFrame, e]
  · rintro ⟨hm, rfl⟩
    have hne : m.length ≠ 0 := by
      intro h0
      have := List.length_eq_zero_iff.mp h0
      subst this
      rw [SYSLOG_MSG, Abnf.syslog_iff Abnf.msg_iff] at hm
      obtain ⟨p, -, hr, -⟩ := hm
      simp [Parts.render] at hr
    refine ⟨dec m.length, 32 :: m, rfl, ⟨?_, show number _ = _ by rw [Abnf.number_eq, numVal_dec]⟩, (Abnf.chr_seq (b := 32) rfl).mpr ⟨m, rfl, hm, rfl⟩⟩
    have hd := dec_digits m.length
    have hz := Abnf.dec_head_ne hne
    rcases he : dec m.length with _ | ⟨b, v⟩
    · exact absurd he (dec_ne_nil _)
    · rw [he] at hd hz
      have hb := hd b (by simp)
      have hb' : b.toNat ≠ 48 := fun h => hz (by simp only [List.head?_cons, Option.some.injEq]; exact UInt8.toNat_inj.mp (by rw [h]; rfl))
      refine ⟨[b], v, rfl, ⟨b, rfl, by have := hb.1; omega, hb.2⟩, v.map fun c => [c], ?_, ?_⟩
      · intro x hx
        obtain ⟨c, hc, rfl⟩ := List.mem_map.mp hx
        exact (Abnf.digit_iff _).mpr ⟨c, rfl, hd c (by simp [hc])⟩
      · clear he hd hz
        induction v with
        | nil => rfl
        | cons c v ih => simp only [List.map_cons, List.flatten_cons, ← ih]; rfl

theorem tcpData_iff : ∀ {ms : List Bytes} {w : Bytes}, TCP_DATA ms w ↔ (∀ m ∈ ms, SYSLOG_MSG m) ∧ w = ms.flatMap octetFrame
  | [], w => by simp [TCP_DATA]
  | m :: ms, w => by
    constructor
    · rintro ⟨u, v, rfl, hu, hv⟩
      obtain ⟨h1, rfl⟩ := frame_iff.mp hu
      obtain ⟨h2, rfl⟩ := tcpData_iff.mp hv
      refine ⟨fun x hx => ?_, rfl⟩
      rcases List.mem_cons.mp hx with rfl | hx
      · exact h1
      · exact h2 x hx
    · rintro ⟨h, rfl⟩
      exact ⟨_, _, rfl, frame_iff.mpr ⟨h m (by simp), rfl⟩, tcpData_iff.mpr ⟨fun x hx => h x (by simp [hx]), rfl⟩⟩

open Verif.Octet (Opt Read) in
/-- C87: octet counting. A conforming stream (TCP-DATA) whose messages do not exceed the configured maximum gives one result per message,
in order, without errors: the message that the message parser gives. -/
theorem C87_stream (opts : List Opt) (hfit : Fits opts) (ms : List Bytes) (hne : ms ≠ []) (bytes : Bytes) (h : TCP_DATA ms bytes)
    (hmax : ∀ m ∈ ms, (m.length : Int) ≤ maxLength opts ∧ m.length < 2 ^ 63) (sched : List Read) (hs : Delivers sched bytes) :
    ∃ msgs : List SyslogMessage, ms.map (parse1 {}) = msgs.map (fun m => some ⟨some m, none⟩) ∧
      results opts sched = some (msgs.map fun m => ⟨some m, none⟩) := by
  obtain ⟨hm, rfl⟩ := tcpData_iff.mp h
  have : ∃ l : List (Bytes × SyslogMessage), l.map Prod.fst = ms ∧ ∀ x ∈ l, parse1 {} x.1 = some ⟨some x.2, none⟩ := by
    clear hs h hne hmax
    induction ms with
    | nil => exact ⟨[], rfl, by simp⟩
    | cons m ms ih =>
      obtain ⟨l, rfl, hl⟩ := ih fun x hx => hm x (by simp [hx])
      obtain ⟨v, hv⟩ := C87_conforming m (hm m (by simp))
      refine ⟨(m, v) :: l, rfl, fun x hx => ?_⟩
      rcases List.mem_cons.mp hx with rfl | hx
      · exact hv {}
      · exact hl x hx
  obtain ⟨l, rfl, hl⟩ := this
  refine ⟨l.map Prod.snd, ?_, ?_⟩
  · rw [List.map_map, List.map_map]
    exact List.map_congr_left fun x hx => hl x hx
  · rw [List.map_map]
    exact C39_round_trip opts hfit l (by simpa using hne) hl (fun x hx => hmax x.1 (List.mem_map.mpr ⟨x, hx, rfl⟩)) sched hs

/-! ## Where the parser deviates: invalid escape sequences -/

theorem val_run_bad : ∀ (u : Bytes) (st st' : Option U8) (x : Bytes) (k : ErrKind) (n : Nat), vrun st u = some st' →
    valScan st' x = .bad k n → valScan st (u ++ x) = .bad k (u.length + n) := by
  intro u
  induction u with
  | nil =>
    intro st st' x k n h hx
    simp only [vrun, Option.some.injEq] at h
    subst h
    rw [List.nil_append, hx, List.length_nil, Nat.zero_add]
  | cons b u ih =>
    intro st st' x k n h hx
    simp only [vrun] at h
    cases hst : vstep st b with
    | none => rw [hst] at h; simp at h
    | some st2 =>
      rw [hst] at h
      have hq : ¬ (st = some .s0 ∧ b.toNat = 34) := by
        rintro ⟨rfl, hb⟩; simp [vstep, hb] at hst
      rw [List.cons_append, valScan_cons hq, hst]
      simp only [ih st2 st' x k n h hx, VRes.cons, List.length_cons]
      rw [show u.length + 1 + n = u.length + n + 1 by omega]

/-- C87: section 6.3.3 of RFC 5424 says that in an invalid escape sequence (a backslash before another character than `"`, `\` and `]`)
"the backslash MUST be treated as a regular backslash". The parser does not do that, it refuses the message, at the character after the
backslash; best effort returns the parameters before it. -/
theorem C87_lone_backslash (be co : Bool) (p : Parts) (hp : p.WF) (id name v rest : Bytes) (ps : List Param) (b : UInt8)
    (hid : ∀ e ∈ p.sd, e.id ≠ id) (hel : (Elem.mk id ps).WF) (hn : SdNameWF name) (hv : Utf8 v)
    (hb : b ≠ 34 ∧ b ≠ 92 ∧ b ≠ 93) :
    parse1 ⟨be, co⟩ (p.head ++ p.sd.flatMap Elem.render ++ [91] ++ id ++ ps.flatMap Param.render ++ [32] ++ name ++ [61, 34] ++ escape v ++ [92] ++
        b :: rest) =
      some ⟨if be then some { p with sd := p.sd ++ [⟨id, ps⟩], msg := none : Parts }.toMessage else none,
        some ⟨.escape, (p.head ++ p.sd.flatMap Elem.render ++ [91] ++ id ++ ps.flatMap Param.render ++ [32] ++ name ++ [61, 34] ++ escape v ++
          [92]).length⟩⟩ := by
  have hscan : valScan (some .s0) (escape v ++ 92 :: b :: rest) = .bad .escape ((escape v).length + 1) := by
    refine val_run_bad _ _ _ _ _ _ (run_s0.mpr ⟨v, hv, rfl⟩) ?_
    have e34 : ¬ b.toNat = 34 := fun e => hb.1 (UInt8.toNat_inj.mp e)
    have e92 : ¬ b.toNat = 92 := fun e => hb.2.1 (UInt8.toNat_inj.mp e)
    have e93 : ¬ b.toNat = 93 := fun e => hb.2.2 (UInt8.toNat_inj.mp e)
    have : valScan none (b :: rest) = .bad .escape 0 := by
      simp only [valScan]
      rw [if_neg (by rintro (h | h | h) <;> contradiction)]
    rw [valScan_cons (by rintro ⟨-, h⟩; simp at h)]
    simp only [vstep]
    simp [this, VRes.cons]
  obtain ⟨hf, hk⟩ := val_fails_of hscan
  have hbw : Between ((escape v ++ 92 :: b :: rest).take ((escape v).length + 1)) := by
    rcases hk with ⟨h, -⟩ | ⟨-, h⟩
    · exact h
    · simp at h
  have := Broken.element (co := co) hp (ElemStuck.param hid hel (ParamStuck.value (ps := ps) hn hf hbw))
  rw [lead_head] at this
  have := broken_refused (be := be) this
  rw [Refuses] at this
  have e1 : p.head ++ p.sd.flatMap Elem.render ++ [91] ++ id ++ ps.flatMap Param.render ++ [32] ++ name ++ [61, 34] ++ escape v ++ [92] ++ b :: rest =
      p.head ++ p.sd.flatMap Elem.render ++ [91] ++ (id ++ ps.flatMap Param.render ++ [32] ++ (name ++ [61, 34] ++ (escape v ++ 92 :: b :: rest))) := by
    simp
  rw [e1, this]
  simp only [Parts.withElems, List.length_append, List.length_cons, List.length_nil, Option.some.injEq, Result.mk.injEq, Err.mk.injEq, true_and]
  omega

/-! ## Concrete cases -/

/-- `<165>1 2003-10-11T22:14:15.003Z h a - ID47 [e@1 k="\\"x"] ` with the byte order mark and `ü` -/
def conforming : Bytes := [60, 49, 54, 53, 62, 49, 32, 50, 48, 48, 51, 45, 49, 48, 45, 49, 49, 84, 50, 50, 58, 49, 52, 58, 49, 53, 46, 48, 48, 51,
  90, 32, 104, 32, 97, 32, 45, 32, 73, 68, 52, 55, 32, 91, 101, 64, 49, 32, 107, 61, 34, 92, 34, 120, 34, 93, 32, 0xEF, 0xBB, 0xBF, 0xC3, 0xBC]

/-- the input was accepted -/
def accepts (r : Option Result) : Bool :=
  match r with
  | some ⟨some _, none⟩ => true
  | _ => false

theorem accepts_iff {r : Option Result} : accepts r = true ↔ ∃ m, r = some ⟨some m, none⟩ := by
  constructor
  · intro h
    rcases r with _ | ⟨_ | m, _ | e⟩ <;> simp [accepts] at h
    exact ⟨m, rfl⟩
  · rintro ⟨m, rfl⟩; rfl

theorem conforming_is : SYSLOG_MSG conforming :=
  (C87_compliant false _).mp (accepts_iff.mp (by decide +kernel))

/-- the last byte is not UTF-8: no SYSLOG-MSG, but accepted by default -/
theorem not_conforming : ¬ SYSLOG_MSG (conforming ++ [0xFF]) ∧ SYSLOG_MSG_OCTETS (conforming ++ [0xFF]) :=
  ⟨fun h => absurd (accepts_iff.mpr ((C87_compliant false _).mpr h)) (by decide +kernel),
    (C87_default false _).mp (accepts_iff.mp (by decide +kernel))⟩

example : ∃ m, parse1 ⟨true, false⟩ conforming = some ⟨some m, none⟩ := by
  obtain ⟨m, h⟩ := C87_conforming conforming conforming_is
  exact ⟨m, h _⟩

/-- two frames, one byte at a time -/
example : ∃ m, results [] (sched1 ([conforming, conforming].flatMap octetFrame)) = some [⟨some m, none⟩, ⟨some m, none⟩] := by
  have hd : TCP_DATA [conforming, conforming] ([conforming, conforming].flatMap octetFrame) :=
    tcpData_iff.mpr ⟨by simpa using conforming_is, rfl⟩
  obtain ⟨msgs, h1, h2⟩ := C87_stream [] (by decide) [conforming, conforming] (by simp) _ hd
    (by simp [show maxLength [] = 8192 from rfl]; decide +kernel) _ (sched1_delivers _)
  rcases msgs with _ | ⟨a, _ | ⟨b, _ | ⟨c, l⟩⟩⟩ <;> simp at h1
  rw [h2]
  have := h1.1.symm.trans h1.2
  simp only [Option.some.injEq, Result.mk.injEq, and_true] at this
  subst this
  exact ⟨a, rfl⟩

/-- `<1>1 - - - - - [a b="c\\d"]` is refused at the `d` -/
example : parse1 ⟨false, false⟩ [60, 49, 62, 49, 32, 45, 32, 45, 32, 45, 32, 45, 32, 45, 32, 91, 97, 32, 98, 61, 34, 99, 92, 100, 34, 93] =
    some ⟨none, some ⟨.escape, 23⟩⟩ := by
  have := C87_lone_backslash false false ⟨1, 1, none, none, none, none, none, [], none⟩
    ⟨by decide, by decide, by simp, trivial, trivial, trivial, trivial, by simp, by simp⟩ [97] [98] [99] [34, 93] [] 100
    (by simp) ⟨by decide, by simp⟩ (by decide) (.cons (c := [99]) (.u1 ⟨by decide, by decide⟩) .nil) (by decide)
  simpa [Parts.head, dec_lt, digit, tsText, fieldText, escape] using this

end Verif.Props
