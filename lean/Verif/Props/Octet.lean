import Verif.Octet.Errors

/-!
# C39-C47: the octet counting parser

`results opts sched` is what the listener of `NewParser(opts...)` gets from `Parse(r)` when the successive `Read` calls of `r`
behave as `sched` says (`none`: the call panics or does not end). All of it is computed by the model of scanner, `bufio.Reader`
and message automaton. Specification: `Verif/Spec/Octet.lean`.
-/

namespace Verif.Props
open Verif.Spec Verif.Octet
open Verif.Rfc5424 (parse1 SyslogMessage)

/-- `NewParser(opts...).Parse(r)`: the results passed to the listener, in order -/
def results (opts : List Opt) (sched : List Read) : Option (List Result) := ((newParser opts).parse sched).map Prod.fst

/-- `HasBestEffort()` -/
def isBestEffort (opts : List Opt) : Bool := (newParser opts).bestEffort

/-- the configured maximum -/
def maxLength (opts : List Opt) : Int := (newParser opts).maxMessageLength

/-- what the options mean: best effort if the option is there, the last maximum or 8192 -/
theorem config (opts : List Opt) :
    isBestEffort opts = opts.any (fun o => match o with | .bestEffort => true | _ => false) ∧
    maxLength opts = ((opts.filterMap (fun o => match o with | .maxMessageLength n => some n | _ => none)).getLast?).getD 8192 := by
  have key : ∀ (p : Parser), (opts.foldl applyOpt p).bestEffort =
        (p.bestEffort || opts.any (fun o => match o with | .bestEffort => true | _ => false)) ∧
      (opts.foldl applyOpt p).maxMessageLength =
        ((opts.filterMap (fun o => match o with | .maxMessageLength n => some n | _ => none)).getLast?).getD p.maxMessageLength := by
    induction opts with
    | nil => intro p; simp
    | cons o os ih =>
      intro p
      obtain ⟨h1, h2⟩ := ih (applyOpt p o)
      rw [List.foldl_cons, h1, h2]
      cases o with
      | bestEffort => simp [applyOpt]
      | maxMessageLength n =>
        refine ⟨by simp [applyOpt], ?_⟩
        simp only [applyOpt, List.filterMap_cons, List.getLast?_cons, Option.getD_some]
  have := key {}
  simpa [isBestEffort, maxLength, newParser] using this

theorem idle_new (opts : List Opt) : Idle (isBestEffort opts) (maxLength opts) (newParser opts) := by
  have key : ∀ (p : Parser), (opts.foldl applyOpt p).stepback = p.stepback := by
    induction opts with
    | nil => intro p; rfl
    | cons o os ih => intro p; rw [List.foldl_cons, ih]; cases o <;> rfl
  exact ⟨rfl, rfl, rfl, rfl, key {}⟩

/-- the size of the buffer, the maximum plus 20, is an `int` (see C71 for what happens otherwise) -/
def Fits (opts : List Opt) : Prop := maxLength opts < 2 ^ 63 - 20

instance (opts : List Opt) : Decidable (Fits opts) := inferInstanceAs (Decidable (_ < _))

theorem results_cap (opts : List Opt) (sched : List Read) :
    results opts sched = some (prunc (isBestEffort opts) (maxLength opts) (bufSize (maxLength opts)) (delivered sched)).1 := by
  obtain ⟨p', h, -⟩ := parse_idle_cap (idle_new opts) sched
  rw [results, h]; rfl

theorem results_eq (opts : List Opt) (hfit : Fits opts) (sched : List Read) :
    results opts sched = some (prun (isBestEffort opts) (maxLength opts) (delivered sched)) := by
  obtain ⟨p', h, -⟩ := parse_idle (idle_new opts) hfit sched
  rw [results, h]; rfl

theorem results_bytes (opts : List Opt) (hfit : Fits opts) {sched : List Read} {bytes : Bytes} (h : Delivers sched bytes) :
    results opts sched = some (prun (isBestEffort opts) (maxLength opts) (bytes.map some)) := by
  rw [results_eq opts hfit, delivers_delivered h]

/-- parsing a message alone, in the mode of the parser: `NewMachine(...).Parse(m)` as a listener would get it -/
def alone (be : Bool) (m : Bytes) : Result :=
  match parse1 { bestEffort := be } m with
  | none => {}
  | some r => ⟨r.msg, r.err.map .message⟩

theorem alone_eq (be : Bool) (m : Bytes) : alone be m = pmsg be m := rfl

theorem accepted_lt {m : Bytes} {x : SyslogMessage} (h : parse1 {} m = some ⟨some x, none⟩) : m.head? = some 60 := by
  obtain ⟨p, -, rfl, -⟩ := (C01_strict_accepts_iff_grammar m x).mp h
  simp [Parts.render]

theorem frame_wf {max : Int} {m : Bytes} (h60 : m.head? = some 60) (hmax : (m.length : Int) ≤ max) (h63 : m.length < 2 ^ 63) :
    LooseFrame.WF max ⟨dec m.length, false, m⟩ :=
  ⟨dec_ne_nil _, dec_digits _, numVal_dec _, h60, hmax, h63⟩

theorem frames_text (ms : List Bytes) :
    (ms.map fun m => (⟨dec m.length, false, m⟩ : LooseFrame)).flatMap LooseFrame.text = ms.flatMap octetFrame := by
  induction ms with
  | nil => rfl
  | cons m ms ih => simp only [List.map_cons, List.flatMap_cons, ih]; rfl

/-! ## examples used below -/

/-- a short message -/
def msgA : Bytes := ascii "<1>1 - - - - - -"
def msgB : Bytes := ascii "<190>12 - h - - - - hello"
/-- a wrong one with a good beginning -/
def msgBad : Bytes := ascii "<1>1 x"

/-- the two messages and the bytes `tail`, one byte at a time with empty reads in between -/
def sched1 (bytes : Bytes) : List Read := bytes.flatMap (fun b => [⟨[], false⟩, ⟨[b], false⟩])

theorem sched1_delivers (bytes : Bytes) : Delivers (sched1 bytes) bytes := by
  constructor
  · induction bytes with
    | nil => rfl
    | cons b bs ih => simp only [sched1, List.flatMap_cons, List.flatMap_append] at ih ⊢; rw [ih]; rfl
  · intro a r b h he
    exfalso
    have : r ∈ sched1 bytes := by rw [h]; simp
    simp only [sched1, List.mem_flatMap] at this
    obtain ⟨c, -, hc⟩ := this
    simp at hc
    rcases hc with rfl | rfl <;> simp at he
  · have key : ∀ (bytes : Bytes) (e b : List Read), (sched1 bytes = e ++ b ∨ (∃ c, ⟨[c], false⟩ :: sched1 bytes = e ++ b)) →
        (∀ x ∈ e, x.data = [] ∧ x.err = false) → e.length ≤ 1 := by
      intro bytes e b h hx
      rcases h with h | ⟨c, h⟩
      · cases bytes with
        | nil =>
          simp only [sched1, List.flatMap_nil] at h
          have := congrArg List.length h
          simp at this; omega
        | cons d ds =>
          match e with
          | [] => simp
          | [_] => simp
          | x :: y :: e =>
            simp only [sched1, List.flatMap_cons, List.cons_append, List.nil_append, List.cons.injEq] at h
            have := (hx y (by simp)).1
            rw [← h.2.1] at this
            simp at this
      · match e with
        | [] => simp
        | x :: e =>
          simp only [List.cons_append, List.cons.injEq] at h
          have := (hx x (by simp)).1
          rw [← h.1] at this
          simp at this
    intro a e b h hx
    have : ∀ (bytes : Bytes) (a : List Read) (r : List Read), sched1 bytes = a ++ r →
        ∃ bytes', r = sched1 bytes' ∨ ∃ c, r = ⟨[c], false⟩ :: sched1 bytes' := by
      intro bytes
      induction bytes with
      | nil =>
        intro a r h
        refine ⟨[], Or.inl ?_⟩
        simp only [sched1, List.flatMap_nil] at h
        have := congrArg List.length h
        simp at this
        have h2 : r.length = 0 := by omega
        simpa [sched1] using h2
      | cons c cs ih =>
        intro a r h
        match a with
        | [] => exact ⟨c :: cs, Or.inl h.symm⟩
        | [x] =>
          simp only [sched1, List.flatMap_cons, List.cons_append, List.nil_append, List.cons.injEq] at h
          exact ⟨cs, Or.inr ⟨c, h.2.symm⟩⟩
        | x :: y :: a =>
          simp only [sched1, List.flatMap_cons, List.cons_append, List.nil_append, List.cons.injEq] at h
          exact ih a r h.2.2
    obtain ⟨bytes', h' | ⟨c, h'⟩⟩ := this bytes a (e ++ b) h
    · have := key bytes' e b (Or.inl h'.symm) hx; omega
    · have := key bytes' e b (Or.inr ⟨c, h'.symm⟩) hx; omega

/-! ## C39 -/

/-- C39: a stream of frames containing accepted messages not longer than the maximum gives one result per message, in order, with the
message parsed alone and no error; in both modes, whatever the reads. (`2^63`: lengths fit Go's `int`.) -/
theorem C39_round_trip (opts : List Opt) (hfit : Fits opts) (l : List (Bytes × SyslogMessage)) (hne : l ≠ [])
    (hacc : ∀ x ∈ l, parse1 {} x.1 = some ⟨some x.2, none⟩)
    (hmax : ∀ x ∈ l, (x.1.length : Int) ≤ maxLength opts ∧ x.1.length < 2 ^ 63)
    (sched : List Read) (hs : Delivers sched ((l.map Prod.fst).flatMap octetFrame)) :
    results opts sched = some (l.map fun x => ⟨some x.2, none⟩) := by
  rw [results_bytes opts hfit hs, ← frames_text]
  have h := prun_frames (be := isBestEffort opts) (max := maxLength opts)
    ((l.map Prod.fst).map fun m => (⟨dec m.length, false, m⟩ : LooseFrame))
    (by
      intro f hf
      simp only [List.map_map, List.mem_map, Function.comp_apply] at hf
      obtain ⟨x, hx, rfl⟩ := hf
      exact frame_wf (accepted_lt (hacc x hx)) (hmax x hx).1 (hmax x hx).2)
    (by simpa using hne)
    (by
      intro f hf
      simp only [List.map_map, List.mem_map, Function.comp_apply] at hf
      obtain ⟨x, hx, rfl⟩ := hf
      right
      simp only [pmsg_ok.mpr (hacc x hx)])
    []
  rw [List.append_nil] at h
  rw [h, if_pos ends_nil, List.append_nil, List.map_map, List.map_map]
  congr 1
  apply List.map_congr_left
  intro x hx
  exact pmsg_ok.mpr (hacc x hx)

/-- two different messages in a reader that delivers single bytes -/
example : ∃ a b, results [] (sched1 ([msgA, msgB].flatMap octetFrame)) = some [⟨some a, none⟩, ⟨some b, none⟩] := by
  obtain ⟨a, ha⟩ : ∃ a, parse1 {} msgA = some ⟨some a, none⟩ := ex_of' (by decide +kernel)
  obtain ⟨b, hb⟩ : ∃ b, parse1 {} msgB = some ⟨some b, none⟩ := ex_of' (by decide +kernel)
  refine ⟨a, b, C39_round_trip [] (by decide) [(msgA, a), (msgB, b)] (by simp) ?_ ?_ _ (sched1_delivers _)⟩
  · simp [ha, hb]
  · simp [show maxLength [] = 8192 from rfl]; decide +kernel

/-! ## C40 -/

/-- C40: readers that deliver the same bytes give the same results, however they are cut. -/
theorem C40_split_independent (opts : List Opt) (bytes : Bytes) (s1 s2 : List Read) (h1 : Delivers s1 bytes) (h2 : Delivers s2 bytes) :
    results opts s1 = results opts s2 := by
  rw [results_cap opts s1, results_cap opts s2, delivers_delivered h1, delivers_delivered h2]

theorem delivers_whole (bytes : Bytes) (hb : bytes ≠ []) : Delivers [⟨bytes, true⟩] bytes := by
  refine ⟨by simp, ?_, ?_⟩
  · intro a r b h _
    match a with
    | [] => simp at h; rw [h.2]; simp
    | x :: a => simp at h
  · intro a e b h he
    have := congrArg List.length h
    simp only [List.length_append, List.length_singleton] at this; omega

example : Delivers (sched1 msgA) msgA ∧ Delivers [⟨msgA, true⟩] msgA ∧ sched1 msgA ≠ [⟨msgA, true⟩] :=
  ⟨sched1_delivers _, delivers_whole _ (by decide), by decide⟩

/-! ## C41 -/

/-- C41: in strict mode, for every behaviour of the reader, the results are messages without error, followed by at most one error
without message. -/
theorem C41_strict_stops_at_first_error (opts : List Opt) (hbe : isBestEffort opts = false) (sched : List Read) :
    ∃ (ok : List SyslogMessage) (e : Option Error), results opts sched =
      some ((ok.map fun m => ⟨some m, none⟩) ++ (e.map fun e => (⟨none, some e⟩ : Result)).toList) := by
  obtain ⟨ok, e, h⟩ := prunc_strict (maxLength opts) (bufSize (maxLength opts)) (delivered sched)
  refine ⟨ok, e, ?_⟩
  rw [results_cap, hbe, h]
  cases e <;> rfl

/-- C41: strict mode does stop: after accepted messages a wrong one ends parsing, whatever follows it. -/
theorem C41_nothing_after_error (opts : List Opt) (hfit : Fits opts) (hbe : isBestEffort opts = false) (l : List (Bytes × SyslogMessage))
    (hacc : ∀ x ∈ l, parse1 {} x.1 = some ⟨some x.2, none⟩)
    (hmax : ∀ x ∈ l, (x.1.length : Int) ≤ maxLength opts ∧ x.1.length < 2 ^ 63)
    (bad : Bytes) (h60 : bad.head? = some 60) (hbmax : (bad.length : Int) ≤ maxLength opts ∧ bad.length < 2 ^ 63)
    (e : Rfc5424.Err) (hbad : parse1 {} bad = some ⟨none, some e⟩) (rest : Bytes)
    (sched : List Read) (hs : Delivers sched ((l.map Prod.fst).flatMap octetFrame ++ (octetFrame bad ++ rest))) :
    results opts sched = some ((l.map fun x => (⟨some x.2, none⟩ : Result)) ++ [⟨none, some (.message e)⟩]) := by
  have hb := prun_frame_bad (max := maxLength opts) (frame_wf h60 hbmax.1 hbmax.2)
    (by simp only [pmsg, hbad]; simp) (rest.map some)
  have hb' : prun false (maxLength opts) ((octetFrame bad ++ rest).map some) = [⟨none, some (.message e)⟩] := by
    rw [List.map_append]; rw [LooseFrame.text] at hb
    simp only [Bool.false_eq_true, if_false, List.nil_append] at hb
    rw [octetFrame, hb]
    simp only [pmsg, hbad]; rfl
  rw [results_bytes opts hfit hs, hbe]
  cases l with
  | nil => simpa using hb'
  | cons x0 l0 =>
    have hne : (x0 :: l0) ≠ [] := by simp
    generalize x0 :: l0 = l at *
    have h := prun_frames (be := false) (max := maxLength opts)
      ((l.map Prod.fst).map fun m => (⟨dec m.length, false, m⟩ : LooseFrame))
      (by
        intro f hf
        simp only [List.map_map, List.mem_map, Function.comp_apply] at hf
        obtain ⟨x, hx, rfl⟩ := hf
        exact frame_wf (accepted_lt (hacc x hx)) (hmax x hx).1 (hmax x hx).2)
      (by simpa using hne)
      (by
        intro f hf
        simp only [List.map_map, List.mem_map, Function.comp_apply] at hf
        obtain ⟨x, hx, rfl⟩ := hf
        right
        simp only [pmsg_ok.mpr (hacc x hx)])
      ((octetFrame bad ++ rest).map some)
    rw [frames_text] at h
    rw [List.map_append, h, if_neg, hb', List.map_map, List.map_map]
    · congr 2
      apply List.map_congr_left
      intro x hx
      exact pmsg_ok.mpr (hacc x hx)
    · obtain ⟨c, ds, hds⟩ : ∃ c ds, dec bad.length = c :: ds := by
        cases h : dec bad.length with
        | nil => exact absurd h (dec_ne_nil _)
        | cons c ds => exact ⟨c, ds, rfl⟩
      have hc := dec_digits bad.length c (by simp [hds])
      have := (digit_isDigit hc).2.2
      simp [Ends, octetFrame, hds, this]

example : ∃ a e, results [] (sched1 ([msgA, msgBad, msgA].flatMap octetFrame)) = some [⟨some a, none⟩, ⟨none, some e⟩] := by
  obtain ⟨a, ha⟩ : ∃ a, parse1 {} msgA = some ⟨some a, none⟩ := ex_of' (by decide +kernel)
  have hbad : ∃ e, parse1 {} msgBad = some ⟨none, some e⟩ := ⟨⟨.timestamp, 5⟩, by decide +kernel⟩
  obtain ⟨e, he⟩ := hbad
  refine ⟨a, .message e, ?_⟩
  refine C41_nothing_after_error [] (by decide) rfl [(msgA, a)] ?_ ?_ msgBad rfl ?_ e he (octetFrame msgA) _ ?_
  · simp [ha]
  · simp [show maxLength [] = 8192 from rfl]; decide +kernel
  · simp [show maxLength [] = 8192 from rfl]; decide +kernel
  · have := sched1_delivers ([msgA, msgBad, msgA].flatMap octetFrame)
    simpa using this

/-! ## C42 -/

/-- C42: in best effort mode every frame whose message starts with `<` gives its own result (with its partial message and its error if
it is wrong), and parsing goes on. -/
theorem C42_best_effort_goes_on (opts : List Opt) (hfit : Fits opts) (hbe : isBestEffort opts = true) (ms : List Bytes) (hne : ms ≠ [])
    (h60 : ∀ m ∈ ms, m.head? = some 60)
    (hmax : ∀ m ∈ ms, (m.length : Int) ≤ maxLength opts ∧ m.length < 2 ^ 63)
    (sched : List Read) (hs : Delivers sched (ms.flatMap octetFrame)) :
    results opts sched = some (ms.map (alone true)) := by
  rw [results_bytes opts hfit hs, ← frames_text, hbe]
  have h := prun_frames (be := true) (max := maxLength opts)
    (ms.map fun m => (⟨dec m.length, false, m⟩ : LooseFrame))
    (by
      intro f hf
      simp only [List.mem_map] at hf
      obtain ⟨x, hx, rfl⟩ := hf
      exact frame_wf (h60 x hx) (hmax x hx).1 (hmax x hx).2)
    (by simpa using hne) (fun _ _ => Or.inl rfl) []
  rw [List.append_nil] at h
  rw [h, if_pos ends_nil, List.append_nil, List.map_map]
  rfl

/-- C42: if the message of a frame does not start with `<`, parsing ends there with an error also in best effort mode, and the frames
after it are lost. -/
theorem C42_ends_without_lt (opts : List Opt) (hfit : Fits opts) (m rest : Bytes) (hm : m ≠ []) (h60 : m.head? ≠ some 60)
    (sched : List Read) (hs : Delivers sched (octetFrame m ++ rest)) :
    ∃ e, results opts sched = some [⟨none, some e⟩] := by
  rw [results_bytes opts hfit hs]
  by_cases hbad : m.length = 0 ∨ 2 ^ 63 ≤ m.length ∨ ((m.length : Int) > maxLength opts)
  · have h0 : m.length ≠ 0 := by simpa using hm
    by_cases hmx : (m.length : Int) > maxLength opts
    · obtain ⟨e, he⟩ := prun_too_long (be := isBestEffort opts) (max := maxLength opts) (dec m.length) (dec_digits _) (by rw [numVal_dec]; exact hmx)
        (dec_ne_nil _) ((32 :: (m ++ rest)).map some)
      exact ⟨e, by rw [← he, octetFrame]; simp⟩
    · have hp : pdigits ((32 :: (m ++ rest)).map some) = ([], some 32 :: (m ++ rest).map some) := by simp [pdigits, isDigit]
      have hsc := pscan_len (dec m.length) (dec_digits _) (dec_ne_nil _) ((32 :: (m ++ rest)).map some) 0 false
      rw [hp, List.append_nil] at hsc
      have hval := parseUint_val (dec m.length) 0 (dec_digits _) (by omega)
      rw [numVal_dec] at hval
      simp only [Nat.zero_mul, Nat.zero_add] at hval
      obtain ⟨e, he⟩ := prun_bad_len (isBestEffort opts) (maxLength opts) _ (by rw [hsc])
        (by rw [hsc]; simp only []; rw [hval]; split <;> omega)
      exact ⟨e, by rw [← he, octetFrame]; simp⟩
  · have h63 : m.length < 2 ^ 63 := by omega
    have hs1 : pscan ⟨(octetFrame m ++ rest).map some, 0, false⟩ =
        (⟨.MSGLEN, dec m.length⟩, ⟨some 32 :: (m ++ rest).map some, m.length, false⟩) := by
      have hp : pdigits ((32 :: (m ++ rest)).map some) = ([], some 32 :: (m ++ rest).map some) := by simp [pdigits, isDigit]
      rw [octetFrame, List.append_assoc, List.map_append, List.cons_append, pscan_len _ (dec_digits _) (dec_ne_nil _), hp]
      simp only [List.append_nil]
      rw [parseUint_val _ _ (dec_digits _) (by omega), numVal_dec, if_pos (by omega)]
      simp
    have hhead : (m ++ rest).head? ≠ some 60 := by
      cases m with
      | nil => exact absurd rfl hm
      | cons b m => simpa using h60
    have h4 : (pscan ⟨(m ++ rest).map some, m.length, true⟩).1.typ ≠ .SYSLOGMSG := by
      intro h
      exact hhead (pscan_msg_inv _ _ h).1
    rw [prun_third hs1 rfl (by rw [toInt_nat h63]; omega) (pscan_ws _ _ _) rfl h4]
    split
    · have hl : (pscan ⟨(m ++ rest).map some, m.length, true⟩).1.lit.head? ≠ some 60 := by
        obtain ⟨-, -, -, p, -⟩ := pscan_bytes ⟨(m ++ rest).map some, m.length, true⟩ (m ++ rest) rfl
        obtain ⟨v, hv⟩ := p
        cases hq : (pscan ⟨(m ++ rest).map some, m.length, true⟩).1.lit with
        | nil => simp
        | cons c q => rw [hq] at hv; rw [← hv] at hhead; simpa using hhead
      obtain ⟨e, he⟩ := pmsg_short (isBestEffort opts) _ (Or.inl hl)
      rw [he]; exact ⟨_, rfl⟩
    · exact ⟨_, rfl⟩

/-- a wrong message between two good ones -/
example : results [.bestEffort] (sched1 ([msgA, msgBad, msgB].flatMap octetFrame)) =
      some [alone true msgA, alone true msgBad, alone true msgB] ∧
    (alone true msgBad).err ≠ none ∧ (alone true msgBad).msg ≠ none ∧ (alone true msgB).err = none := by
  refine ⟨C42_best_effort_goes_on [.bestEffort] (by decide) rfl [msgA, msgBad, msgB] (by simp) ?_ ?_ _ (sched1_delivers _), ?_⟩
  · decide
  · simp [show maxLength [.bestEffort] = 8192 from rfl]; decide +kernel
  · decide +kernel

/-! ## C43 -/

/-- C43: every result is either an error without message or the outcome of parsing a piece of the stream that is not longer than the
maximum (in best effort mode possibly with the error of a truncated frame). -/
theorem C43_only_pieces_up_to_max (opts : List Opt) (hfit : Fits opts) (sched : List Read) (bytes : Bytes) (hs : Delivers sched bytes) :
    ∃ rs, results opts sched = some rs ∧ ∀ r ∈ rs, (∃ e, r = ⟨none, some e⟩) ∨
      ∃ lit, lit <:+: bytes ∧ (lit.length : Int) ≤ maxLength opts ∧ r.msg = (alone (isBestEffort opts) lit).msg ∧
        (r.err = (alone (isBestEffort opts) lit).err ∨ ((alone (isBestEffort opts) lit).err = none ∧ r.err ≠ none)) := by
  refine ⟨_, results_bytes opts hfit hs, fun r hr => ?_⟩
  exact prun_handed _ _ _ bytes rfl r hr

/-- C43: a length above the maximum - also one that does not fit 64 bits - is answered by exactly one error, whatever follows. -/
theorem C43_too_long_refused (opts : List Opt) (hfit : Fits opts) (digits rest : Bytes) (hd : IsDigits digits) (hne : digits ≠ [])
    (hmax : (numVal digits : Int) > maxLength opts) (sched : List Read) (hs : Delivers sched (digits ++ rest)) :
    ∃ e, results opts sched = some [⟨none, some e⟩] := by
  rw [results_bytes opts hfit hs, List.map_append]
  obtain ⟨e, he⟩ := prun_too_long (be := isBestEffort opts) digits hd hmax hne (rest.map some)
  exact ⟨e, by rw [he]⟩

/-- the same after good frames: they are reported first -/
theorem C43_too_long_refused_after (opts : List Opt) (hfit : Fits opts) (ms : List Bytes) (hms : ms ≠ [])
    (h60 : ∀ m ∈ ms, m.head? = some 60) (hok : ∀ m ∈ ms, isBestEffort opts = true ∨ (alone false m).err = none)
    (hmx : ∀ m ∈ ms, (m.length : Int) ≤ maxLength opts ∧ m.length < 2 ^ 63)
    (digits rest : Bytes) (hd : IsDigits digits) (hne : digits ≠ [])
    (hmax : (numVal digits : Int) > maxLength opts) (sched : List Read)
    (hs : Delivers sched (ms.flatMap octetFrame ++ (digits ++ rest))) :
    ∃ e, results opts sched = some (ms.map (alone (isBestEffort opts)) ++ [⟨none, some e⟩]) := by
  obtain ⟨e, he⟩ := prun_too_long (be := isBestEffort opts) digits hd hmax hne (rest.map some)
  refine ⟨e, ?_⟩
  rw [results_bytes opts hfit hs, List.map_append, ← frames_text, prun_frames, if_neg, List.map_append (l₁ := digits), he, List.map_map]
  · rfl
  · obtain ⟨c, ds, rfl⟩ : ∃ c ds, digits = c :: ds := by
      cases digits with
      | nil => exact absurd rfl hne
      | cons c ds => exact ⟨c, ds, rfl⟩
    have := (digit_isDigit (hd c (by simp))).2.2
    simp [Ends, this]
  · intro f hf
    simp only [List.mem_map] at hf
    obtain ⟨x, hx, rfl⟩ := hf
    exact frame_wf (h60 x hx) (hmx x hx).1 (hmx x hx).2
  · simpa using hms
  · intro f hf
    simp only [List.mem_map] at hf
    obtain ⟨x, hx, rfl⟩ := hf
    rcases hok x hx with h | h
    · exact Or.inl h
    · right
      cases hb : isBestEffort opts with
      | false => exact h
      | true =>
        obtain ⟨m, hm⟩ := pmsg_msg h
        simp only [pmsg_ok.mpr hm]

/-- lengths just above the maximum and above 2^64 -/
example (rest : Bytes) : (∃ e, results [] (sched1 (ascii "8193" ++ rest)) = some [⟨none, some e⟩]) ∧
    ∃ e, results [.maxMessageLength 10, .bestEffort] (sched1 (ascii "18446744073709551621" ++ rest)) = some [⟨none, some e⟩] :=
  ⟨C43_too_long_refused [] (by decide) _ rest (by unfold IsDigits; decide +kernel) (by decide) (by decide +kernel) _ (sched1_delivers _),
   C43_too_long_refused _ (by decide) _ rest (by unfold IsDigits; decide +kernel) (by decide) (by decide +kernel) _ (sched1_delivers _)⟩

/-! ## C44 -/

/-- C44: `Parse` ends without a panic, for every behaviour of the reader. -/
theorem C44_terminates (opts : List Opt) (sched : List Read) : ∃ rs, results opts sched = some rs :=
  ⟨_, results_cap opts sched⟩

/-- C44: nothing but successful results are emitted exactly when the stream is a non-empty sequence of frames with accepted messages,
up to its end or up to a NUL; the results are then those messages. -/
theorem C44_success_means_frames (opts : List Opt) (hfit : Fits opts) (bytes : Bytes) (sched : List Read) (hs : Delivers sched bytes)
    (rs : List Result) (hr : results opts sched = some rs) :
    (∀ r ∈ rs, r.err = none) ↔
    ∃ (l : List (LooseFrame × SyslogMessage)) (tail : Bytes), l ≠ [] ∧
      (∀ x ∈ l, x.1.WF (maxLength opts) ∧ parse1 {} x.1.msg = some ⟨some x.2, none⟩) ∧
      bytes = l.flatMap (fun x => x.1.text) ++ tail ∧ (tail = [] ∨ tail.head? = some 0) ∧
      rs = l.map (fun x => ⟨some x.2, none⟩) := by
  rw [results_bytes opts hfit hs] at hr
  cases hr
  constructor
  · intro h
    obtain ⟨fs, tail, h1, h2, h3, h4, h5⟩ := prun_ok_inv _ _ _ bytes (Nat.le_refl _) h
    have hex : ∃ l : List (LooseFrame × SyslogMessage), l.map Prod.fst = fs ∧
        ∀ x ∈ l, parse1 {} x.1.msg = some ⟨some x.2, none⟩ := by
      clear h1 h2 h3 h
      induction fs with
      | nil => exact ⟨[], rfl, by simp⟩
      | cons f fs ih =>
        obtain ⟨l, e1, e2⟩ := ih (fun f hf => h5 f (by simp [hf]))
        obtain ⟨m, hm⟩ := pmsg_msg (h5 f (by simp))
        refine ⟨(f, m) :: l, by simp [e1], ?_⟩
        intro x hx
        rcases List.mem_cons.mp hx with rfl | hx
        · exact hm
        · exact e2 x hx
    obtain ⟨l, rfl, e2⟩ := hex
    have hl : l ≠ [] := by simpa using h1
    refine ⟨l, tail, hl, fun x hx => ⟨h2 x.1 (List.mem_map.mpr ⟨x, hx, rfl⟩), e2 x hx⟩, by rw [h3, List.flatMap_map], h4, ?_⟩
    rw [h3, List.map_append, prun_frames _ h2 h1 (fun f hf => Or.inr (h5 f hf)), if_pos, List.append_nil, List.map_map]
    · apply List.map_congr_left
      intro x hx
      exact pmsg_ok.mpr (e2 x hx)
    · rcases h4 with h4 | h4
      · left; simp [h4]
      · right; right; simpa using h4
  · rintro ⟨l, tail, h1, h2, h3, h4, h5⟩ r hr
    rw [h5] at hr
    simp only [List.mem_map] at hr
    obtain ⟨x, -, rfl⟩ := hr
    rfl

/-- C44: an empty stream gives exactly one error. -/
theorem C44_empty_stream (opts : List Opt) (hfit : Fits opts) (sched : List Read) (hs : Delivers sched []) :
    ∃ e, results opts sched = some [⟨none, some e⟩] := by
  rw [results_bytes opts hfit hs]
  refine ⟨.notMsgLen ⟨.EOF, []⟩, ?_⟩
  rw [prun]; simp [pscan, pread]

example : Delivers [] [] := ⟨rfl, by simp, by rintro a e b h -; simp at h; simp [h.2.1]⟩

/-- leading zeros and a NUL after the digits: not RFC 5425, but accepted -/
example : ∃ a, results [] (sched1 (ascii "016" ++ [0] ++ ascii " " ++ msgA)) = some [⟨some a, none⟩] := by
  obtain ⟨a, ha⟩ : ∃ a, parse1 {} msgA = some ⟨some a, none⟩ := ex_of' (by decide +kernel)
  obtain ⟨rs, hrs⟩ := C44_terminates [] (sched1 (ascii "016" ++ [0] ++ ascii " " ++ msgA))
  have hf : LooseFrame.WF (maxLength []) ⟨ascii "016", true, msgA⟩ :=
    ⟨by decide, by unfold IsDigits; decide +kernel, by decide +kernel, by decide, by decide +kernel, by decide +kernel⟩
  refine ⟨a, ?_⟩
  have h := prun_frame (be := false) hf (Or.inr (by simp only [pmsg_ok.mpr ha])) []
  rw [if_pos ends_nil] at h
  rw [results_bytes [] (by decide) (sched1_delivers _)]
  simp only [pmsg_ok.mpr ha] at h
  rw [← h]
  simp [LooseFrame.text, isBestEffort, newParser, ascii]

/-! ## C45 -/

/-- C45: a stream that ends inside its last frame (after whole frames `ms`): one result with an error comes after the results of the whole
frames. If bytes of the message did arrive, best effort mode delivers what parsing them alone gives; strict mode delivers no message. -/
theorem C45_truncated (opts : List Opt) (hfit : Fits opts) (ms : List Bytes)
    (h60 : ∀ m ∈ ms, m.head? = some 60) (hok : ∀ m ∈ ms, isBestEffort opts = true ∨ (alone false m).err = none)
    (hmx : ∀ m ∈ ms, (m.length : Int) ≤ maxLength opts ∧ m.length < 2 ^ 63)
    (m : Bytes) (hm60 : m.head? = some 60) (hm : (m.length : Int) ≤ maxLength opts ∧ m.length < 2 ^ 63)
    (t : Bytes) (ht : t ≠ []) (htp : t <+: octetFrame m) (htne : t ≠ octetFrame m)
    (sched : List Read) (hs : Delivers sched (ms.flatMap octetFrame ++ t)) :
    ∃ (msg : Option SyslogMessage) (e : Error),
      results opts sched = some (ms.map (alone (isBestEffort opts)) ++ [⟨msg, some e⟩]) ∧
      (isBestEffort opts = false → msg = none) ∧
      (isBestEffort opts = true → ∀ part, t = dec m.length ++ 32 :: part → part ≠ [] → msg = (alone true part).msg) := by
  have htail : ∃ (msg : Option SyslogMessage) (e : Error), prun (isBestEffort opts) (maxLength opts) (t.map some) = [⟨msg, some e⟩] ∧
      (isBestEffort opts = false → msg = none) ∧
      (isBestEffort opts = true → ∀ part, t = dec m.length ++ 32 :: part → part ≠ [] → msg = (alone true part).msg) := by
    by_cases hl : t.length ≤ (dec m.length).length
    · have hpre : t <+: dec m.length := by
        rw [octetFrame] at htp
        exact List.prefix_of_prefix_length_le htp (List.prefix_append _ _) hl
      have hd : IsDigits t := fun c hc => dec_digits m.length c (hpre.subset hc)
      obtain ⟨e, he⟩ := prun_truncated_len (be := isBestEffort opts) (max := maxLength opts) t hd ht
      refine ⟨none, e, he, fun _ => rfl, ?_⟩
      rintro _ part rfl _
      simp only [List.length_append, List.length_cons] at hl; omega
    · obtain ⟨u, hu⟩ := htp
      have : ∃ part, t = dec m.length ++ 32 :: part ∧ part <+: m := by
        have h1 : dec m.length <+: t := by
          refine List.prefix_of_prefix_length_le (List.prefix_append _ (32 :: m)) ⟨u, hu⟩ (by omega)
        obtain ⟨v, rfl⟩ := h1
        rw [octetFrame, List.append_assoc] at hu
        have hu := List.append_cancel_left hu
        cases v with
        | nil => simp at hl
        | cons c v =>
          simp only [List.cons_append, List.cons.injEq] at hu
          exact ⟨v, by rw [hu.1], ⟨u, hu.2⟩⟩
      obtain ⟨part, rfl, hpart⟩ := this
      have hlen : part.length < m.length := by
        have := hpart.length_le
        rcases Nat.lt_or_eq_of_le this with h | h
        · exact h
        · exfalso; apply htne; rw [octetFrame, hpart.eq_of_length h]
      obtain ⟨e, he⟩ := prun_truncated (be := isBestEffort opts) m.length hm.1 hm.2 part hlen
      refine ⟨_, e, he, fun h => by simp [h], ?_⟩
      intro hbe part' hp' hne
      have hp' := List.append_cancel_left hp'
      simp only [List.cons.injEq, true_and] at hp'
      subst hp'
      have h6 : part.head? = some 60 := by
        cases part with
        | nil => exact absurd rfl hne
        | cons c q => obtain ⟨v, rfl⟩ := hpart; simpa using hm60
      rw [if_pos ⟨hbe, h6⟩, hbe]; rfl
  obtain ⟨msg, e, h1, h2, h3⟩ := htail
  refine ⟨msg, e, ?_, h2, h3⟩
  rw [results_bytes opts hfit hs]
  cases ms with
  | nil => simpa using h1
  | cons m0 ms0 =>
    have hne : m0 :: ms0 ≠ [] := by simp
    generalize m0 :: ms0 = ms at *
    rw [List.map_append, ← frames_text, prun_frames, if_neg, h1, List.map_map]
    · rfl
    · obtain ⟨c, ds, rfl⟩ : ∃ c ds, t = c :: ds := by
        cases t with
        | nil => exact absurd rfl ht
        | cons c ds => exact ⟨c, ds, rfl⟩
      have hc : c ∈ dec m.length := by
        obtain ⟨u, hu⟩ := htp
        rw [octetFrame] at hu
        cases hd : dec m.length with
        | nil => exact absurd hd (dec_ne_nil _)
        | cons x xs => rw [hd] at hu; simp at hu; simp [hu.1]
      have := (digit_isDigit (dec_digits _ c hc)).2.2
      simp [Ends, this]
    · intro f hf
      simp only [List.mem_map] at hf
      obtain ⟨x, hx, rfl⟩ := hf
      exact frame_wf (h60 x hx) (hmx x hx).1 (hmx x hx).2
    · simpa using hne
    · intro f hf
      simp only [List.mem_map] at hf
      obtain ⟨x, hx, rfl⟩ := hf
      rcases hok x hx with h | h
      · exact Or.inl h
      · right
        cases hb : isBestEffort opts with
        | false => exact h
        | true =>
          obtain ⟨m, hm⟩ := pmsg_msg h
          simp only [pmsg_ok.mpr hm]

/-- the partial message of a truncated frame -/
example : ∃ m e, results [.bestEffort] (sched1 (octetFrame msgA ++ ascii "25 <190>12 - h - -")) =
    some [alone true msgA, ⟨some m, some e⟩] := by
  obtain ⟨msg, e, h1, -, h3⟩ := C45_truncated [.bestEffort] (by decide) [msgA] (by decide) (by intro m _; left; rfl)
    (by simp [show maxLength [.bestEffort] = 8192 from rfl]; decide +kernel) msgB (by decide)
    (by simp [show maxLength [.bestEffort] = 8192 from rfl]; decide +kernel)
    (ascii "25 <190>12 - h - -") (by decide) ⟨ascii " - - hello", by decide +kernel⟩ (by decide +kernel)
    (sched1 (octetFrame msgA ++ ascii "25 <190>12 - h - -"))
    (by simpa using sched1_delivers (octetFrame msgA ++ ascii "25 <190>12 - h - -"))
  have h4 := h3 rfl (ascii "<190>12 - h - -") (by decide +kernel) (by decide)
  have h5 : (alone true (ascii "<190>12 - h - -")).msg ≠ none := by decide +kernel
  cases msg with
  | none => exact absurd h4.symm h5
  | some m => exact ⟨m, e, h1⟩

/-! ## C46 -/

/-- C46 (the expectation is false): after at least one frame a NUL byte ends parsing silently; whatever follows it is neither parsed
nor reported. -/
theorem C46_nul_hides_the_rest (opts : List Opt) (hfit : Fits opts) (ms : List Bytes) (hne : ms ≠ [])
    (h60 : ∀ m ∈ ms, m.head? = some 60) (hok : ∀ m ∈ ms, isBestEffort opts = true ∨ (alone false m).err = none)
    (hmx : ∀ m ∈ ms, (m.length : Int) ≤ maxLength opts ∧ m.length < 2 ^ 63)
    (garbage : Bytes) (s1 s2 : List Read) (h1 : Delivers s1 (ms.flatMap octetFrame))
    (h2 : Delivers s2 (ms.flatMap octetFrame ++ 0 :: garbage)) :
    results opts s2 = results opts s1 ∧ results opts s1 = some (ms.map (alone (isBestEffort opts))) := by
  have hf : ∀ f ∈ ms.map (fun m => (⟨dec m.length, false, m⟩ : LooseFrame)), f.WF (maxLength opts) := by
    intro f hf
    simp only [List.mem_map] at hf
    obtain ⟨x, hx, rfl⟩ := hf
    exact frame_wf (h60 x hx) (hmx x hx).1 (hmx x hx).2
  have ho : ∀ f ∈ ms.map (fun m => (⟨dec m.length, false, m⟩ : LooseFrame)),
      isBestEffort opts = true ∨ (pmsg (isBestEffort opts) f.msg).err = none := by
    intro f hf
    simp only [List.mem_map] at hf
    obtain ⟨x, hx, rfl⟩ := hf
    rcases hok x hx with h | h
    · exact Or.inl h
    · right
      cases hb : isBestEffort opts with
      | false => exact h
      | true =>
        obtain ⟨m, hm⟩ := pmsg_msg h
        simp only [pmsg_ok.mpr hm]
  have e1 := prun_frames (be := isBestEffort opts) (max := maxLength opts) _ hf (by simpa using hne) ho []
  have e2 := prun_frames (be := isBestEffort opts) (max := maxLength opts) _ hf (by simpa using hne) ho (some 0 :: garbage.map some)
  rw [if_pos ends_nil, frames_text, List.append_nil] at e1
  rw [if_pos (ends_nul _), frames_text, ← List.map_cons, ← List.map_append] at e2
  rw [results_bytes opts hfit h1, results_bytes opts hfit h2, e1, e2]
  simp only [List.append_nil, List.map_map, true_and]
  rfl

/-- a good frame after a NUL is not seen -/
example : ∃ a, results [] (sched1 (octetFrame msgA ++ 0 :: octetFrame msgB)) = some [⟨some a, none⟩] := by
  obtain ⟨a, ha⟩ : ∃ a, parse1 {} msgA = some ⟨some a, none⟩ := ex_of' (by decide +kernel)
  have h := C46_nul_hides_the_rest [] (by decide) [msgA] (by simp) (by decide) (by intro m hm; right; simp at hm; subst hm; decide +kernel)
    (by simp [show maxLength [] = 8192 from rfl]; decide +kernel) (octetFrame msgB) (sched1 ([msgA].flatMap octetFrame))
    (sched1 (octetFrame msgA ++ 0 :: octetFrame msgB)) (sched1_delivers _) (by simpa using sched1_delivers _)
  refine ⟨a, ?_⟩
  rw [h.1, h.2]
  simp only [List.map_cons, List.map_nil, alone_eq, pmsg_ok.mpr ha]

/-! ## C47 -/

/-- Parse a sequence of streams with the same parser; the parser afterwards. -/
def parseStreams (p : Parser) : List (List Read) → Option Parser
  | [] => some p
  | s :: rest => (p.parse s).bind fun r => parseStreams r.2 rest

/-- C47: after any history of streams a parser gives the results of a new one. -/
theorem C47_history_independent (opts : List Opt) (history : List (List Read)) (sched : List Read) :
    ∃ p, parseStreams (newParser opts) history = some p ∧ (p.parse sched).map Prod.fst = results opts sched := by
  have key : ∀ p, Idle (isBestEffort opts) (maxLength opts) p →
      ∃ p', parseStreams p history = some p' ∧ Idle (isBestEffort opts) (maxLength opts) p' := by
    induction history with
    | nil => intro p h; exact ⟨p, rfl, h⟩
    | cons s rest ih =>
      intro p h
      obtain ⟨p1, e, h1⟩ := parse_idle_cap h s
      obtain ⟨p2, e2, h2⟩ := ih p1 h1
      exact ⟨p2, by rw [parseStreams, e]; exact e2, h2⟩
  obtain ⟨p, h1, h2⟩ := key _ (idle_new opts)
  refine ⟨p, h1, ?_⟩
  obtain ⟨p', e, -⟩ := parse_idle_cap h2 sched
  rw [e, results_cap]; rfl

/-- a first stream that ends in the middle of a frame -/
example : ∃ p a, parseStreams (newParser []) [sched1 (octetFrame msgA ++ ascii "25 <190>12"), sched1 (ascii "10")] = some p ∧
    (p.parse (sched1 (octetFrame msgA))).map Prod.fst = some [⟨some a, none⟩] := by
  obtain ⟨p, h1, h2⟩ := C47_history_independent [] [sched1 (octetFrame msgA ++ ascii "25 <190>12"), sched1 (ascii "10")]
    (sched1 (octetFrame msgA))
  obtain ⟨a, ha⟩ : ∃ a, parse1 {} msgA = some ⟨some a, none⟩ := ex_of' (by decide +kernel)
  refine ⟨p, a, h1, ?_⟩
  rw [h2]
  exact C39_round_trip [] (by decide) [(msgA, a)] (by simp) (by simp [ha])
    (by simp [show maxLength [] = 8192 from rfl]; decide +kernel) _ (by simpa using sched1_delivers (octetFrame msgA))

end Verif.Props
