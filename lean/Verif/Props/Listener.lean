import Verif.Octet.ListenerRun
import Verif.Props.Platform
import Verif.Props.Resume

/-!
# C82: listeners that call the octet counting parser

`Parse` calls the listener for every result; the listener may call methods of the same parser. `HearsL L p sched out`: with the listener
`L`, `p.Parse(reader)` ends and the listener has got the results `out`, those of nested calls among them.
-/

namespace Verif.Props
open Verif.Spec Verif.Octet
open Verif.Rfc5424 (parse1 SyslogMessage)

/-- the listener that makes one call, when it gets its `k`-th result -/
def once (k : Nat) (a : Do) : Listener := fun got => if got.length = k then [a] else []

/-- a message the parser can take: it starts with `<`, is not too long, and is accepted, or the parser is in best effort mode -/
def Takes (opts : List Opt) (m : Bytes) : Prop :=
  m.head? = some 60 ∧ (m.length : Int) ≤ maxLength opts ∧ (isBestEffort opts = true ∨ (alone false m).err = none)

/-- what follows after a message: nothing if the stream ends there (or a NUL follows), else what the specification says -/
def Then (bits : Nat) (go be : Bool) (max : Int) (rest : Bytes) (rs : List Result) : Prop :=
  if rest = [] ∨ rest.head? = some 0 then rs = [] else EmitsOn bits go be max rest rs

theorem takes_aux {opts : List Opt} (hfit : Fits opts) {m : Bytes} (h : Takes opts m) :
    (m.head? = some 60 ∧ (m.length : Int) ≤ maxLength opts ∧ m.length < 2 ^ 63) ∧
    (isBestEffort opts = true ∨ (pmsg (isBestEffort opts) m).err = none) := by
  have hfit' : maxLength opts < 2 ^ 63 - 20 := hfit
  obtain ⟨h1, h2, h3⟩ := h
  refine ⟨⟨h1, h2, by omega⟩, ?_⟩
  rcases h3 with h | h
  · exact Or.inl h
  · cases hb : isBestEffort opts with
    | true => exact Or.inl rfl
    | false => right; rw [← alone_eq]; exact h

theorem alone_fun : alone = pmsg := rfl

theorem stream_ends_iff (rest : Bytes) : Ends (rest.map some) ↔ (rest = [] ∨ rest.head? = some 0) := by
  cases rest with
  | nil => simp [Ends]
  | cons b r => simp [Ends]

theorem hears_after {opts : List Opt} (hfit : Fits opts) (before : List Bytes) (hb : ∀ x ∈ before, Takes opts x) (m rest : Bytes)
    (sched : List Read) (hs : Delivers sched (before.flatMap octetFrame ++ (octetFrame m ++ rest))) (L : Listener)
    (hL : ∀ h : List Result, h.length ≤ before.length → L h = []) :
    ∃ p', At (isBestEffort opts) (maxLength opts) (bufSize (maxLength opts)) p' ((octetFrame m).map some ++ rest.map some) ∧
      ∀ fuel x, runL L fuel (before.map (alone (isBestEffort opts))) p' = some x → (newParser opts).HearsL L sched x.1 := by
  have hi := idle_new opts
  obtain ⟨h1, h2⟩ := pinv_new hi.hbe hi.hmax hi.ibe hi.ico hi.step sched
  rw [delivers_delivered hs, List.map_append, List.map_append] at h2
  obtain ⟨p', hat, hgo⟩ := runL_frames (bufSize_ge hfit) L before _ (not_ends_frame m (rest.map some)) (fun x hx => takes_aux hfit (hb x hx)) []
    (by intro k _ hk; exact hL _ (by simp; omega)) _ (at_of h1 h2)
  exact ⟨p', hat, fun fuel x hx => ⟨_, x.2, hgo fuel x (by rw [alone_fun] at hx; simpa using hx)⟩⟩

theorem one_read (rest : Bytes) : Delivers [⟨rest, true⟩] rest := by
  refine ⟨by simp, ?_, ?_⟩
  · intro a r b h _ x hx
    have := congrArg List.length h
    simp at this
    have : b = [] := List.length_eq_zero_iff.mp (by omega)
    subst this; simp at hx
  · intro a e b h he
    have := congrArg List.length h
    simp at this; omega

theorem prunB_prun (be : Bool) (max : Int) (rest : Bytes) : prunB 64 be be max (rest.map some) = prun be max (rest.map some) := by
  have hrd : ∃ rd : Reader, rd.Ok ∧ max ≤ rd.cap ∧ rd.abs = rest.map some := by
    refine ⟨newReader (if max < 0 then 0 else max) [⟨rest, true⟩], ⟨?_, by simp [newReader]⟩, ?_, ?_⟩
    · simp only [newReader]; split <;> split <;> omega
    · simp only [newReader]; split <;> split <;> omega
    · rw [← delivers_delivered (one_read rest)]; simp [newReader, Reader.abs, delivered]
  obtain ⟨rd, hok, hcap, habs⟩ := hrd
  let p : Parser := { newParser [] with maxMessageLength := max, bestEffort := be, internal := { bestEffort := be }, s := { r := rd } }
  have hi : PInv be max rd.cap p := ⟨rfl, rfl, rfl, rfl, rfl, hok, rfl, Nat.two_pow_pos 64⟩
  have hiB : PInvB be be max rd.cap p := ⟨rfl, rfl, rfl, rfl, rfl, hok, rfl⟩
  have hpa : p.s.abs = ⟨rest.map some, 0, false⟩ := by
    show (⟨rd.abs, 0, false⟩ : PS) = _
    rw [habs]
  obtain ⟨p1, h1, h2, -, hi1⟩ := parser_scanB (bits := 64) hiB (Or.inr (by rw [hpa]))
  rw [hpa] at h1 h2
  obtain ⟨q, hq, -⟩ := runLoopB_spec (bits := 64) hcap (nb (rest.map some) + 1) p (rest.map some) (by omega) ⟨p1, h1, h2, hi1⟩
  obtain ⟨q', hq', -⟩ := runLoop_spec (nb (rest.map some) + 1) p (rest.map some) (by omega) (at_of hi hpa)
  rw [runLoopB_64 _ _ (Nat.two_pow_pos 64), hq'] at hq
  simp only [Option.some.injEq, Prod.mk.injEq] at hq
  rw [← hq.1, prunc_prun be max _ hcap]

theorem then_prunc (be : Bool) {max : Int} {cap : Nat} (hc : max ≤ cap) (rest : Bytes) :
    Then 64 be be max rest (if Ends (rest.map some) then [] else (prunc be max cap (rest.map some)).1) := by
  unfold Then
  by_cases h : rest = [] ∨ rest.head? = some 0
  · rw [if_pos h, if_pos ((stream_ends_iff rest).mpr h)]
  · rw [if_neg h, if_neg (fun hh => h ((stream_ends_iff rest).mp hh)), prunc_prun be max cap hc, emitsOn_iff, prunB_prun]

theorem then_unique {bits : Nat} {go be : Bool} {max : Int} {rest : Bytes} {rs rs' : List Result} (h : Then bits go be max rest rs)
    (h' : Then bits go be max rest rs') : rs = rs' := by
  unfold Then at h h'
  by_cases c : rest = [] ∨ rest.head? = some 0
  · rw [if_pos c] at h h'; rw [h, h']
  · rw [if_neg c] at h h'
    obtain ⟨r0, -, hu⟩ := C81_one_outcome bits go be max rest
    rw [hu _ h, hu _ h']

/-- C82: a listener that does not call the parser gets the results of the other theorems. -/
theorem C82_only_listening (opts : List Opt) (sched : List Read) (out : List Result) :
    (newParser opts).HearsL (fun _ => []) sched out ↔ results opts sched = some out := by
  have hi := idle_new opts
  obtain ⟨h1, h2⟩ := pinv_new hi.hbe hi.hmax hi.ibe hi.ico hi.step sched
  obtain ⟨p', h, -⟩ := runL_rest (fun _ => []) [] (fun _ _ => rfl) _ _ (at_of h1 h2)
  rw [results_cap]
  have hh : (newParser opts).HearsL (fun _ => []) sched (prunc (isBestEffort opts) (maxLength opts) (bufSize (maxLength opts)) (delivered sched)).1 :=
    ⟨_, p', by simpa using h⟩
  constructor
  · intro h'
    rw [hearsL_unique h' hh]
  · intro h'
    rw [← Option.some.inj h']; exact hh

/-! ## Parse from the listener -/

theorem once_silent {k : Nat} {a : Do} {hist : List Result} (hk : k ≤ hist.length) : ∀ h, h ≠ [] → once k a (hist ++ h) = [] := by
  intro h hh
  have : 0 < h.length := List.length_pos_iff.mpr hh
  rw [once, if_neg (by simp; omega)]

/-- C82: if the listener calls `Parse` with another reader while it handles a message, the rest of the first stream is lost: for all
streams, whatever follows the message in the first one (`rest`) has no effect on the results, and there is no error. -/
theorem C82_nested_parse_loses_rest (opts : List Opt) (hfit : Fits opts) (before : List Bytes) (hb : ∀ x ∈ before, Takes opts x)
    (m : Bytes) (hm : Takes opts m) (rest : Bytes) (ms : List Bytes) (hms : ∀ x ∈ ms, Takes opts x) (hne : ms ≠ [])
    (sched sched' : List Read) (hs : Delivers sched (before.flatMap octetFrame ++ (octetFrame m ++ rest)))
    (hs' : Delivers sched' (ms.flatMap octetFrame)) (out : List Result) :
    (newParser opts).HearsL (once (before.length + 1) (.parse sched')) sched out ↔
      out = (before ++ m :: ms).map (alone (isBestEffort opts)) := by
  have key : (newParser opts).HearsL (once (before.length + 1) (.parse sched')) sched ((before ++ m :: ms).map (alone (isBestEffort opts))) := by
    obtain ⟨p, hat, hh⟩ := hears_after hfit before hb m rest sched hs (once (before.length + 1) (.parse sched'))
      (by intro h hl; rw [once, if_neg (by omega)])
    obtain ⟨hm1, hm2⟩ := takes_aux hfit hm
    obtain ⟨p4, hi, habs, hgo⟩ := runL_emit hm1 (bufSize_ge hfit) hm2 _ hat
    -- the nested call
    obtain ⟨n1, n2⟩ := pinv_new hi.hbe hi.hmax hi.ibe hi.ico hi.step sched'
    rw [delivers_delivered hs'] at n2
    have hsil := once_silent (k := before.length + 1) (a := .parse sched')
      (hist := before.map (alone (isBestEffort opts)) ++ [pmsg (isBestEffort opts) m]) (by simp)
    obtain ⟨p5, r1, r2, hi5⟩ := runL_rest (once (before.length + 1) (.parse sched')) _ hsil _ _ (at_of n1 n2)
    have hpr : prunc (isBestEffort opts) (maxLength opts) (bufSize (maxLength opts)) ((ms.flatMap octetFrame).map some) =
        (ms.map (pmsg (isBestEffort opts)), []) := by
      clear hs' n2 r1 r2
      induction ms with
      | nil => exact absurd rfl hne
      | cons x ms ih =>
        obtain ⟨hx1, hx2⟩ := takes_aux hfit (hms x (by simp))
        have := bufSize_ge hfit
        rw [List.flatMap_cons, List.map_append, octetFrame_text x,
          prunc_frame (octetFrame_wf hx1) (by have := hx1.2.1; simp only []; omega) hx2]
        cases ms with
        | nil => simp [Ends, pscan, pread]
        | cons g gs =>
          rw [if_neg (by
            rw [List.flatMap_cons, List.map_append]
            exact not_ends_frame _ _), ih (fun y hy => hms y (by simp only [List.mem_cons] at hy ⊢; exact Or.inr hy)) (by simp)]
          rfl
    rw [hpr] at r1 r2
    obtain ⟨fuel, hf⟩ := hgo (once (before.length + 1) (.parse sched')) (before.map (alone (isBestEffort opts)))
      (nb ((ms.flatMap octetFrame).map some) + 1)
      (before.map (alone (isBestEffort opts)) ++ [pmsg (isBestEffort opts) m] ++ ms.map (pmsg (isBestEffort opts)), p5)
      0 ((before ++ m :: ms).map (alone (isBestEffort opts)), p5.scan.2) (by
        rw [emitL, once, if_pos (by simp), perform]
        rw [r1]
        simp only [perform]) (by
        rw [afterEmit, if_neg]
        · obtain ⟨p6, s1, -⟩ := parser_scan hi5 (Or.inr (Or.inl (by
            show (pread p5.s.r.abs).1 ≠ some 60
            rw [r2]; simp [pread])))
          have : p5.s.abs = ⟨[], p5.s.msglen, p5.s.ready⟩ := by
            show (⟨p5.s.r.abs, p5.s.msglen, p5.s.ready⟩ : PS) = _
            rw [r2]
          rw [this] at s1
          rw [s1]
          simp [pscan, pread, alone_fun]
        · rw [hi5.hbe]
          rintro ⟨ha, hb⟩
          rcases hm2 with h | h
          · rw [h] at ha; simp at ha
          · exact hb h)
    exact hh fuel _ hf
  exact ⟨fun h => hearsL_unique h key, fun h => h ▸ key⟩

/-- C82: in strict mode, if the nested `Parse` stops at a wrong message, the outer one goes on with the rest of the second stream. -/
theorem C82_nested_parse_goes_on (opts : List Opt) (hfit : Fits opts) (hbe : isBestEffort opts = false) (before : List Bytes)
    (hb : ∀ x ∈ before, Takes opts x) (m : Bytes) (hm : Takes opts m) (rest : Bytes) (ms : List Bytes) (hms : ∀ x ∈ ms, Takes opts x)
    (bad : Bytes) (hbad : bad.head? = some 60 ∧ (bad.length : Int) ≤ maxLength opts ∧ (alone false bad).err ≠ none) (rest' : Bytes)
    (sched sched' : List Read) (hs : Delivers sched (before.flatMap octetFrame ++ (octetFrame m ++ rest)))
    (hs' : Delivers sched' (ms.flatMap octetFrame ++ (octetFrame bad ++ rest'))) (out : List Result) :
    (newParser opts).HearsL (once (before.length + 1) (.parse sched')) sched out ↔
      ∃ rs, Then 64 false false (maxLength opts) rest' rs ∧ out = (before ++ m :: ms ++ [bad]).map (alone false) ++ rs := by
  have hfit' : maxLength opts < 2 ^ 63 - 20 := hfit
  have key : ∃ rs, Then 64 false false (maxLength opts) rest' rs ∧
      (newParser opts).HearsL (once (before.length + 1) (.parse sched')) sched ((before ++ m :: ms ++ [bad]).map (alone false) ++ rs) := by
    refine ⟨_, then_prunc false (bufSize_ge hfit) rest', ?_⟩
    obtain ⟨p, hat, hh⟩ := hears_after hfit before hb m rest sched hs (once (before.length + 1) (.parse sched'))
      (by intro h hl; rw [once, if_neg (by omega)])
    obtain ⟨hm1, hm2⟩ := takes_aux hfit hm
    obtain ⟨p4, hi, habs, hgo⟩ := runL_emit hm1 (bufSize_ge hfit) hm2 _ hat
    obtain ⟨n1, n2⟩ := pinv_new hi.hbe hi.hmax hi.ibe hi.ico hi.step sched'
    rw [delivers_delivered hs', List.map_append, List.map_append] at n2
    have hsil := once_silent (k := before.length + 1) (a := .parse sched')
      (hist := before.map (alone (isBestEffort opts)) ++ [pmsg (isBestEffort opts) m]) (by simp)
    obtain ⟨p5, hat5, hgo5⟩ := runL_frames (bufSize_ge hfit) (once (before.length + 1) (.parse sched')) ms _
      (not_ends_frame bad (rest'.map some)) (fun x hx => takes_aux hfit (hms x hx))
      (before.map (alone (isBestEffort opts)) ++ [pmsg (isBestEffort opts) m])
      (by
        intro k hk0 hk
        refine hsil _ ?_
        intro h0
        have := congrArg List.length h0
        simp only [List.length_map, List.length_take, List.length_nil] at this
        omega) _ (at_of n1 n2)
    rw [hbe] at hat5 hgo5 hsil hgo hm2 hh
    obtain ⟨p6, hi6, habs6, hgo6⟩ := runL_wrong ⟨hbad.1, hbad.2.1, by have := hbad.2.1; omega⟩ (bufSize_ge hfit) (by rw [← alone_eq]; exact hbad.2.2)
      _ hat5
    have h6 := hgo6 (once (before.length + 1) (.parse sched')) ((before.map (alone false) ++ [pmsg false m]) ++ ms.map (pmsg false)) 0
      (((before.map (alone false) ++ [pmsg false m]) ++ ms.map (pmsg false)) ++ [pmsg false bad], p6) (by
        rw [emitL, once, if_neg (by simp), perform])
    have h5 := hgo5 _ _ h6
    obtain ⟨p7, h7⟩ := afterEmit_rest (once (before.length + 1) (.parse sched'))
      (((before.map (alone false) ++ [pmsg false m]) ++ ms.map (pmsg false)) ++ [pmsg false bad])
      (once_silent (by simp)) (pmsg false m) hm2 p6 (rest'.map some) hi6 habs6
    obtain ⟨fuel, hf⟩ := hgo (once (before.length + 1) (.parse sched')) (before.map (alone false)) _ _ _ _ (by
        rw [emitL, once, if_pos (by simp), perform]
        rw [h5]
        simp only [perform]) h7
    have := hh fuel _ hf
    simpa [alone_fun] using this
  obtain ⟨rs0, ht, hk⟩ := key
  constructor
  · intro h
    exact ⟨rs0, ht, hearsL_unique h hk⟩
  · rintro ⟨rs, ht', rfl⟩
    rw [then_unique ht' ht]; exact hk

/-- C82: calling `Parse` from the listener when it gets the error that ends the first stream is safe: the results are those of the two
streams, one after the other. -/
theorem C82_nested_parse_at_error (opts : List Opt) (hfit : Fits opts) (hbe : isBestEffort opts = false) (before : List Bytes)
    (hb : ∀ x ∈ before, Takes opts x) (bad : Bytes)
    (hbad : bad.head? = some 60 ∧ (bad.length : Int) ≤ maxLength opts ∧ (alone false bad).err ≠ none) (rest : Bytes)
    (sched sched' : List Read) (hs : Delivers sched (before.flatMap octetFrame ++ (octetFrame bad ++ rest))) (out : List Result) :
    (newParser opts).HearsL (once (before.length + 1) (.parse sched')) sched out ↔
      ∃ rs rs', results opts sched = some rs ∧ results opts sched' = some rs' ∧ out = rs ++ rs' := by
  have hfit' : maxLength opts < 2 ^ 63 - 20 := hfit
  have hbad63 : bad.head? = some 60 ∧ (bad.length : Int) ≤ maxLength opts ∧ bad.length < 2 ^ 63 := ⟨hbad.1, hbad.2.1, by have := hbad.2.1; omega⟩
  have hr : results opts sched = some (before.map (alone false) ++ [alone false bad]) := by
    rw [results_cap, hbe, delivers_delivered hs, ← List.append_assoc, List.map_append]
    rw [prunc_group (bufSize_ge hfit) before bad (rest.map some) (by
      intro x hx
      obtain ⟨a, b⟩ := takes_aux hfit (hb x hx)
      rw [hbe] at b
      exact ⟨a, b.resolve_left (by simp)⟩) hbad63 (by rw [← alone_eq]; exact hbad.2.2)]
    rfl
  have key : (newParser opts).HearsL (once (before.length + 1) (.parse sched')) sched
      (before.map (alone false) ++ [alone false bad] ++
        (prunc false (maxLength opts) (bufSize (maxLength opts)) (delivered sched')).1) := by
    obtain ⟨p, hat, hh⟩ := hears_after hfit before hb bad rest sched hs (once (before.length + 1) (.parse sched'))
      (by intro h hl; rw [once, if_neg (by omega)])
    rw [hbe] at hat hh
    obtain ⟨p4, hi, habs, hgo⟩ := runL_wrong hbad63 (bufSize_ge hfit) (by rw [← alone_eq]; exact hbad.2.2) _ hat
    obtain ⟨n1, n2⟩ := pinv_new hi.hbe hi.hmax hi.ibe hi.ico hi.step sched'
    have hsil := once_silent (k := before.length + 1) (a := .parse sched') (hist := before.map (alone false) ++ [pmsg false bad]) (by simp)
    obtain ⟨p5, r1, -⟩ := runL_rest (once (before.length + 1) (.parse sched')) _ hsil _ _ (at_of n1 n2)
    have := hgo (once (before.length + 1) (.parse sched')) (before.map (alone false)) _
      (before.map (alone false) ++ [pmsg false bad] ++ (prunc false (maxLength opts) (bufSize (maxLength opts)) (delivered sched')).1, p5) (by
        rw [emitL, once, if_pos (by simp), perform]
        rw [r1]
        simp only [perform])
    exact hh _ _ this
  have hr' := results_cap opts sched'
  rw [hbe] at hr'
  rw [hr, hr']
  constructor
  · intro h
    exact ⟨_, _, rfl, rfl, hearsL_unique h key⟩
  · rintro ⟨rs, rs', h1, h2, rfl⟩
    rw [← Option.some.inj h1, ← Option.some.inj h2]; exact key

/-! ## Options from the listener -/

theorem pinv_max {be : Bool} {max : Int} {cap : Nat} {p : Parser} (h : PInv be max cap p) (n : Int) :
    PInv be n cap { p with maxMessageLength := n } := ⟨h.hbe, rfl, h.ibe, h.ico, h.step, h.ok, h.cap, h.len⟩

theorem new_maximum_aux {opts : List Opt} (hfit : Fits opts) (before : List Bytes) (hb : ∀ x ∈ before, Takes opts x)
    (m : Bytes) (hm : Takes opts m) (rest : Bytes) (n : Int) (sched : List Read)
    (hs : Delivers sched (before.flatMap octetFrame ++ (octetFrame m ++ rest))) :
    (newParser opts).HearsL (once (before.length + 1) (.withMaxMessageLength n)) sched ((before ++ [m]).map (alone (isBestEffort opts)) ++
      if Ends (rest.map some) then [] else (prunc (isBestEffort opts) n (bufSize (maxLength opts)) (rest.map some)).1) := by
  obtain ⟨p, hat, hh⟩ := hears_after hfit before hb m rest sched hs (once (before.length + 1) (.withMaxMessageLength n))
    (by intro h hl; rw [once, if_neg (by omega)])
  obtain ⟨hm1, hm2⟩ := takes_aux hfit hm
  obtain ⟨p4, hi, habs, hgo⟩ := runL_emit hm1 (bufSize_ge hfit) hm2 _ hat
  obtain ⟨p7, h7⟩ := afterEmit_rest (once (before.length + 1) (.withMaxMessageLength n))
    (before.map (alone (isBestEffort opts)) ++ [pmsg (isBestEffort opts) m])
    (once_silent (by simp)) (pmsg (isBestEffort opts) m) hm2 { p4 with maxMessageLength := n } (rest.map some) (pinv_max hi n) habs
  obtain ⟨fuel, hf⟩ := hgo (once (before.length + 1) (.withMaxMessageLength n)) (before.map (alone (isBestEffort opts))) 0
    (before.map (alone (isBestEffort opts)) ++ [pmsg (isBestEffort opts) m], { p4 with maxMessageLength := n }) _ _ (by
      rw [emitL, once, if_pos (by simp), perform, perform]) h7
  have := hh fuel _ hf
  simpa [alone_fun] using this

/-- C82: a smaller maximum (in fact anything up to 20 more than the old one) set by the listener counts from the next message on. -/
theorem C82_new_maximum (opts : List Opt) (hfit : Fits opts) (before : List Bytes) (hb : ∀ x ∈ before, Takes opts x)
    (m : Bytes) (hm : Takes opts m) (rest : Bytes) (n : Int) (hn : n ≤ maxLength opts + 20) (sched : List Read)
    (hs : Delivers sched (before.flatMap octetFrame ++ (octetFrame m ++ rest))) (out : List Result) :
    (newParser opts).HearsL (once (before.length + 1) (.withMaxMessageLength n)) sched out ↔
      ∃ rs, Then 64 (isBestEffort opts) (isBestEffort opts) n rest rs ∧ out = (before ++ [m]).map (alone (isBestEffort opts)) ++ rs := by
  have hfit' : maxLength opts < 2 ^ 63 - 20 := hfit
  have hk := new_maximum_aux hfit before hb m hm rest n sched hs
  have hcap : n ≤ bufSize (maxLength opts) := by
    unfold bufSize wrapInt
    by_cases c : (maxLength opts + 20 + 2 ^ 63) % 2 ^ 64 - 2 ^ 63 < 16
    · rw [if_pos c]; omega
    · rw [if_neg c]; omega
  have ht := then_prunc (isBestEffort opts) hcap rest
  constructor
  · intro h
    exact ⟨_, ht, hearsL_unique h hk⟩
  · rintro ⟨rs, ht', rfl⟩
    rw [then_unique ht' ht]; exact hk

/-- C82: a larger maximum set by the listener does not make the buffer larger: a message of more than 20 bytes above the old maximum,
although below the new one, is an error, and `Parse` ends there. -/
theorem C82_larger_maximum (opts : List Opt) (hfit : Fits opts) (before : List Bytes) (hb : ∀ x ∈ before, Takes opts x)
    (m : Bytes) (hm : Takes opts m) (n : Int) (m' rest : Bytes) (h60 : m'.head? = some 60) (hlong : maxLength opts + 20 < m'.length)
    (hn : (m'.length : Int) ≤ n) (h63 : m'.length < 2 ^ 63) (sched : List Read)
    (hs : Delivers sched (before.flatMap octetFrame ++ (octetFrame m ++ (octetFrame m' ++ rest)))) :
    ∃ e, (newParser opts).HearsL (once (before.length + 1) (.withMaxMessageLength n)) sched
      ((before ++ [m]).map (alone (isBestEffort opts)) ++
        [⟨if isBestEffort opts then (alone true (m'.take (maxLength opts + 20).toNat)).msg else none, some e⟩]) := by
  have hfit' : maxLength opts < 2 ^ 63 - 20 := hfit
  have hk := new_maximum_aux hfit before hb m hm (octetFrame m' ++ rest) n sched hs
  have hpos : 0 < m.length := by
    have := hm.1
    cases m with
    | nil => simp at this
    | cons _ _ => simp
  have hmax := hm.2.1
  have hcap : bufSize (maxLength opts) = (maxLength opts + 20).toNat := by
    unfold bufSize wrapInt
    rw [if_neg (by omega)]
    omega
  have hf := octetFrame_wf (max := n) (m := m') ⟨h60, hn, h63⟩
  rw [List.map_append (l₁ := octetFrame m'), if_neg (not_ends_frame _ _), octetFrame_text m', prunc_full hf (by rw [hcap]; simp only []; omega), hcap] at hk
  cases hbe : isBestEffort opts with
  | true =>
    rw [hbe] at hk
    rw [if_pos rfl] at hk
    rw [if_pos rfl]
    exact ⟨_, hk⟩
  | false =>
    rw [hbe] at hk
    rw [if_neg (by simp)] at hk
    rw [if_neg (by simp)]
    exact ⟨_, hk⟩

/-- C82: the listener of a strict parser calls `WithBestEffort()`: from then on wrong messages do not end `Parse`, but they are reported
without a partial message (compare C63). -/
theorem C82_best_effort (opts : List Opt) (hfit : Fits opts) (hbe : isBestEffort opts = false) (before : List Bytes)
    (hb : ∀ x ∈ before, Takes opts x) (m : Bytes) (hm : Takes opts m) (rest : Bytes) (sched : List Read)
    (hs : Delivers sched (before.flatMap octetFrame ++ (octetFrame m ++ rest))) (out : List Result) :
    (newParser opts).HearsL (once (before.length + 1) .withBestEffort) sched out ↔
      ∃ rs, Then 64 true false (maxLength opts) rest rs ∧ out = (before ++ [m]).map (alone false) ++ rs := by
  have key : ∃ rs, Then 64 true false (maxLength opts) rest rs ∧
      (newParser opts).HearsL (once (before.length + 1) .withBestEffort) sched ((before ++ [m]).map (alone false) ++ rs) := by
    refine ⟨if Ends (rest.map some) then [] else prunB 64 true false (maxLength opts) (rest.map some), ?_, ?_⟩
    · unfold Then
      by_cases h : rest = [] ∨ rest.head? = some 0
      · rw [if_pos h, if_pos ((stream_ends_iff rest).mpr h)]
      · rw [if_neg h, if_neg (fun hh => h ((stream_ends_iff rest).mp hh)), emitsOn_iff]
    obtain ⟨p, hat, hh⟩ := hears_after hfit before hb m rest sched hs (once (before.length + 1) .withBestEffort)
      (by intro h hl; rw [once, if_neg (by omega)])
    obtain ⟨hm1, hm2⟩ := takes_aux hfit hm
    obtain ⟨p4, hi, habs, hgo⟩ := runL_emit hm1 (bufSize_ge hfit) hm2 _ hat
    rw [hbe] at hi hgo hh hm2
    have hsil := once_silent (k := before.length + 1) (a := .withBestEffort) (hist := before.map (alone false) ++ [pmsg false m]) (by simp)
    have hiB : PInvB true false (maxLength opts) (bufSize (maxLength opts)) p4.withBestEffort :=
      ⟨rfl, hi.hmax, hi.ibe, hi.ico, hi.step, hi.ok, hi.cap⟩
    have h7 : ∃ p', afterEmit (once (before.length + 1) .withBestEffort) (nb (rest.map some) + 1) (pmsg false m)
        (some (before.map (alone false) ++ [pmsg false m], p4.withBestEffort)) =
        some ((before.map (alone false) ++ [pmsg false m]) ++
          (if Ends (rest.map some) then [] else prunB 64 true false (maxLength opts) (rest.map some)), p') := by
      obtain ⟨p5, s1, s2, s3, hi5⟩ := parser_scanB (bits := 64) hiB (Or.inr (by
        show p4.s.abs.ready = false
        rw [habs]))
      have habs' : p4.withBestEffort.s.abs = ⟨rest.map some, 0, false⟩ := habs
      rw [habs'] at s1 s2 s3
      have h64 : p4.withBestEffort.s.msglen < 2 ^ 64 := hi.len
      obtain ⟨e1, e2⟩ := parser_scanB_64 _ h64
      rw [e1] at s1
      rw [s1] at e2
      have hend : (pscanB 64 ⟨rest.map some, 0, false⟩).1.typ = .EOF ↔ Ends (rest.map some) := by
        obtain ⟨p6, t1, -⟩ := parser_scan (p := p4) hi (Or.inr (Or.inr (by rw [habs])))
        rw [habs] at t1
        have : p4.withBestEffort.scan.1 = p4.scan.1 := by
          simp only [Parser.withBestEffort, Parser.scan, hi.step]; rfl
        rw [s1, t1] at this
        rw [← pscan_eof_iff, ← this]
      rw [afterEmit, if_neg (by rintro ⟨h, -⟩; exact absurd h (by simp [Parser.withBestEffort])), s1]
      simp only []
      by_cases he : Ends (rest.map some)
      · rw [if_pos (hend.mpr he), if_pos he]; exact ⟨p5, by simp⟩
      · rw [if_neg (fun h => he (hend.mp h)), if_neg he, runL_silent _ _ _ _ hsil, ← runLoopB_64 _ _ (show p5.unscan.s.msglen < 2 ^ 64 from e2)]
        obtain ⟨q, hq, -⟩ := runLoopB_spec (bits := 64) (go := true) (be := false) (bufSize_ge hfit) (nb (rest.map some) + 1) p5.unscan
          (rest.map some) (by omega) ⟨{ p5.unscan with stepback := false }, by simp [Parser.scanB, Parser.unscan, s3], s2,
            ⟨hi5.hgo, hi5.hmax, hi5.ibe, hi5.ico, rfl, hi5.ok, hi5.cap⟩⟩
        rw [hq]
        exact ⟨q, rfl⟩
    obtain ⟨p7, h7⟩ := h7
    obtain ⟨fuel, hf⟩ := hgo (once (before.length + 1) .withBestEffort) (before.map (alone false)) 0
      (before.map (alone false) ++ [pmsg false m], p4.withBestEffort) _ _ (by
        rw [emitL, once, if_pos (by simp), perform, perform]) h7
    have := hh fuel _ hf
    simpa [alone_fun] using this
  obtain ⟨rs0, ht, hk⟩ := key
  constructor
  · intro h
    exact ⟨rs0, ht, hearsL_unique h hk⟩
  · rintro ⟨rs, ht', rfl⟩
    rw [then_unique ht' ht]; exact hk

/-! ## Examples -/

theorem takesA : Takes [] msgA := ⟨by decide +kernel, by decide +kernel, Or.inr (by decide +kernel)⟩
theorem takesB : Takes [] msgB := ⟨by decide +kernel, by decide +kernel, Or.inr (by decide +kernel)⟩

/-- the second message of the first stream, `msgB`, is lost -/
example : (newParser []).HearsL (once 1 (.parse (sched1 (octetFrame msgA)))) (sched1 ([msgA, msgB].flatMap octetFrame))
      [alone false msgA, alone false msgA] ∧ (alone false msgA).msg ≠ none ∧ alone false msgB ≠ alone false msgA := by
  refine ⟨?_, by decide +kernel, by decide +kernel⟩
  exact (C82_nested_parse_loses_rest [] (by decide) [] (by simp) msgA takesA (octetFrame msgB) [msgA] (by simp [takesA]) (by simp)
    (sched1 ([msgA, msgB].flatMap octetFrame)) (sched1 (octetFrame msgA)) (by simpa using sched1_delivers ([msgA, msgB].flatMap octetFrame))
    (by simpa using sched1_delivers (octetFrame msgA)) _).mpr (by simp; rfl)

theorem bad_wrong : msgBad.head? = some 60 ∧ (msgBad.length : Int) ≤ maxLength [] ∧ (alone false msgBad).err ≠ none :=
  ⟨by decide +kernel, by decide +kernel, by decide +kernel⟩

theorem then_one {go be : Bool} {max : Int} (m : Bytes) (h60 : m.head? = some 60) (hmax : (m.length : Int) ≤ max) (h63 : m.length < 2 ^ 63)
    (hok : go = true ∨ (alone be m).err = none) : Then 64 go be max (octetFrame m) [alone be m] := by
  have hne : ¬ (octetFrame m = [] ∨ (octetFrame m).head? = some 0) := by
    rw [← stream_ends_iff]
    have := not_ends_frame m []
    rwa [List.append_nil] at this
  rw [Then, if_neg hne]
  have e : octetFrame m = dec m.length ++ 32 :: (m ++ []) := by simp [octetFrame]
  rw [e]
  have hl : m.length ≠ 0 := by cases m <;> simp at h60 ⊢
  refine EmitsOn.last (emitsOn_frame (by omega) hl ?_ (by simpa using h60) hmax) hok (Or.inl rfl)
  rw [asIntOn, Int.bmod_def]; split <;> omega

/-- the second stream has a wrong message in it: both calls read from the second stream -/
example : (newParser []).HearsL (once 1 (.parse (sched1 ([msgB, msgBad, msgA].flatMap octetFrame)))) (sched1 ([msgA, msgB].flatMap octetFrame))
      [alone false msgA, alone false msgB, alone false msgBad, alone false msgA] := by
  refine (C82_nested_parse_goes_on [] (by decide) rfl [] (by simp) msgA takesA (octetFrame msgB) [msgB] (by simp [takesB]) msgBad bad_wrong
    (octetFrame msgA) (sched1 ([msgA, msgB].flatMap octetFrame)) (sched1 ([msgB, msgBad, msgA].flatMap octetFrame))
    (by simpa using sched1_delivers ([msgA, msgB].flatMap octetFrame))
    (by simpa using sched1_delivers ([msgB, msgBad, msgA].flatMap octetFrame)) _).mpr ⟨[alone false msgA], ?_, by simp⟩
  exact then_one msgA (by decide +kernel) (by decide +kernel) (by decide +kernel) (Or.inr (by decide +kernel))

/-- after an error -/
example : (newParser []).HearsL (once 2 (.parse (sched1 (octetFrame msgB)))) (sched1 ([msgA, msgBad, msgA].flatMap octetFrame))
      [alone false msgA, alone false msgBad, alone false msgB] := by
  refine (C82_nested_parse_at_error [] (by decide) rfl [msgA] (by simp [takesA]) msgBad bad_wrong (octetFrame msgA)
    (sched1 ([msgA, msgBad, msgA].flatMap octetFrame)) (sched1 (octetFrame msgB))
    (by simpa using sched1_delivers ([msgA, msgBad, msgA].flatMap octetFrame)) _).mpr
    ⟨[alone false msgA, alone false msgBad], [alone false msgB], by decide +kernel, by decide +kernel, rfl⟩

/-- a smaller maximum -/
example : (newParser []).HearsL (once 1 (.withMaxMessageLength 20)) (sched1 ([msgA, msgB].flatMap octetFrame))
      [alone false msgA, ⟨none, some (.tooLong 25 20)⟩] := by
  refine (C82_new_maximum [] (by decide) [] (by simp) msgA takesA (octetFrame msgB) 20 (by decide) (sched1 ([msgA, msgB].flatMap octetFrame))
    (by simpa using sched1_delivers ([msgA, msgB].flatMap octetFrame)) _).mpr ⟨[⟨none, some (.tooLong 25 20)⟩], ?_, by simp; rfl⟩
  have hne : ¬ (octetFrame msgB = [] ∨ (octetFrame msgB).head? = some 0) := by decide +kernel
  rw [Then, if_neg hne]
  have e : octetFrame msgB = dec msgB.length ++ 32 :: msgB := by simp [octetFrame]
  rw [e]
  have hl : msgB.length = 25 := by decide +kernel
  have hd := lenText_dec msgB.length msgB
  have hv : lenValue (dec msgB.length) = 25 := by rw [lenValue_dec (by omega)]; exact hl
  have := EmitsOn.tooLong (bits := 64) (go := false) (be := false) (max := 20) hd (by rw [hv]; decide)
  rw [hv] at this
  exact this

/-- a message of 43 bytes -/
def msgLong : Bytes := ascii "<1>1 - - - - - - abcdefghijklmnopqrstuvwxyz"

/-- a larger maximum: 16 at first, then 8192; the message is correct -/
example : (∃ x, parse1 {} msgLong = some ⟨some x, none⟩) ∧ ∃ e,
    (newParser [.maxMessageLength 16]).HearsL (once 1 (.withMaxMessageLength 8192)) (sched1 ([msgA, msgLong].flatMap octetFrame))
      [alone false msgA, ⟨none, some e⟩] := by
  refine ⟨ex_of' (by decide +kernel), ?_⟩
  have := C82_larger_maximum [.maxMessageLength 16] (by decide) [] (by simp) msgA ⟨by decide +kernel, by decide +kernel, Or.inr (by decide +kernel)⟩
    8192 msgLong [] (by decide +kernel) (by decide +kernel) (by decide +kernel) (by decide +kernel) (sched1 ([msgA, msgLong].flatMap octetFrame))
    (by simpa using sched1_delivers ([msgA, msgLong].flatMap octetFrame))
  exact this

/-- best effort: the wrong message does not end it -/
example : (newParser []).HearsL (once 1 .withBestEffort) (sched1 ([msgA, msgBad].flatMap octetFrame)) [alone false msgA, alone false msgBad] := by
  refine (C82_best_effort [] (by decide) rfl [] (by simp) msgA takesA (octetFrame msgBad) (sched1 ([msgA, msgBad].flatMap octetFrame))
    (by simpa using sched1_delivers ([msgA, msgBad].flatMap octetFrame)) _).mpr ⟨[alone false msgBad], ?_, by simp⟩
  exact then_one msgBad (by decide +kernel) (by decide +kernel) (by decide +kernel) (Or.inl rfl)

end Verif.Props
