import Verif.Octet.Listener

/-! # Listeners that call the parser: one round of the loop, and what follows -/

namespace Verif.Octet
open Verif.Spec

/-- the parser is at the start of a round, `inp` is what is left -/
def At (be : Bool) (max : Int) (cap : Nat) (p : Parser) (inp : Events) : Prop :=
  ∃ p1, p.scan = ((pscan ⟨inp, 0, false⟩).1, p1) ∧ p1.s.abs = (pscan ⟨inp, 0, false⟩).2 ∧ PInv be max cap p1

theorem at_of {be : Bool} {max : Int} {cap : Nat} {p : Parser} {inp : Events} (h : PInv be max cap p) (habs : p.s.abs = ⟨inp, 0, false⟩) :
    At be max cap p inp := by
  obtain ⟨p1, h1, h2, -, hi⟩ := parser_scan h (Or.inr (Or.inr (by rw [habs])))
  rw [habs] at h1 h2
  exact ⟨p1, h1, h2, hi⟩

/-- after a scan that is taken back -/
theorem at_unscan {be : Bool} {max : Int} {cap : Nat} {p : Parser} {inp : Events} (h : PInv be max cap p) (habs : p.s.abs = ⟨inp, 0, false⟩) :
    ∃ p1, p.scan = ((pscan ⟨inp, 0, false⟩).1, p1) ∧ PInv be max cap p1 ∧ At be max cap p1.unscan inp := by
  obtain ⟨p1, h1, h2, h3, hi⟩ := parser_scan h (Or.inr (Or.inr (by rw [habs])))
  rw [habs] at h1 h2 h3
  refine ⟨p1, h1, hi, { p1.unscan with stepback := false }, ?_, h2, ⟨hi.hbe, hi.hmax, hi.ibe, hi.ico, rfl, hi.ok, hi.cap, hi.len⟩⟩
  simp [Parser.scan, Parser.unscan, h3]

/-- what happens in a round after the message has been emitted -/
def afterEmit (L : Listener) (fuel : Nat) (r : Result) : Option (List Result × Parser) → Option (List Result × Parser)
  | none => none
  | some (hist, p) =>
    if p.bestEffort = false ∧ r.err ≠ none then emitL L (runL L fuel) ⟨none, r.err⟩ hist p
    else
    match p.scan with
    | (tok, p) => if tok.typ = .EOF then some (hist, p) else runL L fuel hist p.unscan

/-- a round at a frame -/
theorem runL_frame {be : Bool} {max : Int} {cap : Nat} {f : LooseFrame} (hf : f.WF max) (hc : (f.msg.length : Int) ≤ cap) (rest : Events)
    {p : Parser} (hat : At be max cap p (f.text.map some ++ rest)) :
    ∃ p4, PInv be max cap p4 ∧ p4.s.abs = ⟨rest, 0, false⟩ ∧ ∀ L fuel hist, runL L (fuel + 1) hist p =
      if be = true ∨ (pmsg be f.msg).err = none then
        afterEmit L fuel (pmsg be f.msg) (emitL L (runL L fuel) (pmsg be f.msg) hist p4)
      else emitL L (runL L fuel) ⟨none, (pmsg be f.msg).err⟩ hist p4 := by
  obtain ⟨p1, h1, h2, hi1⟩ := hat
  rw [pscan_frame_len hf rest] at h1 h2
  have hm1 : p1.s.msglen = f.msg.length := congrArg PS.msglen h2
  obtain ⟨p2, g1, g2, -, hi2⟩ := parser_scan hi1 (Or.inr (Or.inr (by rw [h2])))
  rw [h2, pscan_ws] at g1 g2
  have hm2 : p2.s.msglen = f.msg.length := congrArg PS.msglen g2
  obtain ⟨p3, k1, k2, -, hi3⟩ := parser_scan hi2 (Or.inl (by rw [hm2, toInt_nat hf.int]; exact hc))
  rw [g2, pscan_msg _ hf.lt hf.int] at k1 k2
  obtain ⟨p4, q1, q2, hi4⟩ := parser_parseMsg hi3 f.msg
  refine ⟨p4, hi4, by rw [q2]; exact k2, fun L fuel hist => ?_⟩
  rw [runL, h1]
  simp only [] at g1 k1 ⊢
  rw [if_neg (by simp), if_neg (by rw [hm1, hi1.hmax, toInt_nat hf.int]; have := hf.max; omega), g1]
  simp only []
  rw [if_neg (by simp), k1]
  simp only []
  rw [if_neg (by simp), q1]
  simp only []
  rw [hi4.hbe]
  by_cases c : be = true ∨ (pmsg be f.msg).err = none
  · rw [if_pos c, if_pos c]
    cases emitL L (runL L fuel) (pmsg be f.msg) hist p4 with
    | none => rfl
    | some x => rfl
  · rw [if_neg c, if_neg c]
    simp only []
    rw [if_pos]
    rw [hi4.hbe]
    constructor
    · cases be with
      | false => rfl
      | true => exact absurd (Or.inl rfl) c
    · exact fun h => c (Or.inr h)

/-- frames while the listener only listens -/
theorem runL_frames {be : Bool} {max : Int} {cap : Nat} (hc : max ≤ cap) (L : Listener) (ms : List Bytes) (rest : Events) (hrest : ¬ Ends rest)
    (hms : ∀ m ∈ ms, (m.head? = some 60 ∧ (m.length : Int) ≤ max ∧ m.length < 2 ^ 63) ∧ (be = true ∨ (pmsg be m).err = none))
    (hist : List Result) (hL : ∀ k, 0 < k → k ≤ ms.length → L (hist ++ (ms.take k).map (pmsg be)) = [])
    (p : Parser) (hat : At be max cap p ((ms.flatMap octetFrame).map some ++ rest)) :
    ∃ p', At be max cap p' rest ∧ ∀ fuel x, runL L fuel (hist ++ ms.map (pmsg be)) p' = some x → runL L (fuel + ms.length) hist p = some x := by
  induction ms generalizing hist p with
  | nil => exact ⟨p, by simpa using hat, fun fuel x h => by simpa using h⟩
  | cons m ms ih =>
    obtain ⟨hm, hok⟩ := hms m (by simp)
    rw [List.flatMap_cons, List.map_append, List.append_assoc, octetFrame_text] at hat
    obtain ⟨p4, hi, habs, hrun⟩ := runL_frame (octetFrame_wf hm) (by have := hm.2.1; simp only []; omega) _ hat
    obtain ⟨p5, hs, hi5, hat5⟩ := at_unscan hi habs
    have hne : ¬ Ends ((ms.flatMap octetFrame).map some ++ rest) := by
      cases ms with
      | nil => simpa using hrest
      | cons g gs =>
        rw [List.flatMap_cons, List.map_append, List.append_assoc]
        exact not_ends_frame _ _
    obtain ⟨p', hat', hgo⟩ := ih (fun m hm => hms m (by simp [hm])) (hist ++ [pmsg be m]) (by
      intro k hk0 hk
      have := hL (k + 1) (by omega) (by simpa using hk)
      simpa using this) p5.unscan hat5
    refine ⟨p', hat', fun fuel x hx => ?_⟩
    have h1 := hgo fuel x (by simpa using hx)
    show runL L (fuel + (ms.length + 1)) hist p = some x
    rw [← Nat.add_assoc, hrun, if_pos hok, emitL]
    simp only []
    have hL1 : L (hist ++ [pmsg be m]) = [] := by simpa using hL 1 (by omega) (by simp)
    rw [hL1, perform, afterEmit, if_neg, hs]
    · simp only []
      rw [if_neg (fun h => hne ((pscan_eof_iff _).mp h))]
      exact h1
    · rw [hi.hbe]
      rintro ⟨ha, hb⟩
      rcases hok with h | h
      · rw [h] at ha; simp at ha
      · exact hb h

/-- the rest, while the listener only listens -/
theorem runL_rest {be : Bool} {max : Int} {cap : Nat} (L : Listener) (hist : List Result) (hL : ∀ h, h ≠ [] → L (hist ++ h) = [])
    (p : Parser) (rest : Events) (hat : At be max cap p rest) :
    ∃ p', runL L (nb rest + 1) hist p = some (hist ++ (prunc be max cap rest).1, p') ∧ p'.s.r.abs = (prunc be max cap rest).2 ∧ PInv be max cap p' := by
  obtain ⟨p', h1, h2, h3⟩ := runLoop_spec (nb rest + 1) p rest (by omega) hat
  refine ⟨p', ?_, h2, h3⟩
  rw [runL_silent L _ hist p hL, h1]
  rfl

/-- after the listener's calls -/
theorem afterEmit_rest {be : Bool} {max : Int} {cap : Nat} (L : Listener) (hist : List Result) (hL : ∀ h, h ≠ [] → L (hist ++ h) = [])
    (r : Result) (hr : be = true ∨ r.err = none) (p : Parser) (rest : Events) (hi : PInv be max cap p) (habs : p.s.abs = ⟨rest, 0, false⟩) :
    ∃ p', afterEmit L (nb rest + 1) r (some (hist, p)) = some (hist ++ (if Ends rest then [] else (prunc be max cap rest).1), p') := by
  obtain ⟨p5, hs, hi5, hat5⟩ := at_unscan hi habs
  rw [afterEmit, if_neg, hs]
  · simp only []
    by_cases he : Ends rest
    · rw [if_pos ((pscan_eof_iff _).mpr he), if_pos he]; exact ⟨p5, by simp⟩
    · rw [if_neg (fun h => he ((pscan_eof_iff _).mp h)), if_neg he]
      obtain ⟨p', h, -⟩ := runL_rest L hist hL _ _ hat5
      exact ⟨p', h⟩
  · rw [hi.hbe]
    rintro ⟨ha, hb⟩
    rcases hr with h | h
    · rw [h] at ha; simp at ha
    · exact hb h

theorem emitL_mono (L : Listener) {f f' : Nat} (hle : f ≤ f') (r : Result) (hist : List Result) (p : Parser) (x : List Result × Parser)
    (h : emitL L (runL L f) r hist p = some x) : emitL L (runL L f') r hist p = some x :=
  perform_mono (fun _ _ _ h => runL_mono_le L hle _ _ _ h) _ _ _ _ h

theorem afterEmit_mono (L : Listener) {f f' : Nat} (hle : f ≤ f') (r : Result) (o : Option (List Result × Parser)) (x : List Result × Parser)
    (h : afterEmit L f r o = some x) : afterEmit L f' r o = some x := by
  cases o with
  | none => exact h
  | some y =>
    obtain ⟨hist, p⟩ := y
    simp only [afterEmit] at h ⊢
    by_cases c : p.bestEffort = false ∧ r.err ≠ none
    · rw [if_pos c] at h ⊢; exact emitL_mono L hle _ _ _ _ h
    · rw [if_neg c] at h ⊢
      generalize p.scan = q at *
      obtain ⟨t, p1⟩ := q
      simp only [] at h ⊢
      by_cases c1 : t.typ = .EOF
      · rw [if_pos c1] at h ⊢; exact h
      · rw [if_neg c1] at h ⊢; exact runL_mono_le L hle _ _ _ h

/-- a round at a frame, with enough fuel -/
theorem runL_emit {be : Bool} {max : Int} {cap : Nat} {m : Bytes} (hm : m.head? = some 60 ∧ (m.length : Int) ≤ max ∧ m.length < 2 ^ 63)
    (hc : max ≤ cap) (hok : be = true ∨ (pmsg be m).err = none) (rest : Events) {p : Parser}
    (hat : At be max cap p ((octetFrame m).map some ++ rest)) :
    ∃ p4, PInv be max cap p4 ∧ p4.s.abs = ⟨rest, 0, false⟩ ∧ ∀ L hist f1 y f2 x,
      emitL L (runL L f1) (pmsg be m) hist p4 = some y → afterEmit L f2 (pmsg be m) (some y) = some x →
      ∃ fuel, runL L fuel hist p = some x := by
  rw [octetFrame_text] at hat
  obtain ⟨p4, hi, habs, hrun⟩ := runL_frame (octetFrame_wf hm) (by have := hm.2.1; simp only []; omega) _ hat
  refine ⟨p4, hi, habs, fun L hist f1 y f2 x h1 h2 => ⟨Nat.max f1 f2 + 1, ?_⟩⟩
  rw [hrun, if_pos hok, emitL_mono L (Nat.le_max_left f1 f2) _ _ _ _ h1]
  exact afterEmit_mono L (Nat.le_max_right f1 f2) _ _ _ h2

/-- a round at a wrong message in strict mode -/
theorem runL_wrong {max : Int} {cap : Nat} {m : Bytes} (hm : m.head? = some 60 ∧ (m.length : Int) ≤ max ∧ m.length < 2 ^ 63)
    (hc : max ≤ cap) (hbad : (pmsg false m).err ≠ none) (rest : Events) {p : Parser}
    (hat : At false max cap p ((octetFrame m).map some ++ rest)) :
    ∃ p4, PInv false max cap p4 ∧ p4.s.abs = ⟨rest, 0, false⟩ ∧ ∀ L hist f1 x,
      emitL L (runL L f1) (pmsg false m) hist p4 = some x → runL L (f1 + 1) hist p = some x := by
  rw [octetFrame_text] at hat
  obtain ⟨p4, hi, habs, hrun⟩ := runL_frame (octetFrame_wf hm) (by have := hm.2.1; simp only []; omega) _ hat
  refine ⟨p4, hi, habs, fun L hist f1 x h1 => ?_⟩
  have e : (⟨none, (pmsg false m).err⟩ : Result) = pmsg false m := by
    rcases strict_pmsg m with ⟨y, h⟩ | ⟨y, h⟩
    · rw [h] at hbad; simp at hbad
    · rw [h]
  rw [hrun, if_neg (by rintro (h | h); · simp at h
                       · exact hbad h)]
  simp only [e]
  exact h1

/-- a new scanner -/
theorem pinv_new {be : Bool} {max : Int} {p : Parser} (hbe : p.bestEffort = be) (hmax : p.maxMessageLength = max) (ibe : p.internal.bestEffort = be)
    (ico : p.internal.compliantMsg = false) (step : p.stepback = false) (sched : List Read) :
    PInv be max (bufSize max) { p with s := newScanner sched p.maxMessageLength } ∧
    ({ p with s := newScanner sched p.maxMessageLength } : Parser).s.abs = ⟨delivered sched, 0, false⟩ := by
  constructor
  · refine ⟨hbe, hmax, ibe, ico, step, ⟨?_, by simp [newScanner, newReader]⟩, ?_, Nat.two_pow_pos 64⟩
    · simp only [newScanner, newReader]; split <;> omega
    · simp only [newScanner, newReader, hmax, bufSize]
  · simp [newScanner, newReader, Scanner.abs, Reader.abs, delivered]

end Verif.Octet
