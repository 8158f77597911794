import Verif.Mini.ParseGo

/-!
# Parsers and messages in one memory

`parser.Parse` with the generated `machine.Parse` over memory, and what the messages of one memory have in common.
-/

set_option linter.constructorNameAsVariable false

namespace Verif.Mini
open Verif.Gen.Mini
open Verif.Builder (Globals Entry Call)
open Verif.Rfc5424 (SyslogMessage)

variable {E : Type}

/-- what a message depends on exists -/
theorem RepMsg.reaches_lt {w : W E} {b : Nat} {m : SyslogMessage} (hr : RepMsg w b m) {x : Nat} (h : Reaches w b x) : x < w.next := by
  rcases h with (rfl | ⟨ty, fs, c, p, c', mm, g1, g2, g3, g4, g5⟩) | ⟨ty, fs, f, p, hf, g1, g2⟩
  · obtain ⟨_, _, _, h2, _⟩ := hr.msg.base
    exact h2
  · obtain ⟨k1, k2, k3⟩ := hr.msg.sd.cell g1 g2
    obtain ⟨k4, k5⟩ := k3 c' g3
    rcases g5 with rfl | ⟨k, g5⟩
    · exact k4
    · cases hsd : m.structuredData with
      | none =>
        obtain ⟨ty2, fs2, v, r1, r2, r3⟩ := hr.msg.sd
        obtain ⟨rfl, rfl⟩ : ty = ty2 ∧ fs = fs2 := by rw [g1] at r1; injection r1 with q1 q2; exact ⟨q1, q2⟩
        rw [g2] at r2
        obtain rfl := Option.some.inj r2
        rw [hsd] at r3
        cases r3
      | some sd =>
        obtain ⟨ty2, fs2, c2, p2, c2', mm2, q1, q2, q3, q4, q5⟩ := rep_sd hr hsd
        obtain ⟨rfl, rfl⟩ : ty = ty2 ∧ fs = fs2 := by rw [g1] at q1; injection q1 with e1 e2; exact ⟨e1, e2⟩
        rw [g2] at q2
        have q2 := Option.some.inj q2
        injection q2 with e1 e2
        subst e1; subst e2
        rw [g3] at q3
        have q3 := Option.some.inj q3
        injection q3 with e1
        subst e1
        rw [g4] at q4
        injection q4 with q4
        subst q4
        exact entries_below q5 k x g5
  · exact (hr.out g1 hf g2).1

/-- if the variables that a message depends on are as they were, it depends on no others than before -/
theorem RepMsg.reaches_congr {w w' : W E} {b : Nat} {m : SyslogMessage} (hr : RepMsg w b m) (hk : ∀ x, x < w.next → Reaches w b x → w'.heap x = w.heap x) {x : Nat} (h : Reaches w' b x) : Reaches w b x := by
  have hb : w'.heap b = w.heap b := hk b (hr.reaches_lt (Or.inl (Or.inl rfl))) (Or.inl (Or.inl rfl))
  rcases h with (rfl | ⟨ty, fs, c, p, c', mm, g1, g2, g3, g4, g5⟩) | ⟨ty, fs, f, p, hf, g1, g2⟩
  · exact Or.inl (Or.inl rfl)
  · rw [hb] at g1
    have hc : Reaches w b c := Or.inr ⟨ty, fs, _, p, by simp [ptrFields], g1, g2⟩
    rw [hk c (hr.reaches_lt hc) hc] at g3
    obtain ⟨c2, mm2, q1, q2, _⟩ := hr.shape ty fs c p g1 g2
    rw [g3] at q1
    have q1 := Option.some.inj q1
    injection q1 with q1
    subst q1
    have hc' : Reaches w b c' := Or.inl (Or.inr ⟨ty, fs, c, p, c', mm2, g1, g2, g3, q2, Or.inl rfl⟩)
    rw [hk c' (hr.reaches_lt hc') hc'] at g4
    exact Or.inl (Or.inr ⟨ty, fs, c, p, c', mm, g1, g2, g3, g4, g5⟩)
  · rw [hb] at g1
    exact Or.inr ⟨ty, fs, f, p, hf, g1, g2⟩

/-- a setter makes a message depend on no variable that existed before and that it did not depend on -/
theorem Frame.reaches {w w' : W E} {a : Nat} (h : Frame w w' a) {x : Nat} (hx : x < w.next) (hr : Reaches w' a x) : Reaches w a x := by
  rcases hr with ho | ⟨ty, fs, f, p, hf, g1, g2⟩
  · exact Or.inl (h.owns x hx ho)
  · obtain ⟨ty0, fs0, p0, k1, k2⟩ := h.ptrs ty fs f x p g1 g2 hx
    exact Or.inr ⟨ty0, fs0, f, p0, hf, k1, k2⟩

/-- a new message depends on nothing but its own variable -/
theorem newMsg_reaches {w : W E} {x : Nat} (h : Reaches (newVar w zeroMsg) w.next x) : x = w.next := by
  rcases h with (rfl | ⟨ty, fs, c, p, c', mm, g1, g2, g3, g4, g5⟩) | ⟨ty, fs, f, p, hf, g1, g2⟩
  · rfl
  · rw [newVar_same, zeroMsg] at g1
    injection g1 with e1 e2
    subst e2
    cases g2
  · rw [newVar_same, zeroMsg] at g1
    injection g1 with e1 e2
    subst e2
    simp only [ptrFields, List.mem_cons, List.not_mem_nil, or_false] at hf
    rcases hf with rfl | rfl | rfl | rfl | rfl | rfl | rfl | rfl | rfl | rfl <;> cases g2

/-- **`parser.Parse` (rfc5424/parser.go:32-45) with the generated `machine.Parse`, over memory**: the result of the model, its message in new variables; everything
that existed is as it was (the lock is free again). -/
theorem live_parseMem {X : Env0 E} (hX : ParserEnv X) {calls : Nm → List Val → M E Val} {left : W E → Go.GS Go.R5.V} (hM : ∀ args, X.call .rfc5424_machine_Parse args = parseGo calls left args)
    (hc : PackageOk calls) (n : Nat) {w : W E} {a mi : Nat} {o : Rfc5424.Opts} (h : Live kit5 w a mi o) (input : Bytes) :
    ∃ r m' v w', Rfc5424.parserParse (Rfc5424.newMachine o) input = some (r, m') ∧ call X (n + 2) .rfc5424_parser_Parse [.ptr a [], .str input] w = some (.ok (.tuple [v, err5Val r.err]) w') ∧
      Keeps w w' ∧ Given w w' v r.msg := by
  obtain ⟨w1, hw1⟩ : ∃ w1 : W E, w1 = { w with heap := upd w.heap a (lockedVal .rfc5424_parser true mi) } := ⟨_, rfl⟩
  have hm1 : IsMach kit5 w1 mi o := by
    obtain ⟨fs, e, g⟩ := h.mach
    exact ⟨fs, by rw [hw1]; simp [Mini.upd, Ne.symm h.ne, e], g⟩
  have hn1 : w1.next = w.next := by rw [hw1]
  obtain ⟨res, v, w2, h1, h2, h3⟩ := parseGo_ok hc left hm1 (by rw [hn1]; exact h.mlt) input
  have hk2 : Keeps w1 w2 := by
    cases hres : res.msg with
    | none => rw [hres] at h3; exact h3.2
    | some m => rw [hres] at h3; exact h3.keeps
  have ha2 : w2.heap a = lockedVal .rfc5424_parser true mi := by
    rw [hk2.1 a (by rw [hn1]; exact h.lt), hw1]; simp
  obtain ⟨fs, e, g⟩ := hm1
  have hm2 : w2.heap mi = .struct .rfc5424_machine fs := by rw [hk2.1 mi (by rw [hn1]; exact h.mlt)]; exact e
  have hbe : fs.lookup .bestEffort = some (.bool o.bestEffort) := g _ _ (by simp [kit5])
  rw [hw1, ← hM] at h2
  have hcall := parser_returns hX (p := pkg5) (Or.inl rfl) n h.parser h2 ha2 hm2 hbe
  obtain ⟨w', hw'⟩ : ∃ w' : W E, w' = { w2 with heap := upd w2.heap a (lockedVal pkg5.parser false mi) } := ⟨_, rfl⟩
  rw [← hw'] at hcall
  have hn' : w'.next = w2.next := by rw [hw']
  have hk : Keeps w w' := by
    refine ⟨fun x hx => ?_, by rw [hn', ← hn1]; exact hk2.2.1, by rw [hw', hk2.2.2.1, hw1], by rw [hw', hk2.2.2.2, hw1]⟩
    by_cases hxa : x = a
    · subst hxa
      rw [hw', h.parser]; simp [kit5, pkg5]
    · rw [hw']
      show Mini.upd _ _ _ x = _
      rw [upd_ne _ _ hxa, hk2.1 x (by rw [hn1]; exact hx), hw1]
      exact upd_ne _ _ hxa
  have hother : ∀ x, x ≠ a → w'.heap x = w2.heap x := fun x hx => by rw [hw']; exact upd_ne _ _ hx
  have hgiven : Given w w' v res.msg := by
    cases hres : res.msg with
    | none => rw [hres] at h3; exact ⟨h3.1, hk⟩
    | some m =>
      rw [hres] at h3
      obtain ⟨_, b, rfl, hb1, hb2⟩ := h3
      rw [hn1] at hb2
      have hsame : ∀ x, x < w2.next → Reaches w2 b x → w'.heap x = w2.heap x := fun x _ hx => hother x (fun hxa => by
        have := hb2 x hx; have := h.lt; omega)
      exact ⟨hk, b, rfl, hb1.congr (by omega) hsame, fun x hx => hb2 x (hb1.reaches_congr hsame hx)⟩
  have hp1 : Rfc5424.parse1 o input = (Rfc5424.parse (Rfc5424.newMachine o) input).map fun r => r.1 := rfl
  rw [hp1] at h1
  cases hp : Rfc5424.parse (Rfc5424.newMachine o) input with
  | none => rw [hp] at h1; cases h1
  | some q =>
    obtain ⟨⟨m, er⟩, mm⟩ := q
    rw [hp] at h1
    obtain rfl : (⟨m, er⟩ : Rfc5424.Result) = res := Option.some.inj h1
    simp only [Rfc5424.parserParse, hp]
    cases er with
    | none => exact ⟨_, _, v, w', rfl, hcall, hk, hgiven⟩
    | some e =>
      cases hb : o.bestEffort with
      | true =>
        rw [hb] at hcall
        exact ⟨⟨m, some e⟩, mm, v, w', by rw [show (Rfc5424.newMachine o).bestEffort = true from hb]; rfl, hcall, hk, hgiven⟩
      | false =>
        rw [hb] at hcall
        exact ⟨⟨none, some e⟩, mm, .nil, w', by rw [show (Rfc5424.newMachine o).bestEffort = false from hb]; rfl, hcall, hk, rfl, hk⟩

end Verif.Mini
