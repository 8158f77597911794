import Verif.Mini.ParseGo3

/-!
# Messages of `rfc3164` in one memory with others

`parser.Parse` of `rfc3164` with the generated `machine.Parse` over memory, and what its messages depend on.
-/

set_option linter.constructorNameAsVariable false

namespace Verif.Mini.Bsd
open Verif.Gen.Mini

variable {E : Type}

/-- a field of the struct points outside of it, to a variable that exists -/
theorem field_lt {α : Type} {w : W E} {own : Nat} {fs : List (Nm × Val)} {f : Nm} {enc : α → Val} {x : Option α} (h : FieldAt w own fs f enc x) {y : Nat} {p : List Nm} (hl : fs.lookup f = some (.ptr y p)) : y < w.next := by
  obtain ⟨v, h1, h2⟩ := h
  rw [hl] at h1
  obtain rfl := Option.some.inj h1
  cases x with
  | none => cases h2
  | some x =>
    obtain ⟨a, q, e, h3, _⟩ := h2
    injection e with e _
    omega

/-- what a message of `rfc3164` depends on: the struct and what its fields point to -/
theorem RepMsg.reaches {w : W E} {b : Nat} {m : Base} (hr : RepMsg w b m) {x : Nat} (h : Reaches w b x) : x = b ∨ ∃ ty fs f p, f ∈ ptrFields ∧ w.heap b = .struct ty fs ∧ fs.lookup f = some (.ptr x p) := by
  rcases h with (rfl | ⟨ty, fs, c, p, c', mm, g1, g2, -⟩) | h
  · exact Or.inl rfl
  · rw [hr.plain ty fs g1] at g2; cases g2
  · exact Or.inr h

theorem RepMsg.reaches_lt {w : W E} {b : Nat} {m : Base} (hr : RepMsg w b m) {x : Nat} (h : Reaches w b x) : x < w.next := by
  obtain ⟨ty0, fs0, e1, e2, e3⟩ := hr.base
  rcases hr.reaches h with rfl | ⟨ty, fs, f, p, hf, g1, g2⟩
  · exact e2
  · have hpl := hr.plain ty fs g1
    obtain ⟨rfl, rfl⟩ : ty0 = ty ∧ fs0 = fs := by rw [e1] at g1; injection g1 with q1 q2; exact ⟨q1, q2⟩
    simp only [ptrFields, List.mem_cons, List.not_mem_nil, or_false] at hf
    rcases hf with rfl | rfl | rfl | rfl | rfl | rfl | rfl | rfl | rfl | rfl
    · exact field_lt e3.facility g2
    · exact field_lt e3.severity g2
    · exact field_lt e3.priority g2
    · exact field_lt e3.timestamp g2
    · exact field_lt e3.hostname g2
    · exact field_lt e3.appname g2
    · exact field_lt e3.procID g2
    · exact field_lt e3.msgID g2
    · exact field_lt e3.message g2
    · rw [hpl] at g2; cases g2

/-- a message is as it was if the variables it depends on are -/
theorem RepMsg.congr {w w' : W E} {b : Nat} {m : Base} (hr : RepMsg w b m) (hn : w.next ≤ w'.next) (hk : ∀ x, Reaches w b x → w'.heap x = w.heap x) : RepMsg w' b m := by
  have hb := hk b (Or.inl (Or.inl rfl))
  obtain ⟨ty, fs, e1, e2, e3⟩ := hr.base
  refine ⟨⟨ty, fs, hb.trans e1, by omega, e3.reach (fun f y p hm hf hy _ => hk y (Or.inr ⟨_, _, f, p, hm, e1, hf⟩)) hn⟩, fun ty2 fs2 h2 => hr.plain ty2 fs2 (hb ▸ h2)⟩

/-- ... and it depends on no others than before -/
theorem RepMsg.reaches_congr {w w' : W E} {b : Nat} {m : Base} (hr : RepMsg w b m) (hk : ∀ x, Reaches w b x → w'.heap x = w.heap x) {x : Nat} (h : Reaches w' b x) : Reaches w b x := by
  have hb := hk b (Or.inl (Or.inl rfl))
  rcases h with (rfl | ⟨ty, fs, c, p, c', mm, g1, g2, -⟩) | ⟨ty, fs, f, p, hf, g1, g2⟩
  · exact Or.inl (Or.inl rfl)
  · rw [hb] at g1
    rw [hr.plain ty fs g1] at g2; cases g2
  · rw [hb] at g1
    exact Or.inr ⟨ty, fs, f, p, hf, g1, g2⟩

/-- **`ComputeFromPriority` (syslog.go:91-97) on a message of `rfc3164`**: its own struct changes, and what it depends on is what it depended on, or new. -/
theorem RepMsg.compute {X : Env0 E} (hp : X.prog = prog) (n : Nat) {w : W E} {b : Nat} {m : Base} (hr : RepMsg w b m) (v : UInt8) :
    ∃ w', call X (n + 1) .syslog_Base_ComputeFromPriority [.ptr b [], byteVal v] w = some (.ok (.tuple []) w') ∧ RepMsg w' b (m.computeFromPriority v) ∧ KeepsBut b w w' ∧
      ∀ x, x < w.next → Reaches w' b x → Reaches w b x := by
  obtain ⟨w', ty, fs, c, hc, e, e1, e2, k, hb⟩ := computeFromPriority_call hp n b m v w hr.base
  have hrep : RepMsg w' b (m.computeFromPriority v) := by
    refine ⟨hb, fun ty2 fs2 h2 => ?_⟩
    rw [e2] at h2
    injection h2 with _ h2
    subst h2
    simp [lookup_setField, hr.plain ty fs e1]
  refine ⟨w', e, hrep, k, fun x hx h => ?_⟩
  rcases hrep.reaches h with rfl | ⟨ty2, fs2, f, p, hf, g1, g2⟩
  · exact Or.inl (Or.inl rfl)
  · rw [e2] at g1
    injection g1 with _ g1
    subst g1
    simp only [lookup_setField] at g2
    repeat' split at g2
    all_goals first
      | exact Or.inr ⟨ty, fs, f, p, hf, e1, g2⟩
      | (simp only [Option.map_eq_some_iff, coerce_ptr] at g2
         obtain ⟨u, _, g2⟩ := g2
         injection g2 with g2 _
         omega)

/-- **`parser.Parse` (rfc3164/parser.go:32-45) with the generated `machine.Parse`, over memory**: the result of the model, its message in new variables;
everything that existed is as it was (the lock is free again). -/
theorem live_parseMem {X : Env0 E} (hX : ParserEnv X) {calls : Nm → List Val → M E Val} {left : W E → Go.GS Go.R3.V} (hM : ∀ args, X.call .rfc3164_machine_Parse args = parseGo calls left args)
    (hc : PackageOk calls) (n : Nat) {w : W E} {a mi : Nat} {o : Rfc3164.Opts} (h : Live kit3 w a mi o) (input : Bytes) :
    ∃ r m' v w', Rfc3164.parserParse o {} input = some (r, m') ∧ call X (n + 2) .rfc3164_parser_Parse [.ptr a [], .str input] w = some (.ok (.tuple [v, err3Val r.err]) w') ∧
      Keeps w w' ∧ Given w w' v r.msg := by
  obtain ⟨w1, hw1⟩ : ∃ w1 : W E, w1 = { w with heap := upd w.heap a (lockedVal .rfc3164_parser true mi) } := ⟨_, rfl⟩
  have hm1 : IsMach kit3 w1 mi o := by
    obtain ⟨fs, e, g⟩ := h.mach
    exact ⟨fs, by rw [hw1]; simp [Mini.upd, Ne.symm h.ne, e], g⟩
  have hn1 : w1.next = w.next := by rw [hw1]
  obtain ⟨res, v, w2, h1, h2, h3⟩ := parseGo_ok hc left hm1 (by rw [hn1]; exact h.mlt) input
  have hk2 : Keeps w1 w2 := by
    cases hres : res.msg with
    | none => rw [hres] at h3; exact h3.2
    | some m => rw [hres] at h3; exact h3.keeps
  have ha2 : w2.heap a = lockedVal .rfc3164_parser true mi := by
    rw [hk2.1 a (by rw [hn1]; exact h.lt), hw1]; simp
  obtain ⟨fs, e, g⟩ := hm1
  have hm2 : w2.heap mi = .struct .rfc3164_machine fs := by rw [hk2.1 mi (by rw [hn1]; exact h.mlt)]; exact e
  have hbe : fs.lookup .bestEffort = some (.bool o.bestEffort) := g _ _ (by simp [kit3])
  rw [hw1, ← hM] at h2
  have hcall := parser_returns hX (p := pkg3) (Or.inr rfl) n h.parser h2 ha2 hm2 hbe
  obtain ⟨w', hw'⟩ : ∃ w' : W E, w' = { w2 with heap := upd w2.heap a (lockedVal pkg3.parser false mi) } := ⟨_, rfl⟩
  rw [← hw'] at hcall
  have hn' : w'.next = w2.next := by rw [hw']
  have hk : Keeps w w' := by
    refine ⟨fun x hx => ?_, by rw [hn', ← hn1]; exact hk2.2.1, by rw [hw', hk2.2.2.1, hw1], by rw [hw', hk2.2.2.2, hw1]⟩
    by_cases hxa : x = a
    · subst hxa
      rw [hw', h.parser]; simp [kit3, pkg3]
    · rw [hw']
      show Mini.upd _ _ _ x = _
      rw [upd_ne _ _ hxa, hk2.1 x (by rw [hn1]; exact hx), hw1]
      exact upd_ne _ _ hxa
  have hother : ∀ x, x ≠ a → w'.heap x = w2.heap x := fun x hx => by rw [hw']; exact upd_ne _ _ hx
  have hgiven : Given w w' v res.msg := by
    cases hres : res.msg with
    | none => rw [hres] at h3; exact ⟨h3.1, hk⟩
    | some m =>
      rw [hres] at h3
      obtain ⟨_, b, rfl, hb1, hb2⟩ := h3
      rw [hn1] at hb2
      have hsame : ∀ x, Reaches w2 b x → w'.heap x = w2.heap x := fun x hx => hother x (fun hxa => by
        have := hb2 x hx; have := h.lt; omega)
      exact ⟨hk, b, rfl, hb1.congr (by omega) hsame, fun x hx => hb2 x (hb1.reaches_congr hsame hx)⟩
  have hp1 : Rfc3164.parse1 o input = (Rfc3164.parse o {} input).map fun r => r.1 := rfl
  rw [hp1] at h1
  cases hp : Rfc3164.parse o {} input with
  | none => rw [hp] at h1; cases h1
  | some q =>
    obtain ⟨⟨m, er⟩, mm⟩ := q
    rw [hp] at h1
    obtain rfl : (⟨m, er⟩ : Rfc3164.Result) = res := Option.some.inj h1
    simp only [Rfc3164.parserParse, hp]
    cases er with
    | none => exact ⟨_, _, v, w', rfl, hcall, hk, hgiven⟩
    | some e =>
      cases hb : o.bestEffort with
      | true =>
        rw [hb] at hcall
        exact ⟨⟨m, some e⟩, mm, v, w', rfl, hcall, hk, hgiven⟩
      | false =>
        rw [hb] at hcall
        exact ⟨⟨none, some e⟩, mm, .nil, w', rfl, hcall, hk, rfl, hk⟩

end Verif.Mini.Bsd
