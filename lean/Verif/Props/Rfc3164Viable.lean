import Verif.Props.Rfc3164Errors

/-!
# C80: the reported column is where the input stops being the beginning of a message (RFC 3164)
-/

namespace Verif.Props.Bsd
open Verif.Spec Verif.Spec.Bsd Verif.Rfc3164

theorem take_append_len {a b : Bytes} {n : Nat} : (a ++ b).take (a.length + n) = a ++ b.take n := List.take_length_add_append n

/-- a well-formed message that begins with `<PRI>`, a timestamp, a space and some beginning of `HOSTNAME ` -/
theorem begins {o : Opts} {pri : Nat} {w : When} {host : Bytes} (h1 : pri ≤ 191) (h2 : w.WF o.rfc3339) (h3 : NameWF 255 host) :
    ∃ m, parse1 { o with bestEffort := false } (priText pri ++ w.render ++ [32] ++ host ++ [32] ++ [120]) = some ⟨some m, none⟩ := by
  have hr : Reads [120] [] [] [120] := by
    refine .plain (by simp) (by decide) ?_
    intro tag r ht
    obtain ⟨hne, -, hb⟩ := ht
    cases tag with
    | nil => exact absurd rfl hne
    | cons b t => constructor <;> (intro h; have := congrArg List.length h; simp at this)
  have := accepts { o with bestEffort := false } (p := ⟨pri, w, host, [120], [], [], [120]⟩) ⟨h1, h2, h3, hr⟩
  rw [show priText pri ++ w.render ++ [32] ++ host ++ [32] ++ [120] =
    (⟨pri, w, host, [120], [], [], [120]⟩ : Bsd.Parts).render by simp [Bsd.Parts.render, priText]]
  exact ⟨_, this⟩

theorem someWhen (o : Opts) : ∃ w : When, w.WF o.rfc3339 := ⟨.bsd ⟨1, 1, 0, 0, 0⟩, by simp [When.WF, BStamp.WF, BStamp.Real]⟩

/-- C80: the text before the reported column is the beginning of some message that is accepted (in strict mode, with the other options the
same), and, if the column is not the end of the input, no text that begins with the bytes up to and including that column is. Exceptions:
an impossible date, which is reported after it, and malformed timestamps (`C80_timestamp`). -/
theorem C80_column_is_longest_viable_prefix (o : Opts) (input : Bytes) (msg : Option Base) (e : Err)
    (h : parse1 o input = some ⟨msg, some e⟩) :
    (e.kind ∉ [.timestamp, .rfc3339, .timeParse] →
      ∃ t m, parse1 { o with bestEffort := false } (input.take e.col ++ t) = some ⟨some m, none⟩) ∧
    (e.col < input.length → ∀ t m, parse1 o (input.take (e.col + 1) ++ t) ≠ some ⟨some m, none⟩) := by
  constructor
  · intro hk
    obtain ⟨w0, hw0⟩ := someWhen o
    have hx : NameWF 255 [120] := by decide
    rcases (C59_every_outcome o input _).mp h with ⟨p, -, -, hr⟩ | ⟨e', m, hb, hr⟩
    · simp at hr
    · obtain ⟨k, c⟩ := e
      simp only [Result.mk.injEq] at hr
      have he : e' = some (k, c) := by
        cases e' with
        | none => simp at hr
        | some x => obtain ⟨a, b⟩ := x; simp at hr; rw [hr.2.1, hr.2.2]
      subst he
      simp only [List.mem_cons, List.not_mem_nil, or_false, not_or] at hk ⊢
      generalize hz : some (k, c) = z at hb
      cases hb with
      | noLt hn =>
        simp only [Option.some.injEq, Prod.mk.injEq] at hz
        obtain ⟨rfl, rfl⟩ := hz
        obtain ⟨m, hm⟩ := begins (o := o) (pri := 0) (by omega) hw0 hx
        exact ⟨_, m, hm⟩
      | @noPri x n hf _ =>
        simp only [Option.some.injEq, Prod.mk.injEq] at hz
        obtain ⟨rfl, rfl⟩ := hz
        obtain ⟨t, p, hp, ht⟩ := hf.viable
        obtain ⟨m, hm⟩ := begins (o := o) hp hw0 hx
        refine ⟨t ++ (w0.render ++ [32] ++ [120] ++ [32] ++ [120]), m, ?_⟩
        rw [← hm, Nat.add_comm, List.take_succ_cons, List.cons_append, ← List.append_assoc, ht]
        simp [priText]
      | @pri x n k' hf _ =>
        simp only [Option.some.injEq, Prod.mk.injEq] at hz
        obtain ⟨rfl, rfl⟩ := hz
        obtain ⟨t, p, hp, ht⟩ := hf.viable
        obtain ⟨m, hm⟩ := begins (o := o) hp hw0 hx
        refine ⟨t ++ (w0.render ++ [32] ++ [120] ++ [32] ++ [120]), m, ?_⟩
        rw [← hm, Nat.add_comm, List.take_succ_cons, List.cons_append, ← List.append_assoc, ht]
        simp [priText]
      | timestamp => simp only [Option.some.injEq, Prod.mk.injEq] at hz; exact absurd hz.1 hk.1
      | isoZone => simp only [Option.some.injEq, Prod.mk.injEq] at hz; exact absurd hz.1 hk.2.1
      | noSuchDay => simp only [Option.some.injEq, Prod.mk.injEq] at hz; exact absurd hz.1 hk.2.2
      | @hostname pri w x n hp hw hf =>
        simp only [Option.some.injEq, Prod.mk.injEq] at hz
        obtain ⟨rfl, rfl⟩ := hz
        obtain ⟨t, host, hh, ht⟩ := hf.viable
        obtain ⟨m, hm⟩ := begins (o := o) hp hw hh
        refine ⟨t ++ [120], m, ?_⟩
        rw [← hm, show (priText pri ++ w.render).length + 1 + n = (priText pri ++ w.render ++ [32]).length + n by
          simp only [List.length_append, List.length_singleton], take_append_len, List.append_assoc _ (x.take n), ← List.append_assoc (x.take n), ht]
        simp
      | @tag pri w host x hp hw hh _ =>
        simp only [Option.some.injEq, Prod.mk.injEq] at hz
        obtain ⟨rfl, rfl⟩ := hz
        obtain ⟨m, hm⟩ := begins (o := o) hp hw hh
        refine ⟨[120], m, ?_⟩
        rw [← hm, List.take_left' (by simp only [List.length_append, List.length_singleton])]
      | noIso => simp at hz
      | noSpace => simp at hz
      | msg => simp at hz
  · intro hc t m h'
    have := C38_error_decided_by_prefix o input (input.take (e.col + 1) ++ t) msg e h hc (by
      rw [List.take_append_of_le_length (by simp; omega), List.take_take, Nat.min_self])
    rw [h'] at this; simp at this

/-- C80, malformed timestamps: the text before the column is the beginning of `<PRI>` and a syntactically correct timestamp. -/
theorem C80_timestamp (o : Opts) (input : Bytes) (msg : Option Base) (e : Err)
    (h : parse1 o input = some ⟨msg, some e⟩) (hk : e.kind = .timestamp ∨ e.kind = .rfc3339) :
    ∃ (pri : Nat) (w : When) (t : Bytes), pri ≤ 191 ∧ w.Text o.rfc3339 ∧ input.take e.col ++ t = priText pri ++ w.render := by
  rcases (C59_every_outcome o input _).mp h with ⟨p, -, -, hr⟩ | ⟨e', m, hb, hr⟩
  · simp at hr
  · obtain ⟨k, c⟩ := e
    simp only [Result.mk.injEq] at hr
    have he : e' = some (k, c) := by
      cases e' with
      | none => simp at hr
      | some x => obtain ⟨a, b⟩ := x; simp at hr; rw [hr.2.1, hr.2.2]
    subst he
    simp only at hk ⊢
    generalize hz : some (k, c) = z at hb
    cases hb with
    | @timestamp pri x n hp _ hf =>
      simp only [Option.some.injEq, Prod.mk.injEq] at hz
      obtain ⟨rfl, rfl⟩ := hz
      obtain ⟨t, s, hs, ht⟩ := hf.viable
      exact ⟨pri, .bsd s, t, hp, hs, by rw [take_append_len, List.append_assoc, ht]; rfl⟩
    | @isoZone pri x n hp hi _ hf =>
      simp only [Option.some.injEq, Prod.mk.injEq] at hz
      obtain ⟨rfl, rfl⟩ := hz
      obtain ⟨t, s, hs, hfr, ht⟩ := hf.viable
      exact ⟨pri, .iso s, t, hp, ⟨hi, hs, hfr⟩, by rw [take_append_len, List.append_assoc, ht]; rfl⟩
    | _ => simp only [Option.some.injEq, Prod.mk.injEq, reduceCtorEq] at hz <;> (obtain ⟨rfl, -⟩ := hz; simp at hk)

/-- C80: cutting an accepted message anywhere gives an accepted message, an error whose column is the length of what is left, or (if what
is left is `Silent`, C32) no error and at most a partial message; never an error elsewhere. -/
theorem C80_truncation (o : Opts) (hb : o.bestEffort = false) (u v : Bytes) (m : Base)
    (h : parse1 o (u ++ v) = some ⟨some m, none⟩) :
    (∃ m', parse1 o u = some ⟨some m', none⟩) ∨ (∃ kind, parse1 o u = some ⟨none, some ⟨kind, u.length⟩⟩) ∨
    (Silent o.rfc3339 u ∧ parse1 o u = some ⟨none, none⟩) := by
  by_cases hs : Silent o.rfc3339 u
  · exact Or.inr (Or.inr ⟨hs, (C32_nil_nil_iff o hb u).mpr hs⟩)
  · rcases C32_otherwise_exactly_one o hb u hs with h1 | ⟨e, h1⟩
    · exact Or.inl h1
    · refine Or.inr (Or.inl ?_)
      have h13 := C38_column_in_range _ _ _ _ h1
      by_cases hc : e.col < u.length
      · have := C38_error_decided_by_prefix _ u (u ++ v) _ e h1 hc (List.take_append_of_le_length (by omega))
        rw [h] at this; simp at this
      · obtain ⟨k, c⟩ := e
        have : c = u.length := by simp only at h13 hc; omega
        subst this
        exact ⟨k, h1⟩

/-- an error in the middle; the exceptions are real; a message cut in its hostname and after its timestamp -/
example : parse1 {} (ascii "<34>Oct 11 22:14:15 ho\tst x") = some ⟨none, some ⟨.hostname, 22⟩⟩ ∧
    parse1 {} (ascii "<34>Feb 30 22:14:15 h") = some ⟨none, some ⟨.timeParse, 19⟩⟩ ∧
    parse1 {} (ascii "<34>Feb 30x") = some ⟨none, some ⟨.timestamp, 10⟩⟩ ∧
    parse1 {} (ascii "<34>Oct 11 22:14:15 ho") = some ⟨none, some ⟨.hostname, 22⟩⟩ ∧
    parse1 {} (ascii "<34>Oct 11 22:14:15") = some ⟨none, none⟩ ∧
    (parse1 {} (ascii "<34>Oct 11 22:14:15 host x")).map (fun r => r.msg.isSome) = some true := by decide +kernel

end Verif.Props.Bsd
