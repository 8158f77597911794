import Verif.Octet.Spec
import Verif.Props.Octet

/-!
# C60: everything an octet counting parser emits

`Spec.Emits` (`Verif/Spec/OctetStream.lean`) says for every stream of bytes, in terms of the text alone, what the listener gets.
-/

namespace Verif.Props
open Verif.Spec Verif.Octet
open Verif.Rfc5424 (parse1 SyslogMessage)

theorem msgResult_alone (be : Bool) (m : Bytes) : msgResult be m = alone be m := rfl

/-- C60: for all options, for every stream of bytes and every way it is delivered (without a read error before its end), the listener gets
the results `rs` exactly if the specification says so. -/
theorem C60_every_stream (opts : List Opt) (hfit : Fits opts) (bytes : Bytes) (sched : List Read) (hs : Delivers sched bytes) (rs : List Result) :
    results opts sched = some rs ↔ Emits (isBestEffort opts) (maxLength opts) bytes rs := by
  rw [results_bytes opts hfit hs, emits_iff]
  exact ⟨fun h => Option.some.inj h, fun h => congrArg some h⟩

/-- C60: the specification leaves no choice and no gap. -/
theorem C60_one_outcome (be : Bool) (max : Int) (bytes : Bytes) : ∃ rs, Emits be max bytes rs ∧ ∀ rs', Emits be max bytes rs' → rs' = rs :=
  ⟨_, emits_iff.mpr rfl, fun _ h => (emits_iff.mp h).symm⟩

/-- C60: at least one result, and all but the last are outcomes of whole frames that parse (strict), or of whole frames (best effort). -/
theorem C60_shape {be : Bool} {max : Int} {bytes : Bytes} {rs : List Result} (h : Emits be max bytes rs) :
    ∃ l r, rs = l ++ [r] ∧ ∀ x ∈ l, ∃ m : Bytes, m.length ≤ bytes.length ∧ x = alone be m ∧ (be = true ∨ x.err = none) := by
  induction h with
  | noLen => exact ⟨[], _, rfl, by simp⟩
  | tooLong => exact ⟨[], _, rfl, by simp⟩
  | noSpace => exact ⟨[], _, rfl, by simp⟩
  | noMsg => exact ⟨[], _, rfl, by simp⟩
  | noMsgBest => exact ⟨[], _, rfl, by simp⟩
  | huge => exact ⟨[], _, rfl, by simp⟩
  | short => exact ⟨[], _, rfl, by simp⟩
  | wrong => exact ⟨[], _, rfl, by simp⟩
  | last => exact ⟨[], _, rfl, by simp⟩
  | @more x m rest rs hf hok _ _ _ ih =>
    obtain ⟨l, r, rfl, hl⟩ := ih
    obtain ⟨w, hw, -⟩ := hf
    have hle : m.length + rest.length ≤ x.length := by
      cases hw with
      | plain => simp only [List.length_cons, List.length_append]; omega
      | nul => simp only [List.length_cons, List.length_append]; omega
    refine ⟨_ :: l, r, rfl, ?_⟩
    intro y hy
    rcases List.mem_cons.mp hy with rfl | hy
    · exact ⟨m, by omega, rfl, hok⟩
    · obtain ⟨m', h1, h2⟩ := hl y hy
      exact ⟨m', by omega, h2⟩

/-! ## an example of each class -/

/-- no length, a letter in its place -/
example (rest : Bytes) : results [] (sched1 (120 :: rest)) = some [⟨none, some (.notMsgLen ⟨.ILLEGAL, [120]⟩)⟩] :=
  (C60_every_stream [] (by decide) _ _ (sched1_delivers _) _).mpr (.noLen (.other (by decide) (by decide) (by decide)) (by decide))

/-- too long -/
example (rest : Bytes) : results [.maxMessageLength 9] (sched1 (ascii "10 " ++ rest)) = some [⟨none, some (.tooLong 10 9)⟩] :=
  (C60_every_stream [.maxMessageLength 9] (by decide) _ _ (sched1_delivers _) _).mpr
    (.tooLong (w := ascii "10") (rest := 32 :: rest) (.plain (c := 49) (w := [48]) (by decide) (by decide)
      (by rintro b t h; simp at h; obtain ⟨rfl, rfl⟩ := h; decide)) (by decide +kernel))

/-- a NUL instead of the space is skipped, the message is not -/
example (rest : Bytes) : results [] (sched1 (ascii "10" ++ 0 :: 60 :: rest)) = some [⟨none, some (.notWS ⟨.ILLEGAL, [60]⟩)⟩] :=
  (C60_every_stream [] (by decide) _ _ (sched1_delivers _) _).mpr
    (.noSpace (w := ascii "10") (rest := 60 :: rest) (.nul (c := 49) (w := [48]) (by decide) (by decide)) (by decide +kernel)
      (.other (by decide) (by decide) (by decide)) (by decide))

/-- a number in the place of the message: the error speaks of it -/
example : results [] (sched1 (ascii "10 7")) = some [⟨none, some (.notMsg ⟨.MSGLEN, ascii "7"⟩ 7)⟩] :=
  (C60_every_stream [] (by decide) _ _ (sched1_delivers _) _).mpr
    (.noMsg (w := ascii "10") (rest := ascii "7") (.plain (c := 49) (w := [48]) (by decide) (by decide)
        (by rintro b t h; simp at h; obtain ⟨rfl, rfl⟩ := h; decide)) (by decide +kernel)
      (.len (.plain (c := 55) (w := []) (rest := []) (by decide) (by simp) (by simp))) (Or.inr (by decide)) (by decide +kernel)
      (Or.inl rfl))

/-- a length that is no `int` -/
example (rest : Bytes) : results [] (sched1 (ascii "9223372036854775808 <" ++ rest)) =
    some [⟨none, some (.notMsg ⟨.EOF, []⟩ 9223372036854775808)⟩] :=
  (C60_every_stream [] (by decide) _ _ (sched1_delivers _) _).mpr
    (.huge (w := ascii "9223372036854775808") (rest := rest)
      (.plain (c := 57) (w := ascii "223372036854775808") (by decide) (by decide)
        (by rintro b t h; simp at h; obtain ⟨rfl, rfl⟩ := h; decide)) (by decide +kernel) (by decide +kernel))

/-- a wrong message ends strict parsing, whatever follows -/
example (rest : Bytes) : results [] (sched1 (octetFrame msgBad ++ rest)) = some [⟨none, (alone false msgBad).err⟩] ∧
    (alone false msgBad).err ≠ none := by
  have he : (alone false msgBad).err = some (.message ⟨.timestamp, 5⟩) := by decide +kernel
  refine ⟨?_, by rw [he]; simp⟩
  rw [he]
  refine (C60_every_stream [] (by decide) _ _ (sched1_delivers _) _).mpr ?_
  have hb : isBestEffort [] = false := rfl
  have he' : (msgResult false msgBad).err = some (.message ⟨.timestamp, 5⟩) := by rw [msgResult_alone]; exact he
  rw [hb]
  refine .wrong (m := msgBad) (rest := rest) ?_ rfl he'
  have ht : octetFrame msgBad ++ rest = 54 :: ([] ++ 32 :: (msgBad ++ rest)) := by
    rw [show octetFrame msgBad = 54 :: 32 :: msgBad by decide +kernel]; simp
  rw [ht]
  refine ⟨[54], .plain (c := 54) (w := []) (by decide) (by simp) ?_, by decide +kernel, rfl, by decide, by decide +kernel⟩
  · rintro b t h; simp at h; rw [← h.1]; decide

end Verif.Props
