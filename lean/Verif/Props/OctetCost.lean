import Verif.Octet.Cost
import Verif.Props.OctetStream

/-!
# C84, C85: the memory and the time that octet counting takes

C84: what is retained of a stream is bounded by the configured maximum — but not the text of a length. C85: the work is linear in the stream.
-/

namespace Verif.Props
open Verif.Spec Verif.Octet
open Verif.Octet (Read)

/-- a parser made with `opts`, after any number of calls of `Parse` -/
inductive Used (opts : List Opt) : Parser → Prop
  | new : Used opts (newParser opts)
  | again {p p' : Parser} {sched : List Read} {rs : List Result} : Used opts p → p.parse sched = some (rs, p') → Used opts p'

theorem used_idle {opts : List Opt} {p : Parser} (h : Used opts p) : Idle (isBestEffort opts) (maxLength opts) p := by
  induction h with
  | new => exact idle_new opts
  | @again p p' sched rs _ he ih =>
    obtain ⟨p1, h1, h2⟩ := parse_idle_cap ih sched
    rw [he] at h1
    simp only [Option.some.injEq, Prod.mk.injEq] at h1
    rw [h1.2]; exact h2

/-- the number of bytes that the reader delivers -/
def size (sched : List Read) : Nat := (sched.flatMap Read.data).length

theorem pending_size (sched : List Read) : pending sched = size sched + sched.length := by
  induction sched with
  | nil => rfl
  | cons r rs ih => rw [pending_cons, ih]; simp [size]; omega

theorem new_ok (sched : List Read) (max : Int) : (newScanner sched max).r.Ok ∧ (newScanner sched max).r.cap = bufSize max ∧
    (newScanner sched max).r.left = sched.flatMap Read.data ∧ (newScanner sched max).r.sched = sched := by
  refine ⟨⟨?_, Nat.zero_le _⟩, rfl, rfl, rfl⟩
  show 1 ≤ bufSize max
  unfold bufSize; split <;> omega

/-- C85: the work of `Parse`, whatever the reader delivers and in whatever pieces: linear in the number of bytes and of `Read` calls, plus
the buffer, once and once for every backslash in the stream. -/
theorem C85_bound (opts : List Opt) (p : Parser) (hp : Used opts p) (sched : List Read) :
    p.parseCost sched ≤ 154 * size sched + 4 * sched.length + bufSize (maxLength opts) * ((sched.flatMap Read.data).count 92 + 1) + 200 := by
  have hi := used_idle hp
  obtain ⟨h1, h2, h3, h4⟩ := new_ok sched (maxLength opts)
  unfold Parser.parseCost
  rw [hi.hmax]
  have h := costRun_le ((newScanner sched (maxLength opts)).r.remaining + 1) { p with s := newScanner sched (maxLength opts) }
    (bufSize (maxLength opts)) h1 h2
  have h' : costRun ((newScanner sched (maxLength opts)).r.remaining + 1) { p with s := newScanner sched (maxLength opts) } ≤
      150 * (newScanner sched (maxLength opts)).r.left.length + 4 * pending (newScanner sched (maxLength opts)).r.sched +
        bufSize (maxLength opts) * (newScanner sched (maxLength opts)).r.left.count 92 + 200 + if p.stepback then p.last.lit.length else 0 := h
  rw [h3, h4, pending_size] at h'
  have hs0 : (if p.stepback then p.last.lit.length else 0) = 0 := by rw [hi.step]; rfl
  rw [hs0] at h'
  show (newScanner sched (maxLength opts)).r.cap + _ ≤ _
  rw [h2]
  rw [hi.hmax] at h'
  have e : (sched.flatMap Read.data).length = size sched := rfl
  rw [e] at h'
  rw [Nat.mul_add]
  omega

/-- C85: hence for a given maximum it is linear, whatever is in the messages. -/
theorem C85_linear (opts : List Opt) (hm : 0 ≤ maxLength opts) (hfit : Fits opts) (p : Parser) (hp : Used opts p) (sched : List Read) :
    p.parseCost sched ≤ ((maxLength opts).toNat + 174) * (size sched + 1) + 4 * sched.length + 200 := by
  have h := C85_bound opts p hp sched
  have hb : bufSize (maxLength opts) = (maxLength opts).toNat + 20 := by
    unfold Fits at hfit
    unfold bufSize wrapInt; split <;> omega
  have hc : (sched.flatMap Read.data).count 92 ≤ size sched := List.count_le_length
  rw [hb] at h
  have := Nat.mul_le_mul_left ((maxLength opts).toNat + 20) (Nat.add_le_add_right hc 1)
  have e : ((maxLength opts).toNat + 174) * (size sched + 1) = ((maxLength opts).toNat + 20) * (size sched + 1) + 154 * (size sched + 1) := by
    rw [← Nat.add_mul]
  omega

/-- C85: without a backslash the maximum matters for the buffer alone. -/
theorem C85_without_escapes (opts : List Opt) (p : Parser) (hp : Used opts p) (sched : List Read) (h : 92 ∉ sched.flatMap Read.data) :
    p.parseCost sched ≤ 154 * size sched + 4 * sched.length + bufSize (maxLength opts) + 200 := by
  have := C85_bound opts p hp sched
  rw [List.count_eq_zero.mpr h] at this
  omega

/-! ## Memory -/

/-- what a parser goes through during `Parse`: it takes the next token, puts one back, or parses a message -/
inductive During : Parser → Parser → Prop
  | start {p : Parser} : During p p
  | scan {p q : Parser} : During p q → During p q.scan.2
  | unscan {p q : Parser} : During p q → During p q.unscan
  | parse {p q q' : Parser} {input : Bytes} {r : Result} : During p q → q.parseMsg input = some (r, q') → During p q'

/-- nothing else happens: where `Parse` ends is one of these states -/
theorem during_run (p0 : Parser) (fuel : Nat) (p : Parser) (hd : During p0 p) {rs : List Result} {p' : Parser} (h : runLoop fuel p = some (rs, p')) : During p0 p' := by
  induction fuel generalizing p rs p' with
  | zero => simp [runLoop] at h
  | succ fuel ih =>
    rw [runLoop] at h
    have d1 := hd.scan
    generalize p.scan = x at *
    obtain ⟨t1, p1⟩ := x
    simp only at d1 h
    split at h
    · simp only [Option.some.injEq, Prod.mk.injEq] at h; rw [← h.2]; exact d1
    split at h
    · simp only [Option.some.injEq, Prod.mk.injEq] at h; rw [← h.2]; exact d1
    have d2 := d1.scan
    generalize p1.scan = x at *
    obtain ⟨t2, p2⟩ := x
    simp only at d2 h
    split at h
    · simp only [Option.some.injEq, Prod.mk.injEq] at h; rw [← h.2]; exact d2
    have d3 := d2.scan
    generalize p2.scan = x at *
    obtain ⟨t3, p3⟩ := x
    simp only at d3 h
    split at h
    · split at h
      · split at h
        · simp at h
        · next he =>
          simp only [Option.some.injEq, Prod.mk.injEq] at h; rw [← h.2]; exact d3.parse he
      · simp only [Option.some.injEq, Prod.mk.injEq] at h; rw [← h.2]; exact d3
    · split at h
      · simp at h
      · next p4 he =>
        have d4 := d3.parse he
        split at h
        · simp only [Option.some.injEq, Prod.mk.injEq] at h; rw [← h.2]; exact d4
        · have d5 := d4.scan
          generalize p4.scan = x at *
          obtain ⟨t5, p5⟩ := x
          simp only at d5 h
          split at h
          · simp only [Option.some.injEq, Prod.mk.injEq] at h; rw [← h.2]; exact d5
          · split at h
            · simp at h
            · next he' =>
              simp only [Option.some.injEq, Prod.mk.injEq] at h
              exact h.2 ▸ ih _ d5.unscan he'

/-- C84: where `Parse` ends is one of the states of `C84_bounded`. -/
theorem C84_covers (p : Parser) (sched : List Read) {rs : List Result} {p' : Parser} (h : p.parse sched = some (rs, p')) :
    During { p with s := newScanner sched p.maxMessageLength } p' :=
  during_run _ _ _ .start h

/-- C84: at every moment of `Parse`, whatever the reader delivers, at most as many bytes are buffered as the maximum plus 20 (or 16), and
the last token, which is kept, is not longer — unless it is a length. -/
theorem C84_bounded (opts : List Opt) (sched : List Read) (p : Parser)
    (h : During { newParser opts with s := newScanner sched (maxLength opts) } p) :
    p.s.r.q.length ≤ bufSize (maxLength opts) ∧ (p.last.lit.length ≤ bufSize (maxLength opts) ∨ p.last.typ = .MSGLEN) := by
  suffices h : p.s.r.Ok ∧ p.s.r.cap = bufSize (maxLength opts) ∧ (p.last.lit.length ≤ bufSize (maxLength opts) ∨ p.last.typ = .MSGLEN) from
    ⟨h.2.1 ▸ h.1.2, h.2.2⟩
  generalize hp0 : ({ newParser opts with s := newScanner sched (maxLength opts) } : Parser) = p0 at h
  induction h with
  | start =>
    subst hp0
    obtain ⟨h1, h2, -, -⟩ := new_ok sched (maxLength opts)
    refine ⟨h1, h2, Or.inl ?_⟩
    have key : ∀ (p : Parser), (opts.foldl applyOpt p).last = p.last := by
      clear h1 h2
      induction opts with
      | nil => intro p; rfl
      | cons o os ih => intro p; rw [List.foldl_cons, ih]; cases o <;> rfl
    show (opts.foldl applyOpt {}).last.lit.length ≤ _
    rw [key]; exact Nat.zero_le _
  | @scan q _ ih =>
    obtain ⟨i1, i2, i3⟩ := ih
    obtain ⟨u, a1, a2, -, -, -, a6, a7, a8, -⟩ := pscan_cost q i1
    refine ⟨a1, a2.trans i2, ?_⟩
    rw [a6]
    cases hs : q.stepback with
    | true => rw [(a7 hs).2]; exact i3
    | false =>
      by_cases ht : q.scan.1.typ = .MSGLEN
      · exact Or.inr ht
      · rw [← i2]; exact Or.inl ((a8 hs).1.1 ht)
  | unscan _ ih => exact ih
  | @parse q q' input r _ he ih =>
    have e : q'.s = q.s ∧ q'.last = q.last := by
      unfold Parser.parseMsg at he
      split at he
      · simp at he
      · simp only [Option.some.injEq, Prod.mk.injEq] at he
        rw [← he.2]; exact ⟨rfl, rfl⟩
    rw [e.1, e.2]; exact ih

/-- C84: the size of that buffer. -/
theorem C84_buffer (opts : List Opt) (hm : 0 ≤ maxLength opts) (hfit : Fits opts) : bufSize (maxLength opts) = (maxLength opts).toNat + 20 := by
  unfold Fits at hfit
  unfold bufSize wrapInt; split <;> omega

/-- `n` digits -/
def ones (n : Nat) : Bytes := List.replicate n 49

/-- C84: the text of a length is collected, and reported, however long it is and whatever the maximum: `1 111…1` -/
theorem C84_length_text (opts : List Opt) (hbe : isBestEffort opts = false) (hm : 1 ≤ maxLength opts) (hfit : Fits opts) (n : Nat) (sched : List Read)
    (hs : Delivers sched ([49, 32] ++ ones (n + 1))) :
    results opts sched = some [⟨none, some (.notMsg ⟨.MSGLEN, ones (n + 1)⟩ (lenValue (ones (n + 1))))⟩] := by
  rw [C60_every_stream opts hfit _ sched hs, hbe]
  have hd : Digit 49 := by decide
  have ht : LenText (ones (n + 1)) (ones (n + 1)) [] := by
    have := LenText.plain (w := ones n) (rest := []) hd (by
      intro b hb
      rw [ones, List.mem_replicate] at hb
      rw [hb.2]; decide) (by simp)
    simpa [ones, List.replicate_succ] using this
  have h1 : lenValue [49] = 1 := by decide
  refine .noMsg (w := [49]) (rest := ones (n + 1)) ?_ ?_ (.len ht) (Or.inr ?_) ?_ (Or.inl rfl)
  · exact LenText.plain (w := []) (rest := 32 :: ones (n + 1)) hd (by simp) (by
      intro b t h
      simp only [List.cons.injEq] at h
      rw [← h.1]; decide)
  · rw [h1]; show (1 : Int) ≤ _; exact hm
  · simp [ones, List.replicate_succ]
  · simp

/-- C84: so no bound that depends on the options alone holds for what is reported. -/
theorem C84_unbounded (opts : List Opt) (hbe : isBestEffort opts = false) (hm : 1 ≤ maxLength opts) (hfit : Fits opts) (bound : Nat) :
    ∃ sched rs tok n, results opts sched = some rs ∧ ⟨none, some (.notMsg tok n)⟩ ∈ rs ∧ bound < tok.lit.length :=
  ⟨sched1 ([49, 32] ++ ones (bound + 1)), _, ⟨.MSGLEN, ones (bound + 1)⟩, lenValue (ones (bound + 1)), C84_length_text opts hbe hm hfit bound _ (sched1_delivers _), by simp, by simp [ones]⟩

/-! The hypotheses are met. -/

/-- the standard options, on `1 1111`, byte by byte -/
example : results [] (sched1 ([49, 32] ++ ones 4)) = some [⟨none, some (.notMsg ⟨.MSGLEN, ones 4⟩ 1111)⟩] :=
  (C84_length_text [] (by decide) (by decide) (by decide) 3 _ (sched1_delivers _)).trans (by decide +kernel)

example : isBestEffort [] = false ∧ 1 ≤ maxLength [] ∧ Fits [] ∧ isBestEffort [.maxMessageLength 1] = false ∧ 1 ≤ maxLength [.maxMessageLength 1] := by decide

/-- a parser that has parsed a stream -/
example : ∃ p, Used [.bestEffort] p ∧ p.parseCost [⟨ascii "5 <1>1 ", false⟩, ⟨[], false⟩] ≤ 154 * 7 + 4 * 2 + 8212 + 200 := by
  obtain ⟨p', h, -⟩ := parse_idle_cap (idle_new [.bestEffort]) [⟨ascii "12 <1>1", true⟩]
  exact ⟨p', .again .new h, C85_without_escapes [.bestEffort] p' (.again .new h) _ (by decide)⟩

end Verif.Props
