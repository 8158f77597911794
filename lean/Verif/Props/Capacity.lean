import Verif.Testing
import Verif.Props.Octet
import Verif.Props.Builder
import Verif.Props.Rfc5424Errors
import Verif.Rfc5424.Abnf

/-!
# C96, C97: how long messages get; the helpers of package testing
-/

namespace Verif.Props
open Verif.Spec Verif.Octet
open Verif.Rfc5424 (parse1 SyslogMessage)

/-! ## C96 -/

theorem dec_length_191 {n : Nat} (h : n ≤ 999) : (dec n).length ≤ 3 := by
  rcases (by omega : n < 10 ∨ (10 ≤ n ∧ n < 100) ∨ (100 ≤ n ∧ n < 1000)) with h | h | h
  · rw [dec_lt h]; simp
  · rw [Verif.Rfc5424.dec_two h.1 h.2]; simp
  · rw [Verif.Rfc5424.dec_three h.1 h.2]; simp

theorem d2_length (n : Nat) : (d2 n).length = 2 := rfl
theorem d4_length (n : Nat) : (d4 n).length = 4 := rfl

theorem stamp_max {s : Stamp} (h : s.WF) : s.render.length ≤ 32 := by
  have h1 : (fracRender s.frac).length ≤ 7 := by
    have := h.2.2.2.2.2.2.2.2.1
    cases hf : s.frac with
    | nil => simp [fracRender]
    | cons a l => rw [hf] at this; simp [fracRender] at this ⊢; omega
  have h2 : s.zone.render.length ≤ 6 := by
    cases s.zone with
    | utc => simp [Zone.render]
    | num a b c => simp [Zone.render, d2_length]
  simp only [Stamp.render, List.length_append, List.length_cons, d2_length, d4_length]
  omega

theorem field_max {k : Nat} {f : Option Bytes} (h : FieldWF k f) (hk : 1 ≤ k) : (fieldText f).length ≤ k := by
  cases f with
  | none => simpa [fieldText] using hk
  | some w => exact h.1.2.1

/-- C96: everything before STRUCTURED-DATA has at most 509 bytes. -/
theorem C96_header (p : Parts) (hp : p.WF) : p.render.length ≤ 509 + (sdText p.sd).length + (msgText p.msg).length := by
  have h1 := dec_length_191 (n := p.pri) (by have := hp.pri; omega)
  have h2 := dec_length_191 hp.version.2
  have h3 : (tsText p.timestamp).length ≤ 32 := by
    cases h : p.timestamp with
    | none => simp [tsText]
    | some s => exact stamp_max (hp.timestamp s h).1
  have h4 := field_max hp.hostname (by omega)
  have h5 := field_max hp.appname (by omega)
  have h6 := field_max hp.procID (by omega)
  have h7 := field_max hp.msgID (by omega)
  simp only [Parts.render, List.length_append, List.length_cons]
  omega

/-- C96: messages without structured data, whose texts are shorter than the maximum by at least 511 bytes, get through, whatever is in the other
fields: with the default maximum of 8192 the texts may have 7681 bytes. -/
theorem C96_fits (opts : List Opt) (hfit : Fits opts) (ps : List Parts) (hne : ps ≠ [])
    (h : ∀ p ∈ ps, p.WF ∧ p.sd = [] ∧ ∀ w, p.msg = some w → ((w.length + 511 : Nat) : Int) ≤ maxLength opts) (h511 : 511 ≤ maxLength opts)
    (sched : List Read) (hs : Delivers sched ((ps.map Parts.render).flatMap octetFrame)) :
    results opts sched = some (ps.map fun p => ⟨some p.toMessage, none⟩) := by
  have := C39_round_trip opts hfit (ps.map fun p => (p.render, p.toMessage)) (by simpa using hne) ?_ ?_ sched (by
    rw [List.map_map]; exact hs)
  · rw [this, List.map_map]; rfl
  · intro x hx
    obtain ⟨p, hp, rfl⟩ := List.mem_map.mp hx
    exact (C57_every_outcome false false _ _).mpr (Or.inl ⟨p, (h p hp).1, rfl, by simp, rfl⟩)
  · intro x hx
    obtain ⟨p, hp, rfl⟩ := List.mem_map.mp hx
    obtain ⟨h1, h2, h3⟩ := h p hp
    have hl := C96_header p h1
    rw [h2] at hl
    have e : (p.render.length : Int) ≤ maxLength opts := by
      cases hm : p.msg with
      | none => rw [hm] at hl; simp [sdText, msgText] at hl; omega
      | some w => have := h3 w hm; rw [hm] at hl; simp [sdText, msgText] at hl; omega
    refine ⟨e, ?_⟩
    have := hfit
    unfold Fits at this
    simp only at e ⊢
    omega

/-- the message with all fields but the structured data as long as possible -/
def longest (w : Bytes) : Parts :=
  { pri := 191, version := 999, timestamp := some ⟨2018, 12, 31, 23, 59, 59, [9, 9, 9, 9, 9, 9], .num true 23 59⟩
    hostname := some (List.replicate 255 97), appname := some (List.replicate 48 97), procID := some (List.replicate 128 97)
    msgID := some (List.replicate 32 97), sd := [], msg := some w }

theorem longest_wf (w : Bytes) : (longest w).WF := by
  have hf : ∀ n, 1 < n → FieldWF n (some (List.replicate n 97)) := by
    intro n hn
    refine ⟨⟨?_, by simp, ?_⟩, ?_⟩
    · intro h; have := congrArg List.length h; simp at this; omega
    · intro b hb; rw [(List.mem_replicate.mp hb).2]; decide
    · intro h; have := congrArg List.length h; simp at this; omega
  refine ⟨show 191 ≤ 191 by omega, show 1 ≤ 999 ∧ 999 ≤ 999 by omega, ?_, hf _ (by omega), hf _ (by omega), hf _ (by omega), hf _ (by omega),
    fun e he => absurd he (List.not_mem_nil), List.nodup_nil⟩
  intro s hs
  have hs := Option.some.inj hs
  subst hs
  refine ⟨?_, by decide +kernel⟩
  simp only [Stamp.WF, Zone.WF]
  decide

theorem longest_length (w : Bytes) : (longest w).render.length = 511 + w.length := by
  have h1 : (dec 191).length = 3 := by decide +kernel
  have h2 : (dec 999).length = 3 := by decide +kernel
  have h3 : (tsText (longest w).timestamp).length = 32 := show (tsText (longest []).timestamp).length = 32 by decide +kernel
  simp only [Parts.render, List.length_append, List.length_cons, h3]
  simp only [longest, h1, h2, fieldText, Option.getD_some, List.length_replicate, sdText, msgText, List.length_cons, List.length_nil]
  omega

/-- C96: the bound is sharp: longer texts do not get through if the other fields are as long as possible. -/
theorem C96_sharp (opts : List Opt) (hfit : Fits opts) (w : Bytes) (hw : maxLength opts < ((w.length + 511 : Nat) : Int))
    (sched : List Read) (hs : Delivers sched (octetFrame (longest w).render)) :
    (longest w).WF ∧ (longest w).sd = [] ∧ ∃ e, results opts sched = some [⟨none, some e⟩] := by
  refine ⟨longest_wf w, rfl, ?_⟩
  refine C43_too_long_refused opts hfit (dec (longest w).render.length) (32 :: (longest w).render) (dec_digits _) (dec_ne_nil _) ?_ sched hs
  rw [numVal_dec, longest_length]
  omega

example : maxLength [] = 8192 := by decide +kernel
example : (longest (List.replicate 7681 97)).render.length = 8192 := by rw [longest_length, List.length_replicate]

/-! ## C97 -/
open Verif.Testing

/-- the `k`-th group of six bits delivered by the source: ten groups from each number -/
def group (src : Nat → Nat) (k : Nat) : Nat := src (k / 10) / 64 ^ (k % 10) % 64

/-- the letters that the first `r` groups stand for, in the order of delivery (groups from 52 up stand for none) -/
def letters (src : Nat → Nat) (r : Nat) : Bytes := (List.range r).filterMap fun k => letterBytes[group src k]?

theorem letters_succ (src : Nat → Nat) (r : Nat) :
    letters src (r + 1) = letters src r ++ (letterBytes[group src r]?).toList := by
  simp only [letters, List.range_succ, List.filterMap_append]
  cases h : letterBytes[group src r]? <;> simp [List.filterMap, h]

theorem letters_mono (src : Nat → Nat) {r t : Nat} (h : r ≤ t) : letters src r <+: letters src t := by
  induction t with
  | zero => rw [Nat.le_zero.mp h]; exact List.prefix_rfl
  | succ t ih =>
    rcases Nat.lt_or_ge t r with h1 | h1
    · rw [show r = t + 1 by omega]; exact List.prefix_rfl
    · rw [letters_succ]; exact (ih h1).trans (List.prefix_append _ _)

/-- the loop after `r` rounds -/
structure At (src : Nat → Nat) (n r : Nat) (s : Loop) : Prop where
  left : s.left + (letters src r).length = n
  b : s.b = (letters src r).reverse
  used : 1 ≤ s.used
  remain : s.remain ≤ 10
  pos : r = 10 * (s.used - 1) + (10 - s.remain)
  cache : s.cache = src (s.used - 1) / 64 ^ (10 - s.remain)

theorem at_start (src : Nat → Nat) (n : Nat) : At src n 0 ⟨n, [], src 0, letterIdxMax, 1⟩ := by
  refine ⟨by simp [letters], by simp [letters], Nat.le_refl _, show letterIdxMax ≤ 10 by decide, show 0 = 10 * (1 - 1) + (10 - letterIdxMax) by decide, ?_⟩
  simp [letterIdxMax, letterIdxBits]

theorem at_round {src : Nat → Nat} {n r : Nat} {s : Loop} (h : At src n r s) (hl : s.left ≠ 0) : At src n (r + 1) (s.round src) := by
  obtain ⟨left, b, cache, remain, used⟩ := s
  obtain ⟨h1, h2, h3, h4, h5, h6⟩ := h
  simp only at *
  -- the cache is reloaded if it is used up
  have key : ∀ (cache remain used : Nat), 1 ≤ used → 1 ≤ remain → remain ≤ 10 → r = 10 * (used - 1) + (10 - remain) →
      cache = src (used - 1) / 64 ^ (10 - remain) →
      At src n (r + 1)
        (let s : Loop := ⟨left, b, cache, remain, used⟩
         let idx := s.cache &&& letterIdxMask
         let s := match letterBytes[idx]? with
           | some c => { s with b := c :: s.b, left := s.left - 1 }
           | none => s
         { s with cache := s.cache >>> letterIdxBits, remain := s.remain - 1 }) := by
    intro cache remain used g1 g2 g3 g4 g5
    have hg : cache &&& letterIdxMask = group src r := by
      rw [show letterIdxMask = 2 ^ 6 - 1 by decide, Nat.and_two_pow_sub_one_eq_mod, group, g5]
      have e1 : r / 10 = used - 1 := by omega
      have e2 : r % 10 = 10 - remain := by omega
      rw [e1, e2]
    have hc : cache >>> letterIdxBits = src (used - 1) / 64 ^ (10 - (remain - 1)) := by
      rw [show letterIdxBits = 6 from rfl, Nat.shiftRight_eq_div_pow, g5, Nat.div_div_eq_div_mul,
        show 10 - (remain - 1) = (10 - remain) + 1 by omega, Nat.pow_succ 64]
    have hl' := letters_succ src r
    simp only [hg]
    cases hb : letterBytes[group src r]? with
    | none =>
      rw [hb] at hl'
      simp only [Option.toList, List.append_nil] at hl'
      exact ⟨by rw [hl']; exact h1, by rw [hl']; exact h2, g1, by simp only; omega, by simp only; omega, hc⟩
    | some c =>
      rw [hb] at hl'
      simp only [Option.toList] at hl'
      refine ⟨?_, ?_, g1, by simp only; omega, by simp only; omega, hc⟩
      · simp only [hl', List.length_append, List.length_singleton]; omega
      · simp only [hl', List.reverse_append, List.reverse_singleton, h2, List.singleton_append]
  rw [Loop.round]
  by_cases hr : remain = 0
  · subst hr
    rw [if_pos rfl]
    refine key (src used) letterIdxMax (used + 1) (by omega) (by decide) (by decide) ?_ ?_
    · rw [h5, show letterIdxMax = 10 by decide]; omega
    · simp [letterIdxMax, letterIdxBits]
  · rw [if_neg hr]
    exact key cache remain used h3 (by omega) h4 h5 h6

theorem run_done {src : Nat → Nat} {n r fuel : Nat} {s : Loop} (h : At src n r s) (b : Bytes) (h0 : s.left = 0) :
    some s.b = some b ↔ ∃ t, r ≤ t ∧ t ≤ r + fuel ∧ (letters src t).length = n ∧ b = (letters src t).reverse := by
  have hl := h.left
  rw [h0, Nat.zero_add] at hl
  constructor
  · intro hb
    exact ⟨r, Nat.le_refl _, by omega, hl, by rw [← Option.some.inj hb, h.b]⟩
  · rintro ⟨t, h1, -, h2, rfl⟩
    have := (letters_mono src h1).eq_of_length (by rw [hl, h2])
    rw [h.b, this]

theorem run_iff {src : Nat → Nat} {n : Nat} (fuel : Nat) {r : Nat} {s : Loop} (h : At src n r s) (b : Bytes) :
    Loop.run src fuel s = some b ↔ ∃ t, r ≤ t ∧ t ≤ r + fuel ∧ (letters src t).length = n ∧ b = (letters src t).reverse := by
  induction fuel generalizing r s with
  | zero =>
    rw [Loop.run]
    split
    · rename_i h0; exact run_done h b h0
    · rename_i h0
      have hl := h.left
      simp only [reduceCtorEq, false_iff]
      rintro ⟨t, h1, h2, h3, -⟩
      rw [show t = r by omega] at h3
      omega
  | succ fuel ih =>
    rw [Loop.run]
    split
    · rename_i h0; exact run_done h b h0
    · rename_i h0
      have hl := h.left
      rw [ih (at_round h h0)]
      constructor
      · rintro ⟨t, h1, h2, h3, h4⟩; exact ⟨t, by omega, by omega, h3, h4⟩
      · rintro ⟨t, h1, h2, h3, h4⟩
        refine ⟨t, ?_, by omega, h3, h4⟩
        rcases Nat.lt_or_ge r t with h5 | h5
        · exact h5
        · rw [show t = r by omega] at h3; omega

/-- C97: `RandomBytes(n)` returns, once the source has delivered `n` letters, these letters in reverse order. -/
theorem C97_random_bytes (src : Nat → Nat) (n fuel : Nat) (b : Bytes) :
    randomBytes src n fuel = some b ↔ ∃ r, r ≤ fuel ∧ (letters src r).length = n ∧ b = (letters src r).reverse := by
  rw [randomBytes, run_iff fuel (at_start src n)]
  constructor
  · rintro ⟨t, -, h2, h3⟩; exact ⟨t, by omega, h3⟩
  · rintro ⟨t, h2, h3⟩; exact ⟨t, by omega, by omega, h3⟩

theorem letters_letter {src : Nat → Nat} {r : Nat} {c : UInt8} (h : c ∈ letters src r) : c ∈ letterBytes := by
  simp only [letters, List.mem_filterMap] at h
  obtain ⟨k, -, h⟩ := h
  exact List.mem_of_getElem? h

/-- C97: hence `n` letters, whatever the source delivers, and fields of the length allowed are accepted by the setters. -/
theorem C97_valid_fields (src : Nat → Nat) (n fuel : Nat) (b : Bytes) (h : randomBytes src n fuel = some b) :
    b.length = n ∧ (∀ c ∈ b, (65 ≤ c.toNat ∧ c.toNat ≤ 90) ∨ (97 ≤ c.toNat ∧ c.toNat ≤ 122)) ∧ ∀ max, 1 ≤ n → n ≤ max → FieldWF max (some b) := by
  obtain ⟨r, -, h1, rfl⟩ := (C97_random_bytes src n fuel b).mp h
  have hl : ∀ c ∈ (letters src r).reverse, (65 ≤ c.toNat ∧ c.toNat ≤ 90) ∨ (97 ≤ c.toNat ∧ c.toNat ≤ 122) := by
    intro c hc
    have := letters_letter (List.mem_reverse.mp hc)
    have key : ∀ c ∈ letterBytes, (65 ≤ c.toNat ∧ c.toNat ≤ 90) ∨ (97 ≤ c.toNat ∧ c.toNat ≤ 122) := by decide +kernel
    exact key c this
  refine ⟨by rw [List.length_reverse, h1], hl, ?_⟩
  intro max h2 h3
  refine ⟨⟨?_, by rw [List.length_reverse]; omega, ?_⟩, ?_⟩
  · intro h; have := congrArg List.length h; simp at this; rw [this] at h1; simp at h1; omega
  · intro c hc; have := hl c hc; unfold Printable; omega
  · intro h
    have := hl 45 (by rw [h]; simp)
    simp at this

/-- C97: `RightPad` gives exactly `limit` bytes: a beginning of the string, or the string and spaces. It panics for negative limits. -/
theorem C97_right_pad (str : Bytes) (limit : Int) :
    (limit < 0 → rightPad str limit = none) ∧
    (0 ≤ limit → ∃ w, rightPad str limit = some w ∧ (w.length : Int) = limit ∧
      ((limit ≤ str.length ∧ w <+: str) ∨ ∃ k, w = str ++ List.replicate k 32)) := by
  constructor
  · intro h; rw [rightPad, if_pos h]
  · intro h
    obtain ⟨n, rfl⟩ := Int.eq_ofNat_of_zero_le h
    rw [rightPad, if_neg (by omega)]
    refine ⟨_, rfl, by simp, ?_⟩
    simp only [Int.toNat_natCast]
    by_cases hl : n ≤ str.length
    · refine Or.inl ⟨by omega, ?_⟩
      rw [List.take_append_of_le_length hl]
      exact List.take_prefix _ _
    · refine Or.inr ⟨n - str.length, ?_⟩
      rw [List.take_append, List.take_of_length_le (by omega), List.take_replicate]
      congr 2; omega

/-- C97: `MaxPriority`, `MaxVersion` and `MaxRFC3339MicroTimestamp` are what their comments say: the largest values, and a longest timestamp,
that a message can have. -/
theorem C97_maxima :
    (∀ p : Parts, p.WF → p.pri ≤ maxPriority ∧ p.version ≤ maxVersion ∧
      ∀ s, p.timestamp = some s → s.render.length ≤ maxRFC3339MicroTimestamp.length) ∧
    ∀ w, (longest w).pri = maxPriority ∧ (longest w).version = maxVersion ∧ tsText (longest w).timestamp = maxRFC3339MicroTimestamp := by
  refine ⟨?_, ?_⟩
  · intro p hp
    refine ⟨hp.pri, hp.version.2, ?_⟩
    intro s hs
    exact stamp_max (hp.timestamp s hs).1
  · intro w; exact ⟨rfl, rfl, show tsText (longest []).timestamp = maxRFC3339MicroTimestamp by decide +kernel⟩

/-- a source that works: the groups 0, 1, 2, ... -/
example : randomBytes (fun _ => 63 + 64 * 1 + 64 ^ 2 * 27) 4 100 = some (ascii "aaBb") := by decide +kernel

end Verif.Props
