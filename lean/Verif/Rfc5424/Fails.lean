import Verif.Spec.Rfc5424Errors
import Verif.Rfc5424.Steps

/-! # Where the scanners stop: the offset is that of the longest viable beginning (`Spec.Fails`) -/

namespace Verif.Spec

theorem Fails.le_of {L : Bytes → Prop} {x : Bytes} {n m : Nat} (h : Fails L x n) (h' : Fails L x m) : m ≤ n := by
  by_cases hlt : n < m
  · obtain ⟨t, ht⟩ := h'.viable
    have hm := h'.le
    have e : x.take m ++ t = x.take (n + 1) ++ ((x.take m).drop (n + 1) ++ t) := by
      rw [← List.append_assoc, show x.take (n + 1) = (x.take m).take (n + 1) by rw [List.take_take, Nat.min_eq_left (by omega)],
        List.take_append_drop]
    rw [e] at ht
    exact absurd ht (h.stuck (by omega) _)
  · omega

theorem Fails.unique {L : Bytes → Prop} {x : Bytes} {n m : Nat} (h : Fails L x n) (h' : Fails L x m) : n = m :=
  Nat.le_antisymm (h'.le_of h) (h.le_of h')

end Verif.Spec

namespace Verif.Rfc5424
open Spec

/-! ## PRI -/

theorem pri_completable (s : PriSt) : ∃ t w, priScan s t = .ok w [] := by
  cases s
  · exact ⟨[48, 62], [48], by decide⟩
  · exact ⟨[62], [], by decide⟩
  · exact ⟨[62], [], by decide⟩
  · exact ⟨[62], [], by decide⟩
  · exact ⟨[62], [], by decide⟩

theorem pri_bad : ∀ (l : Bytes) (s : PriSt) (n : Nat), priScan s l = .bad n → n ≤ l.length ∧
    (∃ t w, priScan s (l.take n ++ t) = .ok w []) ∧
    (n < l.length → ∀ t, priScan s (l.take (n + 1) ++ t) = .bad n) := by
  intro l
  induction l with
  | nil =>
    intro s n h
    simp only [priScan, Ts.Res.bad.injEq] at h
    subst h
    exact ⟨by simp, pri_completable s, by simp⟩
  | cons b l ih =>
    intro s n h
    simp only [priScan] at h
    split at h
    · simp at h
    · rename_i hb
      cases hst : priStep s b with
      | none =>
        rw [hst] at h
        simp only [Ts.Res.bad.injEq] at h
        subst h
        refine ⟨by simp, pri_completable s, fun _ t => ?_⟩
        simp [priScan, hb, hst]
      | some s' =>
        rw [hst] at h
        simp only at h
        cases hr : priScan s' l with
        | ok w r => rw [hr] at h; simp [Ts.Res.cons] at h
        | bad k =>
          rw [hr] at h
          simp only [Ts.Res.cons, Ts.Res.bad.injEq] at h
          subst h
          obtain ⟨g1, ⟨t, w, g2⟩, g3⟩ := ih s' k hr
          refine ⟨by simp; omega, ⟨t, b :: w, ?_⟩, fun hlt t => ?_⟩
          · simp [priScan, hb, hst, g2, Ts.Res.cons]
          · have := g3 (by simp at hlt; omega) t
            simp [priScan, hb, hst, this, Ts.Res.cons]

theorem priText_iff {u : Bytes} : PriText u ↔ ∃ w, priScan .start u = .ok w [] := by
  constructor
  · rintro ⟨n, hn, rfl⟩; exact ⟨dec n, pri_iff.mpr ⟨n, hn, rfl, rfl⟩⟩
  · rintro ⟨w, h⟩
    obtain ⟨n, hn, -, h⟩ := pri_iff.mp h
    exact ⟨n, hn, h⟩

theorem pri_fails_of {x : Bytes} {n : Nat} (h : priScan .start x = .bad n) : Fails PriText x n := by
  obtain ⟨g1, ⟨t, w, g2⟩, g3⟩ := pri_bad x .start n h
  refine ⟨?_, g1, ⟨t, priText_iff.mpr ⟨w, g2⟩⟩, ?_⟩
  · rintro u ⟨k, hk, rfl⟩ ⟨t, rfl⟩
    rw [show dec k ++ [62] ++ t = dec k ++ 62 :: t by simp, pri_iff.mpr ⟨k, hk, rfl, rfl⟩] at h
    simp at h
  · intro hlt t ht
    obtain ⟨w, hw⟩ := priText_iff.mp ht
    rw [g3 hlt t] at hw; simp at hw

theorem pri_fails {x : Bytes} {n : Nat} : priScan .start x = .bad n ↔ Fails PriText x n := by
  refine ⟨pri_fails_of, fun h => ?_⟩
  cases hr : priScan .start x with
  | ok w tl =>
    obtain ⟨k, hk, -, rfl⟩ := pri_iff.mp hr
    exact absurd ⟨tl, by simp⟩ (h.no (dec k ++ [62]) ⟨k, hk, rfl⟩)
  | bad m => rw [(pri_fails_of hr).unique h]

/-! ## TIMESTAMP -/

theorem ts_completable (s : Ts) : ∃ t w, Ts.scan true s t = .ok w [] := by
  have h : ∀ t w, Ts.scan true s t = .ok w [] → ∃ t w, Ts.scan true s t = .ok w [] := fun t w h => ⟨t, w, h⟩
  cases s
  · exact h (ascii "2003-01-01T00:00:00Z") (ascii "2003-01-01T00:00:00Z") (by decide +kernel)
  · exact h (ascii "003-01-01T00:00:00Z") (ascii "003-01-01T00:00:00Z") (by decide +kernel)
  · exact h (ascii "03-01-01T00:00:00Z") (ascii "03-01-01T00:00:00Z") (by decide +kernel)
  · exact h (ascii "3-01-01T00:00:00Z") (ascii "3-01-01T00:00:00Z") (by decide +kernel)
  · exact h (ascii "-01-01T00:00:00Z") (ascii "-01-01T00:00:00Z") (by decide +kernel)
  · exact h (ascii "01-01T00:00:00Z") (ascii "01-01T00:00:00Z") (by decide +kernel)
  · exact h (ascii "1-01T00:00:00Z") (ascii "1-01T00:00:00Z") (by decide +kernel)
  · exact h (ascii "1-01T00:00:00Z") (ascii "1-01T00:00:00Z") (by decide +kernel)
  · exact h (ascii "-01T00:00:00Z") (ascii "-01T00:00:00Z") (by decide +kernel)
  · exact h (ascii "01T00:00:00Z") (ascii "01T00:00:00Z") (by decide +kernel)
  · exact h (ascii "1T00:00:00Z") (ascii "1T00:00:00Z") (by decide +kernel)
  · exact h (ascii "1T00:00:00Z") (ascii "1T00:00:00Z") (by decide +kernel)
  · exact h (ascii "1T00:00:00Z") (ascii "1T00:00:00Z") (by decide +kernel)
  · exact h (ascii "T00:00:00Z") (ascii "T00:00:00Z") (by decide +kernel)
  · exact h (ascii "00:00:00Z") (ascii "00:00:00Z") (by decide +kernel)
  · exact h (ascii "0:00:00Z") (ascii "0:00:00Z") (by decide +kernel)
  · exact h (ascii "0:00:00Z") (ascii "0:00:00Z") (by decide +kernel)
  · exact h (ascii ":00:00Z") (ascii ":00:00Z") (by decide +kernel)
  · exact h (ascii "00:00Z") (ascii "00:00Z") (by decide +kernel)
  · exact h (ascii "0:00Z") (ascii "0:00Z") (by decide +kernel)
  · exact h (ascii ":00Z") (ascii ":00Z") (by decide +kernel)
  · exact h (ascii "00Z") (ascii "00Z") (by decide +kernel)
  · exact h (ascii "0Z") (ascii "0Z") (by decide +kernel)
  · exact h (ascii "Z") (ascii "Z") (by decide +kernel)
  · exact h (ascii "0Z") (ascii "0Z") (by decide +kernel)
  · exact h (ascii "Z") (ascii "Z") (by decide +kernel)
  · exact h (ascii "Z") (ascii "Z") (by decide +kernel)
  · exact h (ascii "Z") (ascii "Z") (by decide +kernel)
  · exact h (ascii "Z") (ascii "Z") (by decide +kernel)
  · exact h (ascii "Z") (ascii "Z") (by decide +kernel)
  · exact h (ascii "Z") (ascii "Z") (by decide +kernel)
  · exact h (ascii "00:00") (ascii "00:00") (by decide +kernel)
  · exact h (ascii "0:00") (ascii "0:00") (by decide +kernel)
  · exact h (ascii "0:00") (ascii "0:00") (by decide +kernel)
  · exact h (ascii ":00") (ascii ":00") (by decide +kernel)
  · exact h (ascii "00") (ascii "00") (by decide +kernel)
  · exact h (ascii "0") (ascii "0") (by decide +kernel)
  · exact h [] [] (by decide +kernel)

theorem ts_bad : ∀ (l : Bytes) (s : Ts) (n : Nat), Ts.scan true s l = .bad n →
    (∃ t w, Ts.scan true s (l.take n ++ t) = .ok w []) ∧
    (n < l.length → ∀ t, Ts.scan true s (l.take (n + 1) ++ t) = .bad n) := by
  intro l
  induction l with
  | nil =>
    intro s n h
    simp only [Ts.scan] at h
    split at h
    · simp at h
    · simp only [Ts.Res.bad.injEq] at h
      subst h
      exact ⟨ts_completable s, by simp⟩
  | cons b l ih =>
    intro s n h
    simp only [Ts.scan] at h
    split at h
    · simp at h
    · rename_i hs
      cases hst : Ts.step true s b with
      | none =>
        rw [hst] at h
        simp only [Ts.Res.bad.injEq] at h
        subst h
        refine ⟨ts_completable s, fun _ t => ?_⟩
        simp [Ts.scan, hs, hst]
      | some s' =>
        rw [hst] at h
        simp only at h
        cases hr : Ts.scan true s' l with
        | ok w r => rw [hr] at h; simp [Ts.Res.cons] at h
        | bad k =>
          rw [hr] at h
          simp only [Ts.Res.cons, Ts.Res.bad.injEq] at h
          subst h
          obtain ⟨⟨t, w, g2⟩, g3⟩ := ih s' k hr
          refine ⟨⟨t, b :: w, ?_⟩, fun hlt t => ?_⟩
          · simp [Ts.scan, hs, hst, g2, Ts.Res.cons]
          · have := g3 (by simp at hlt; omega) t
            simp [Ts.scan, hs, hst, this, Ts.Res.cons]

theorem ts_fails_of {x : Bytes} {n : Nat} (h : Ts.scan true .y1 x = .bad n) : Fails StampText x n := by
  obtain ⟨⟨t, w, g2⟩, g3⟩ := ts_bad x .y1 n h
  refine ⟨?_, Ts.scan_bad_le h, ⟨t, ?_⟩, ?_⟩
  · rintro u ⟨s, hs, rfl⟩ ⟨t, rfl⟩
    rw [Ts.scan_complete s hs (by simp)] at h
    simp at h
  · obtain ⟨s, hs, -, -, h3⟩ := Ts.scan_sound g2
    exact ⟨s, hs, by simpa using h3⟩
  · rintro hlt t ⟨s, hs, ht⟩
    have := Ts.scan_complete (fr := true) s hs (by simp) []
    rw [List.append_nil, ← ht, g3 hlt t] at this
    simp at this

theorem ts_fails {x : Bytes} {n : Nat} : Ts.scan true .y1 x = .bad n ↔ Fails StampText x n := by
  refine ⟨ts_fails_of, fun h => ?_⟩
  cases hr : Ts.scan true .y1 x with
  | ok w tl =>
    obtain ⟨s, hs, -, -, rfl⟩ := Ts.scan_sound hr
    exact absurd ⟨tl, rfl⟩ (h.no s.render ⟨s, hs, rfl⟩)
  | bad m => rw [(ts_fails_of hr).unique h]

/-! ## names followed by a delimiter -/

/-- a name and one of the delimiters -/
def Delim (cls : UInt8 → Bool) (max : Nat) (ds : List UInt8) (u : Bytes) : Prop :=
  ∃ w c, (w ≠ [] ∧ w.length ≤ max ∧ ∀ b ∈ w, cls b = true) ∧ c ∈ ds ∧ u = w ++ [c]

theorem delim_fails_of {cls : UInt8 → Bool} {max : Nat} {ds : List UInt8} (hd : ∀ c ∈ ds, cls c = false)
    (hmax : 1 ≤ max) (hne : ∃ c, c ∈ ds) (hex : ∃ b, cls b = true)
    {x w r : Bytes} (hsp : spanN cls max x = (w, r)) (hr : w = [] ∨ ∀ c ∈ ds, ∀ t, r ≠ c :: t) :
    Fails (Delim cls max ds) x w.length := by
  have h1 := spanN_append cls max x
  have h2 := spanN_all cls max x
  have h3 := spanN_length cls max x
  have h4 := spanN_max cls max x
  rw [hsp] at h1 h2 h3 h4
  simp only at h1 h2 h3 h4
  subst h1
  -- a word of the language that begins with `w ++ [b]`
  have key : ∀ (w' : Bytes) (c : UInt8) (u v : Bytes) (b : UInt8), (w' ≠ [] ∧ w'.length ≤ max ∧ ∀ b ∈ w', cls b = true) → c ∈ ds →
      w' ++ [c] ++ u = w ++ b :: v → (w = [] ∨ b ∉ ds) → (w.length = max ∨ cls b = false) → False := by
    intro w' c u v b ⟨hw0, hwl, hwa⟩ hc he hb hm
    rw [List.append_assoc] at he
    rcases List.append_eq_append_iff.mp he with ⟨a, rfl, ha⟩ | ⟨a, rfl, ha⟩
    · cases a with
      | nil =>
        simp only [List.nil_append, List.append_nil, List.singleton_append, List.cons.injEq] at ha hb
        rcases hb with hb | hb
        · exact hw0 hb
        · exact hb (ha.1 ▸ hc)
      | cons a0 a =>
        simp only [List.cons_append, List.nil_append, List.cons.injEq] at ha
        have := h2 a0 (by simp)
        rw [← ha.1, hd c hc] at this
        simp at this
    · cases a with
      | nil =>
        simp only [List.nil_append, List.append_nil, List.singleton_append, List.cons.injEq] at ha hb hw0
        rcases hb with hb | hb
        · exact hw0 hb
        · exact hb (ha.1 ▸ hc)
      | cons a0 a =>
        simp only [List.cons_append, List.nil_append, List.cons.injEq] at ha
        rcases hm with hm | hm
        · simp at hwl; omega
        · have := hwa a0 (by simp)
          rw [← ha.1, hm] at this
          simp at this
  have hr' : ∀ b v, r = b :: v → (w = [] ∨ b ∉ ds) ∧ (w.length = max ∨ cls b = false) := by
    intro b v hv
    subst hv
    refine ⟨?_, ?_⟩
    · rcases hr with hr | hr
      · exact Or.inl hr
      · exact Or.inr fun hb => hr b hb v rfl
    · rcases h4 with h4 | h4 | ⟨b', r', h4, h5⟩
      · exact Or.inl h4
      · simp at h4
      · simp at h4; exact Or.inr (by rw [h4.1]; exact h5)
  refine ⟨?_, by simp, ?_, ?_⟩
  · rintro u ⟨w', c, hw', hc, rfl⟩ ⟨t, ht⟩
    cases r with
    | nil =>
      rw [List.append_nil] at ht
      have := h2 c (by rw [← ht]; simp)
      rw [hd c hc] at this; simp at this
    | cons b v => exact key w' c t v b hw' hc ht (hr' b v rfl).1 (hr' b v rfl).2
  · obtain ⟨c, hc⟩ := hne
    obtain ⟨b, hb⟩ := hex
    rw [List.take_left]
    by_cases hw : w = []
    · exact ⟨[b, c], [b], c, ⟨by simp, by simpa using hmax, by intro b' hb'; simp at hb'; rw [hb']; exact hb⟩, hc, by rw [hw]; rfl⟩
    · exact ⟨[c], w, c, ⟨hw, h3, h2⟩, hc, rfl⟩
  · rintro hlt t ⟨w', c, hw', hc, hu⟩
    cases r with
    | nil => simp at hlt
    | cons b v =>
      have e : (w ++ b :: v).take (w.length + 1) = w ++ [b] := by
        rw [show w ++ b :: v = (w ++ [b]) ++ v by simp, show w.length + 1 = (w ++ [b]).length by simp, List.take_left]
      rw [e] at hu
      exact key w' c [] t b hw' hc (by rw [List.append_nil, ← hu]; simp) (hr' b v rfl).1 (hr' b v rfl).2

theorem delim_fails {cls : UInt8 → Bool} {max : Nat} {ds : List UInt8} (hd : ∀ c ∈ ds, cls c = false)
    (hmax : 1 ≤ max) (hne : ∃ c, c ∈ ds) (hex : ∃ b, cls b = true)
    {x w r : Bytes} {n : Nat} (hsp : spanN cls max x = (w, r)) :
    Fails (Delim cls max ds) x n ↔ n = w.length ∧ (w = [] ∨ ∀ c ∈ ds, ∀ t, r ≠ c :: t) := by
  constructor
  · intro h
    by_cases hr : w = [] ∨ ∀ c ∈ ds, ∀ t, r ≠ c :: t
    · exact ⟨h.unique (delim_fails_of hd hmax hne hex hsp hr), hr⟩
    · simp only [not_or, Classical.not_forall] at hr
      obtain ⟨hw, c, hc, t, ht⟩ := hr
      have ht' : r = c :: t := Classical.not_not.mp ht
      have h1 := spanN_append cls max x
      have h2 := spanN_all cls max x
      have h3 := spanN_length cls max x
      rw [hsp] at h1 h2 h3
      exact absurd ⟨t, by rw [← h1, ht']; simp⟩ (h.no (w ++ [c]) ⟨w, c, ⟨hw, h3, h2⟩, hc, rfl⟩)
  · rintro ⟨rfl, hr⟩
    exact delim_fails_of hd hmax hne hex hsp hr

theorem fieldText_delim {max : Nat} : FieldText max = Delim isGraph max [32] := by
  funext u
  simp only [FieldText, Delim, nameWF_iff, List.mem_singleton]
  apply propext
  constructor
  · rintro ⟨w, h, rfl⟩; exact ⟨w, 32, h, rfl, rfl⟩
  · rintro ⟨w, c, h, rfl, rfl⟩; exact ⟨w, h, rfl⟩

theorem idText_delim : IdText = Delim isSdName 32 [32, 93] := by
  funext u
  simp only [IdText, Delim, sdName_wf, List.mem_cons, List.not_mem_nil, or_false]

theorem nameText_delim : NameText = Delim isSdName 32 [61] := by
  funext u
  simp only [NameText, Delim, sdName_wf, List.mem_singleton]
  apply propext
  constructor
  · rintro ⟨w, h, rfl⟩; exact ⟨w, 61, h, rfl, rfl⟩
  · rintro ⟨w, c, h, rfl, rfl⟩; exact ⟨w, h, rfl⟩

theorem field_fails {max n : Nat} (hmax : 1 ≤ max) {x w r : Bytes} (hsp : spanN isGraph max x = (w, r)) :
    Fails (FieldText max) x n ↔ n = w.length ∧ (w = [] ∨ ∀ t, r ≠ 32 :: t) := by
  rw [fieldText_delim, delim_fails (by intro c hc; simp at hc; rw [hc]; decide) hmax ⟨32, by simp⟩ ⟨97, by decide⟩ hsp]
  simp

theorem id_fails {n : Nat} {x w r : Bytes} (hsp : spanN isSdName 32 x = (w, r)) :
    Fails IdText x n ↔ n = w.length ∧ (w = [] ∨ ((∀ t, r ≠ 32 :: t) ∧ ∀ t, r ≠ 93 :: t)) := by
  rw [idText_delim, delim_fails (by intro c hc; simp at hc; rcases hc with hc | hc <;> rw [hc] <;> decide) (by omega) ⟨32, by simp⟩ ⟨97, by decide⟩ hsp]
  simp

theorem name_fails {n : Nat} {x w r : Bytes} (hsp : spanN isSdName 32 x = (w, r)) :
    Fails NameText x n ↔ n = w.length ∧ (w = [] ∨ ∀ t, r ≠ 61 :: t) := by
  rw [nameText_delim, delim_fails (by intro c hc; simp at hc; rw [hc]; decide) (by omega) ⟨61, by simp⟩ ⟨97, by decide⟩ hsp]
  simp

/-! ## PARAM-VALUE -/

def vstep : Option U8 → UInt8 → Option (Option U8)
  | none, b => if b.toNat = 34 ∨ b.toNat = 92 ∨ b.toNat = 93 then some (some .s0) else none
  | some .s0, b =>
    if b.toNat = 34 ∨ b.toNat = 93 then none else if b.toNat = 92 then some none else (U8.step .s0 b).map some
  | some s, b => (U8.step s b).map some

def vrun : Option U8 → Bytes → Option (Option U8)
  | st, [] => some st
  | st, b :: l => (vstep st b).bind fun st' => vrun st' l

def vkind (st : Option U8) : ErrKind := if st = none ∨ st = some .s0 then .escape else .sdParam

theorem vrun_append (a b : Bytes) (st : Option U8) : vrun st (a ++ b) = (vrun st a).bind fun st' => vrun st' b := by
  induction a generalizing st with
  | nil => rfl
  | cons x a ih =>
    simp only [List.cons_append, vrun]
    cases vstep st x with
    | none => rfl
    | some st' => exact ih st'

theorem valScan_nil (st : Option U8) : valScan st [] = .bad (vkind st) 0 := by
  cases st with
  | none => rfl
  | some s => cases s <;> rfl

theorem valScan_quote (l : Bytes) {b : UInt8} (hb : b.toNat = 34) : valScan (some .s0) (b :: l) = .ok [] l := by
  simp [valScan, hb]

theorem valScan_cons {st : Option U8} {b : UInt8} {l : Bytes} (h : ¬ (st = some .s0 ∧ b.toNat = 34)) :
    valScan st (b :: l) = match vstep st b with
      | none => .bad (vkind st) 0
      | some st' => (valScan st' l).cons b := by
  cases st with
  | none =>
    simp only [valScan, vstep]
    split <;> simp [vkind]
  | some s =>
    by_cases hs : s = .s0
    · subst hs
      have hb : ¬ b.toNat = 34 := fun hh => h ⟨rfl, hh⟩
      simp only [valScan, vstep, if_neg hb, hb, false_or]
      by_cases h92 : b.toNat = 92
      · simp [h92]
      · by_cases h93 : b.toNat = 93
        · simp [h93, vkind]
        · simp only [if_neg h92, if_neg h93]
          cases U8.step .s0 b <;> simp [vkind]
    · rw [valScan_mid hs]
      cases s <;> simp_all only [ne_eq, not_true_eq_false, vstep] <;> (cases U8.step _ b <;> simp [vkind])

theorem val_completable (st : Option U8) : ∃ t raw, valScan st t = .ok raw [] := by
  cases st with
  | none => exact ⟨[34, 34], [34], by decide⟩
  | some s =>
    cases s
    · exact ⟨[34], [], by decide⟩
    · exact ⟨[0x80, 34], [0x80], by decide⟩
    · exact ⟨[0xA0, 0x80, 34], [0xA0, 0x80], by decide⟩
    · exact ⟨[0x80, 0x80, 34], [0x80, 0x80], by decide⟩
    · exact ⟨[0x80, 0x80, 34], [0x80, 0x80], by decide⟩
    · exact ⟨[0x90, 0x80, 0x80, 34], [0x90, 0x80, 0x80], by decide⟩
    · exact ⟨[0x80, 0x80, 0x80, 34], [0x80, 0x80, 0x80], by decide⟩
    · exact ⟨[0x80, 0x80, 0x80, 34], [0x80, 0x80, 0x80], by decide⟩

theorem val_bad : ∀ (l : Bytes) (st : Option U8) (k : ErrKind) (n : Nat), valScan st l = .bad k n →
    n ≤ l.length ∧ (∃ t raw, valScan st (l.take n ++ t) = .ok raw []) ∧
    (n < l.length → ∀ t, valScan st (l.take (n + 1) ++ t) = .bad k n) ∧
    ∃ st', vrun st (l.take n) = some st' ∧ k = vkind st' := by
  intro l
  induction l with
  | nil =>
    intro st k n h
    rw [valScan_nil] at h
    simp only [VRes.bad.injEq] at h
    obtain ⟨rfl, rfl⟩ := h
    exact ⟨by simp, val_completable st, by simp, st, rfl, rfl⟩
  | cons b l ih =>
    intro st k n h
    by_cases hq : st = some .s0 ∧ b.toNat = 34
    · obtain ⟨rfl, hb⟩ := hq
      rw [valScan_quote l hb] at h; simp at h
    · rw [valScan_cons hq] at h
      cases hst : vstep st b with
      | none =>
        rw [hst] at h
        simp only [VRes.bad.injEq] at h
        obtain ⟨rfl, rfl⟩ := h
        refine ⟨by simp, val_completable st, fun _ t => ?_, st, rfl, rfl⟩
        simp only [Nat.zero_add, List.take_succ_cons, List.take_zero, List.cons_append, List.nil_append]
        rw [valScan_cons hq, hst]
      | some st' =>
        rw [hst] at h
        simp only at h
        cases hr : valScan st' l with
        | ok w r => rw [hr] at h; simp [VRes.cons] at h
        | bad k' m =>
          rw [hr] at h
          simp only [VRes.cons, VRes.bad.injEq] at h
          obtain ⟨rfl, rfl⟩ := h
          obtain ⟨g1, ⟨t, w, g2⟩, g3, st2, g4, g5⟩ := ih st' k' m hr
          refine ⟨by simp; omega, ⟨t, b :: w, ?_⟩, fun hlt t => ?_, st2, ?_, g5⟩
          · simp only [List.take_succ_cons, List.cons_append]
            rw [valScan_cons hq, hst]
            simp only [g2, VRes.cons]
          · have := g3 (by simp at hlt; omega) t
            rw [List.take_succ_cons, List.cons_append, valScan_cons hq, hst]
            simp only [this, VRes.cons]
          · simp only [List.take_succ_cons, vrun, hst, Option.bind_some, g4]

theorem val_run_of_ok : ∀ (l : Bytes) (st : Option U8) (raw tl : Bytes), valScan st l = .ok raw tl →
    vrun st raw = some (some .s0) := by
  intro l
  induction l with
  | nil => intro st raw tl h; rw [valScan_nil] at h; simp at h
  | cons b l ih =>
    intro st raw tl h
    by_cases hq : st = some .s0 ∧ b.toNat = 34
    · obtain ⟨rfl, hb⟩ := hq
      rw [valScan_quote l hb] at h
      simp only [VRes.ok.injEq] at h
      rw [← h.1]; rfl
    · rw [valScan_cons hq] at h
      cases hst : vstep st b with
      | none => rw [hst] at h; simp at h
      | some st' =>
        rw [hst] at h
        obtain ⟨raw', h', rfl⟩ := VRes.cons_ok h
        simp only [vrun, hst, Option.bind_some]
        exact ih st' _ tl h'

theorem val_ok_of_run : ∀ (u : Bytes) (st : Option U8) (tl : Bytes), vrun st u = some (some .s0) →
    valScan st (u ++ 34 :: tl) = .ok u tl := by
  intro u
  induction u with
  | nil =>
    intro st tl h
    simp only [vrun, Option.some.injEq] at h
    subst h
    exact valScan_quote tl rfl
  | cons b u ih =>
    intro st tl h
    simp only [vrun] at h
    cases hst : vstep st b with
    | none => rw [hst] at h; simp at h
    | some st' =>
      rw [hst] at h
      have hq : ¬ (st = some .s0 ∧ b.toNat = 34) := by
        rintro ⟨rfl, hb⟩; simp [vstep, hb] at hst
      rw [List.cons_append, valScan_cons hq, hst]
      simp only [ih st' tl h, VRes.cons]

theorem run_s0 {u : Bytes} : vrun (some .s0) u = some (some .s0) ↔ ∃ v, Utf8 v ∧ u = escape v := by
  constructor
  · intro h
    obtain ⟨v, hv, h1, -⟩ := val_iff.mp (val_ok_of_run u _ [] h)
    exact ⟨v, hv, h1⟩
  · rintro ⟨v, hv, rfl⟩
    exact val_run_of_ok _ _ _ [] (val_iff.mpr ⟨v, hv, rfl, rfl⟩)

theorem vstep_none {st : Option U8} {b : UInt8} (h : vstep st b = some none) : st = some .s0 ∧ b.toNat = 92 := by
  cases st with
  | none => simp only [vstep] at h; split at h <;> simp at h
  | some s =>
    cases s
    · simp only [vstep] at h
      split at h
      · simp at h
      · split at h
        · rename_i hb; exact ⟨rfl, hb⟩
        · simp at h
    all_goals simp [vstep] at h

theorem between_iff {u : Bytes} : Between u ↔ vrun (some .s0) u = some (some .s0) ∨ vrun (some .s0) u = some none := by
  constructor
  · rintro ⟨v, hv, rfl | rfl⟩
    · exact Or.inl (run_s0.mpr ⟨v, hv, rfl⟩)
    · right
      rw [vrun_append, run_s0.mpr ⟨v, hv, rfl⟩]; rfl
  · rintro (h | h)
    · obtain ⟨v, hv, rfl⟩ := run_s0.mp h
      exact ⟨v, hv, Or.inl rfl⟩
    · rcases List.eq_nil_or_concat u with rfl | ⟨u', b, rfl⟩
      · simp [vrun] at h
      · rw [List.concat_eq_append, vrun_append] at h
        cases hr : vrun (some .s0) u' with
        | none => rw [hr] at h; simp at h
        | some st =>
          rw [hr] at h
          simp only [Option.bind_some, vrun] at h
          cases hs : vstep st b with
          | none => rw [hs] at h; simp at h
          | some st2 =>
            rw [hs] at h
            simp only [Option.bind_some, Option.some.injEq] at h
            subst h
            obtain ⟨rfl, hb⟩ := vstep_none hs
            obtain ⟨v, hv, rfl⟩ := run_s0.mp hr
            have : b = 92 := Ts.eq_of_toNat hb
            exact ⟨v, hv, Or.inr (by rw [List.concat_eq_append, this])⟩

theorem valueText_iff {u : Bytes} : ValueText u ↔ ∃ raw, valScan (some .s0) u = .ok raw [] := by
  constructor
  · rintro ⟨v, hv, rfl⟩; exact ⟨_, val_iff.mpr ⟨v, hv, rfl, rfl⟩⟩
  · rintro ⟨raw, h⟩
    obtain ⟨v, hv, -, h⟩ := val_iff.mp h
    exact ⟨v, hv, h⟩

theorem val_fails_of {x : Bytes} {k : ErrKind} {n : Nat} (h : valScan (some .s0) x = .bad k n) :
    Fails ValueText x n ∧ (Between (x.take n) ∧ k = .escape ∨ ¬ Between (x.take n) ∧ k = .sdParam) := by
  obtain ⟨g1, ⟨t, w, g2⟩, g3, st, g4, g5⟩ := val_bad x _ k n h
  refine ⟨⟨?_, g1, ⟨t, valueText_iff.mpr ⟨w, g2⟩⟩, ?_⟩, ?_⟩
  · rintro u ⟨v, hv, rfl⟩ ⟨t, rfl⟩
    rw [show escape v ++ [34] ++ t = escape v ++ 34 :: t by simp, val_iff.mpr ⟨v, hv, rfl, rfl⟩] at h
    simp at h
  · intro hlt t ht
    obtain ⟨w, hw⟩ := valueText_iff.mp ht
    rw [g3 hlt t] at hw; simp at hw
  · rw [between_iff, g4]
    simp only [Option.some.injEq]
    by_cases hs : st = none ∨ st = some .s0
    · exact Or.inl ⟨hs.symm, by rw [g5, vkind, if_pos hs]⟩
    · exact Or.inr ⟨fun h => hs h.symm, by rw [g5, vkind, if_neg hs]⟩

theorem val_fails {x : Bytes} {n : Nat} (h : Fails ValueText x n) :
    (Between (x.take n) → valScan (some .s0) x = .bad .escape n) ∧
    (¬ Between (x.take n) → valScan (some .s0) x = .bad .sdParam n) := by
  cases hr : valScan (some .s0) x with
  | ok w tl =>
    obtain ⟨v, hv, -, rfl⟩ := val_iff.mp hr
    exact absurd ⟨tl, by simp⟩ (h.no (escape v ++ [34]) ⟨v, hv, rfl⟩)
  | bad k m =>
    obtain ⟨h1, h2⟩ := val_fails_of hr
    have := h1.unique h
    subst this
    rcases h2 with ⟨hb, rfl⟩ | ⟨hb, rfl⟩
    · exact ⟨fun _ => rfl, fun h => absurd hb h⟩
    · exact ⟨fun h => absurd h hb, fun _ => rfl⟩

end Verif.Rfc5424
