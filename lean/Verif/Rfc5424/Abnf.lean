import Verif.Spec.Abnf
import Verif.Spec.Rfc5424
import Verif.CommonLemmas

/-!
# The grammar of `Spec/Rfc5424.lean` is the ABNF of RFC 5424

For every rule: the words of the rule are the texts of the well-formed values.
-/

namespace Verif.Abnf
open Verif.Spec Verif.Spec.Abnf

/-! ## Combinators -/

theorem chr_iff (n : Nat) (b : UInt8) (h : b.toNat = n) (w : Bytes) : chr n w ↔ w = [b] := by
  constructor
  · rintro ⟨c, rfl, h1, h2⟩
    rw [show c = b from UInt8.toNat_inj.mp (by omega)]
  · rintro rfl; exact ⟨b, rfl, by omega, by omega⟩

theorem chr_seq {n : Nat} {b : UInt8} (h : b.toNat = n) {A : Rule} {w : Bytes} : (chr n ⬝ A) w ↔ ∃ v, w = b :: v ∧ A v := by
  constructor
  · rintro ⟨u, v, rfl, hu, hv⟩
    rw [chr_iff n b h] at hu; subst hu
    exact ⟨v, rfl, hv⟩
  · rintro ⟨v, rfl, hv⟩
    exact ⟨[b], v, rfl, (chr_iff n b h _).mpr rfl, hv⟩

/-- words of length one, repeated -/
theorem rep_iff {lo hi : Nat} {A : Rule} {p : UInt8 → Prop} (hA : ∀ w, A w ↔ ∃ b, w = [b] ∧ p b) (w : Bytes) :
    rep lo hi A w ↔ lo ≤ w.length ∧ w.length ≤ hi ∧ ∀ b ∈ w, p b := by
  have aux : ∀ l : List Bytes, (∀ x ∈ l, A x) → l.flatten.length = l.length ∧ ∀ b ∈ l.flatten, p b := by
    intro l
    induction l with
    | nil => intro _; simp
    | cons x l ih =>
      intro h
      obtain ⟨b, rfl, hb⟩ := (hA x).mp (h x (by simp))
      obtain ⟨i1, i2⟩ := ih fun y hy => h y (by simp [hy])
      refine ⟨by simp [i1], fun c hc => ?_⟩
      simp only [List.flatten_cons, List.cons_append, List.nil_append, List.mem_cons] at hc
      rcases hc with rfl | hc
      · exact hb
      · exact i2 c hc
  constructor
  · rintro ⟨l, h1, h2, h3, rfl⟩
    obtain ⟨e, hp⟩ := aux l h3
    exact ⟨by omega, by omega, hp⟩
  · rintro ⟨h1, h2, h3⟩
    refine ⟨w.map fun b => [b], by simpa using h1, by simpa using h2, ?_, ?_⟩
    · intro x hx
      obtain ⟨b, hb, rfl⟩ := List.mem_map.mp hx
      exact (hA _).mpr ⟨b, rfl, h3 b hb⟩
    · clear h1 h2 h3; induction w with
      | nil => rfl
      | cons b w ih => simp only [List.map_cons, List.flatten_cons, ← ih]; rfl

theorem many_octet (w : Bytes) : many OCTET w := by
  refine ⟨w.map fun b => [b], ?_, ?_⟩
  · intro x hx
    obtain ⟨b, -, rfl⟩ := List.mem_map.mp hx
    exact ⟨b, rfl, by omega, by have := b.toNat_lt; omega⟩
  · induction w with
    | nil => rfl
    | cons b w ih => simp only [List.map_cons, List.flatten_cons, ← ih]; rfl

theorem many_nil {A : Rule} : many A [] := ⟨[], by simp, rfl⟩

theorem many_cons {A : Rule} {x w : Bytes} (hx : A x) (hw : many A w) : many A (x ++ w) := by
  obtain ⟨l, hl, rfl⟩ := hw
  refine ⟨x :: l, ?_, rfl⟩
  intro y hy
  rcases List.mem_cons.mp hy with rfl | hy
  · exact hx
  · exact hl y hy

/-! ## Numbers -/

theorem digit_iff (w : Bytes) : DIGIT w ↔ ∃ b : UInt8, w = [b] ∧ (48 ≤ b.toNat ∧ b.toNat ≤ 57) := by
  constructor
  · rintro (⟨b, rfl, h1, h2⟩ | ⟨b, rfl, h1, h2⟩) <;> exact ⟨b, rfl, by omega, by omega⟩
  · rintro ⟨b, rfl, h1, h2⟩
    by_cases h : b.toNat = 48
    · exact Or.inl ⟨b, rfl, by omega, by omega⟩
    · exact Or.inr ⟨b, rfl, by omega, by omega⟩

theorem number_eq (w : Bytes) : number w = numVal w := by
  have : ∀ (w : Bytes) (n : Nat), w.foldl (fun n b => 10 * n + (b.toNat - 48)) n = w.foldl (fun n b => n * 10 + (b.toNat - 48)) n := by
    intro w; induction w with
    | nil => intro n; rfl
    | cons b w ih => intro n; simp only [List.foldl_cons]; rw [ih, Nat.mul_comm]
  exact this w 0

theorem dec_head_ne {n : Nat} (h : n ≠ 0) : (dec n).head? ≠ some 48 := by
  induction n using Nat.strongRecOn with
  | _ n ih =>
    by_cases h10 : n < 10
    · rw [dec_lt h10]
      intro he
      simp only [List.head?_cons, Option.some.injEq] at he
      have := congrArg UInt8.toNat he
      rw [Ts.digit_toNat (by omega)] at this
      have : (48 : UInt8).toNat = 48 := rfl
      omega
    · rw [dec_ge (by omega)]
      have := ih (n / 10) (by omega) (by omega)
      rcases hd : dec (n / 10) with _ | ⟨a, l⟩
      · exact absurd hd (dec_ne_nil _)
      · rw [hd] at this; simpa using this

theorem dec_length_le {n : Nat} (h : n ≤ 999) : 1 ≤ (dec n).length ∧ (dec n).length ≤ 3 := by
  have hp : 1 ≤ (dec n).length := List.length_pos_iff.mpr (dec_ne_nil n)
  refine ⟨hp, ?_⟩
  by_cases h1 : n < 10
  · rw [dec_lt h1]; simp
  · rw [dec_ge (by omega)]
    by_cases h2 : n < 100
    · rw [dec_lt (by omega)]; simp
    · rw [dec_ge (by omega), dec_lt (by omega)]; simp

theorem prival_iff (w : Bytes) : PRIVAL w ↔ ∃ n, n ≤ 191 ∧ w = dec n := by
  rw [PRIVAL, Rule.only, rep_iff digit_iff, number_eq]
  constructor
  · rintro ⟨⟨h1, h2, h3⟩, h4, h5⟩
    refine ⟨numVal w, h4, (dec_numVal w (fun b hb => h3 b hb) (List.length_pos_iff.mp h1) ?_).symm⟩
    by_cases hz : w.head? = some 48
    · exact Or.inr (by rw [h5 hz]; rfl)
    · exact Or.inl hz
  · rintro ⟨n, hn, rfl⟩
    refine ⟨⟨(dec_length_le (by omega)).1, (dec_length_le (by omega)).2, fun b hb => dec_digits n b hb⟩, by rw [numVal_dec]; exact hn, ?_⟩
    intro hz
    by_cases h0 : n = 0
    · subst h0; rw [dec_lt (by omega)]; rfl
    · exact absurd hz (dec_head_ne h0)

theorem version_iff (w : Bytes) : VERSION w ↔ ∃ n, (1 ≤ n ∧ n ≤ 999) ∧ w = dec n := by
  constructor
  · rintro ⟨u, v, rfl, ⟨b, rfl, h1, h2⟩, hv⟩
    rw [rep_iff digit_iff] at hv
    obtain ⟨-, h3, h4⟩ := hv
    have hd : dec (numVal ([b] ++ v)) = [b] ++ v := by
      refine dec_numVal _ ?_ (by simp) (Or.inl ?_)
      · intro c hc
        simp only [List.cons_append, List.nil_append, List.mem_cons] at hc
        rcases hc with rfl | hc
        · exact ⟨by omega, h2⟩
        · exact h4 c hc
      · intro he
        simp only [List.cons_append, List.nil_append, List.head?_cons, Option.some.injEq] at he
        subst he; simp at h1
    refine ⟨_, ⟨?_, ?_⟩, hd.symm⟩
    · apply Nat.pos_of_ne_zero
      intro h0
      rw [h0, dec_lt (by omega)] at hd
      simp only [List.cons_append, List.nil_append, List.cons.injEq] at hd
      have := hd.1; subst this; simp [digit] at h1
    · rcases v with _ | ⟨x, _ | ⟨y, _ | ⟨z, v⟩⟩⟩
      · simp [numVal]; omega
      · have := h4 x (by simp); simp [numVal]; omega
      · have := h4 x (by simp); have := h4 y (by simp); simp [numVal]; omega
      · simp only [List.length_cons] at h3; omega
  · rintro ⟨n, ⟨h1, h2⟩, rfl⟩
    have hl := dec_length_le h2
    have hd := dec_digits n
    have hz := dec_head_ne (n := n) (by omega)
    rcases he : dec n with _ | ⟨b, v⟩
    · exact absurd he (dec_ne_nil n)
    · rw [he] at hl hd hz
      have hb := hd b (by simp)
      have hb' : b.toNat ≠ 48 := fun h => hz (by simp only [List.head?_cons, Option.some.injEq]; exact UInt8.toNat_inj.mp (by rw [h]; rfl))
      refine ⟨[b], v, rfl, ⟨b, rfl, by have := hb.1; omega, hb.2⟩, ?_⟩
      rw [rep_iff digit_iff]
      simp only [List.length_cons] at hl
      exact ⟨by omega, by omega, fun c hc => hd c (by simp [hc])⟩

/-! ## Names -/

theorem printable_iff (w : Bytes) : PRINTUSASCII w ↔ ∃ b, w = [b] ∧ Printable b := Iff.rfl

theorem field_iff (max : Nat) (w : Bytes) : (NILVALUE ∥ rep 1 max PRINTUSASCII) w ↔ ∃ f, FieldWF max f ∧ w = fieldText f := by
  constructor
  · rintro (h | h)
    · rw [NILVALUE, chr_iff 45 45 rfl] at h
      exact ⟨none, trivial, h⟩
    · rw [rep_iff printable_iff] at h
      by_cases h45 : w = [45]
      · exact ⟨none, trivial, h45⟩
      · exact ⟨some w, ⟨⟨List.length_pos_iff.mp h.1, h.2.1, h.2.2⟩, h45⟩, rfl⟩
  · rintro ⟨_ | v, hf, rfl⟩
    · exact Or.inl ((chr_iff 45 45 rfl _).mpr rfl)
    · refine Or.inr ?_
      rw [rep_iff printable_iff]
      exact ⟨List.length_pos_iff.mpr hf.1.1, hf.1.2.1, hf.1.2.2⟩

/-! ## Timestamps -/

theorem two_iff (w : Bytes) : (DIGIT ⬝ DIGIT) w ↔ ∃ n, n ≤ 99 ∧ w = d2 n := by
  constructor
  · rintro ⟨u, v, rfl, hu, hv⟩
    replace hu := (digit_iff _).mp hu
    obtain ⟨a, rfl, ha⟩ := hu
    replace hv := (digit_iff _).mp hv
    obtain ⟨b, rfl, hb⟩ := hv
    exact ⟨_, by omega, Ts.d2_of ha.1 ha.2 hb.1 hb.2⟩
  · rintro ⟨n, hn, rfl⟩
    refine ⟨[digit (n / 10)], [digit (n % 10)], rfl, (digit_iff _).mpr ⟨_, rfl, ?_⟩, (digit_iff _).mpr ⟨_, rfl, ?_⟩⟩ <;>
    · rw [Ts.digit_toNat (by omega)]; omega

theorem number_d2 {n : Nat} (h : n ≤ 99) : number (d2 n) = n := by
  simp only [number, d2, List.foldl_cons, List.foldl_nil]
  rw [Ts.digit_toNat (by omega), Ts.digit_toNat (by omega)]; omega

theorem number_d4 {n : Nat} (h : n ≤ 9999) : number (d4 n) = n := by
  simp only [number, d4, d2, List.cons_append, List.nil_append, List.foldl_cons, List.foldl_nil]
  rw [Ts.digit_toNat (by omega), Ts.digit_toNat (by omega), Ts.digit_toNat (by omega), Ts.digit_toNat (by omega)]; omega

theorem two_only {p : Nat → Prop} (w : Bytes) : ((DIGIT ⬝ DIGIT).only fun w => p (number w)) w ↔ ∃ n, (n ≤ 99 ∧ p n) ∧ w = d2 n := by
  rw [Rule.only, two_iff]
  constructor
  · rintro ⟨⟨n, hn, rfl⟩, hp⟩
    rw [number_d2 hn] at hp
    exact ⟨n, ⟨hn, hp⟩, rfl⟩
  · rintro ⟨n, ⟨hn, hp⟩, rfl⟩
    exact ⟨⟨n, hn, rfl⟩, by rw [number_d2 hn]; exact hp⟩

theorem year_iff (w : Bytes) : DATE_FULLYEAR w ↔ ∃ n, n ≤ 9999 ∧ w = d4 n := by
  constructor
  · rintro ⟨u, v, rfl, hu, v', v'', rfl, hv, hvv⟩
    obtain ⟨a, ha, e⟩ := (two_iff _).mp ⟨u, v', rfl, hu, hv⟩
    replace hvv := (two_iff _).mp hvv
    obtain ⟨b, hb, rfl⟩ := hvv
    refine ⟨a * 100 + b, by omega, ?_⟩
    rw [← List.append_assoc, e, d4, show (a * 100 + b) / 100 = a by omega, show (a * 100 + b) % 100 = b by omega]
  · rintro ⟨n, hn, rfl⟩
    obtain ⟨u, v, e, hu, hv⟩ := (two_iff (d2 (n / 100))).mpr ⟨_, by omega, rfl⟩
    exact ⟨u, v ++ d2 (n % 100), by rw [d4, e, List.append_assoc], hu, v, _, rfl, hv, (two_iff _).mpr ⟨_, by omega, rfl⟩⟩

theorem lastDay_eq (y m : Nat) : lastDay y m = Stamp.monthDays y m := by
  simp only [lastDay, Stamp.monthDays]
  by_cases h2 : m = 2
  · rw [if_pos h2, if_pos h2]
    have : leap y ↔ (4 ∣ y ∧ ¬ 100 ∣ y) ∨ 400 ∣ y := by simp only [leap]; omega
    by_cases hl : leap y
    · rw [if_pos hl, if_pos (this.mp hl)]
    · rw [if_neg hl, if_neg (fun h => hl (this.mpr h))]
  · rw [if_neg h2, if_neg h2]
    have : (m = 4 ∨ m = 6 ∨ m = 9 ∨ m = 11) ↔ m ∈ [4, 6, 9, 11] := by simp
    by_cases hl : m = 4 ∨ m = 6 ∨ m = 9 ∨ m = 11
    · rw [if_pos hl, if_pos (this.mp hl)]
    · rw [if_neg hl, if_neg (fun h => hl (this.mpr h))]

theorem date_iff (w : Bytes) : FULL_DATE w ↔ ∃ y m d, (y ≤ 9999 ∧ (1 ≤ m ∧ m ≤ 12) ∧ 1 ≤ d ∧ d ≤ Stamp.monthDays y m) ∧
    w = d4 y ++ 45 :: (d2 m ++ 45 :: d2 d) := by
  constructor
  · rintro ⟨ys, ms, u, v, rfl, ⟨hy, rfl⟩, hv⟩
    replace hv := (chr_seq (b := 45) rfl).mp hv
    obtain ⟨v, rfl, hv⟩ := hv
    obtain ⟨mm, v, rfl, ⟨hm, rfl⟩, hv⟩ := hv
    replace hv := (chr_seq (b := 45) rfl).mp hv
    obtain ⟨v, rfl, hv⟩ := hv
    replace hy := (year_iff _).mp hy
    obtain ⟨y, hy, rfl⟩ := hy
    replace hm := (two_only (p := fun n => 1 ≤ n ∧ n ≤ 12) _).mp hm
    obtain ⟨m, hm, rfl⟩ := hm
    rw [DATE_MDAY, number_d4 hy, number_d2 hm.1] at hv
    replace hv := (two_only (p := fun n => 1 ≤ n ∧ n ≤ lastDay y m) _).mp hv
    obtain ⟨d, hd, rfl⟩ := hv
    exact ⟨y, m, d, ⟨hy, hm.2, hd.2.1, lastDay_eq y m ▸ hd.2.2⟩, rfl⟩
  · rintro ⟨y, m, d, ⟨hy, hm, hd⟩, rfl⟩
    refine ⟨d4 y, d2 m, d4 y, _, rfl, ⟨(year_iff _).mpr ⟨y, hy, rfl⟩, rfl⟩, (chr_seq (b := 45) rfl).mpr ⟨_, rfl, d2 m, _, rfl,
      ⟨(two_only (p := fun n => 1 ≤ n ∧ n ≤ 12) _).mpr ⟨m, ⟨by omega, hm⟩, rfl⟩, rfl⟩, (chr_seq (b := 45) rfl).mpr ⟨_, rfl, ?_⟩⟩⟩
    rw [DATE_MDAY, number_d4 hy, number_d2 (by omega), lastDay_eq]
    have : Stamp.monthDays y m ≤ 31 := by
      simp only [Stamp.monthDays]; (repeat' split) <;> omega
    exact (two_only (p := fun n => 1 ≤ n ∧ n ≤ Stamp.monthDays y m) _).mpr ⟨d, ⟨by omega, hd⟩, rfl⟩

theorem upto_iff {k : Nat} (hk : k ≤ 99) (w : Bytes) : ((DIGIT ⬝ DIGIT).only fun w => number w ≤ k) w ↔ ∃ n, n ≤ k ∧ w = d2 n := by
  rw [two_only (p := fun n => n ≤ k)]
  constructor
  · rintro ⟨n, hn, rfl⟩; exact ⟨n, hn.2, rfl⟩
  · rintro ⟨n, hn, rfl⟩; exact ⟨n, ⟨by omega, hn⟩, rfl⟩

theorem frac_iff (w : Bytes) : opt TIME_SECFRAC w ↔ ∃ ds : List Nat, (ds.length ≤ 6 ∧ ∀ d ∈ ds, d ≤ 9) ∧ w = fracRender ds := by
  constructor
  · rintro (rfl | h)
    · exact ⟨[], by simp, rfl⟩
    · replace h := (chr_seq (b := 46) rfl).mp h
      obtain ⟨v, rfl, h⟩ := h
      rw [rep_iff digit_iff] at h
      refine ⟨v.map fun b => b.toNat - 48, ⟨by simpa using h.2.1, ?_⟩, ?_⟩
      · intro d hd
        obtain ⟨b, hb, rfl⟩ := List.mem_map.mp hd
        have := h.2.2 b hb; omega
      · have e : (v.map fun b => b.toNat - 48).map digit = v := by
          rw [List.map_map]
          conv => rhs; rw [← List.map_id v]
          refine List.map_congr_left fun b hb => ?_
          exact (Ts.eq_digit (h.2.2 b hb).1 (h.2.2 b hb).2).symm
        rcases hv : v.map (fun b => b.toNat - 48) with _ | ⟨d, ds⟩
        · simp only [List.map_eq_nil_iff] at hv
          subst hv; simp at h
        · rw [hv] at e ⊢; exact congrArg (46 :: ·) e.symm
  · rintro ⟨_ | ⟨d, ds⟩, ⟨h1, h2⟩, rfl⟩
    · exact Or.inl rfl
    · refine Or.inr ((chr_seq (b := 46) rfl).mpr ⟨_, rfl, ?_⟩)
      rw [rep_iff digit_iff]
      refine ⟨by simp, by simpa using h1, ?_⟩
      intro b hb
      obtain ⟨x, hx, rfl⟩ := List.mem_map.mp hb
      rw [Ts.digit_toNat (h2 x hx)]; have := h2 x hx; omega

theorem zone_iff (w : Bytes) : TIME_OFFSET w ↔ ∃ z : Zone, z.WF ∧ w = z.render := by
  constructor
  · rintro (h | ⟨u, v, rfl, hu, hv⟩)
    · exact ⟨.utc, trivial, (chr_iff 90 90 rfl _).mp h⟩
    · obtain ⟨hh, v, rfl, h1, h2⟩ := hv
      replace h2 := (chr_seq (b := 58) rfl).mp h2
      obtain ⟨v, rfl, h2⟩ := h2
      replace h1 := (upto_iff (by omega) _).mp h1
      obtain ⟨x, hx, rfl⟩ := h1
      replace h2 := (upto_iff (by omega) _).mp h2
      obtain ⟨y, hy, rfl⟩ := h2
      rcases hu with hu | hu
      · rw [chr_iff 43 43 rfl] at hu; subst hu
        exact ⟨.num false x y, ⟨hx, hy⟩, rfl⟩
      · rw [chr_iff 45 45 rfl] at hu; subst hu
        exact ⟨.num true x y, ⟨hx, hy⟩, rfl⟩
  · rintro ⟨_ | ⟨neg, x, y⟩, hz, rfl⟩
    · exact Or.inl ((chr_iff 90 90 rfl _).mpr rfl)
    · refine Or.inr ⟨[if neg then 45 else 43], _, rfl, ?_, d2 x, _, rfl, (upto_iff (by omega) _).mpr ⟨x, hz.1, rfl⟩,
        (chr_seq (b := 58) rfl).mpr ⟨_, rfl, (upto_iff (by omega) _).mpr ⟨y, hz.2, rfl⟩⟩⟩
      cases neg
      · exact Or.inl ((chr_iff 43 43 rfl _).mpr rfl)
      · exact Or.inr ((chr_iff 45 45 rfl _).mpr rfl)

theorem monthDays_le (y m : Nat) : Stamp.monthDays y m ≤ 31 := by
  simp only [Stamp.monthDays]; (repeat' split) <;> omega

theorem timestamp_iff (w : Bytes) : TIMESTAMP w ↔ ∃ t : Option Stamp, (∀ s, t = some s → s.WF ∧ s.Real) ∧ w = tsText t := by
  constructor
  · rintro (h | ⟨u, v, rfl, hu, hv⟩)
    · exact ⟨none, by simp, (chr_iff 45 45 rfl _).mp h⟩
    · replace hu := (date_iff _).mp hu
      obtain ⟨y, m, d, ⟨hy, hm, hd1, hd2⟩, rfl⟩ := hu
      replace hv := (chr_seq (b := 84) rfl).mp hv
      obtain ⟨v, rfl, hv⟩ := hv
      obtain ⟨pt, z, rfl, hpt, hz⟩ := hv
      replace hz := (zone_iff _).mp hz
      obtain ⟨z, hz, rfl⟩ := hz
      obtain ⟨hh, v, rfl, h1, hpt⟩ := hpt
      replace hpt := (chr_seq (b := 58) rfl).mp hpt
      obtain ⟨v, rfl, hpt⟩ := hpt
      obtain ⟨mi, v, rfl, h2, hpt⟩ := hpt
      replace hpt := (chr_seq (b := 58) rfl).mp hpt
      obtain ⟨v, rfl, hpt⟩ := hpt
      obtain ⟨se, v, rfl, h3, hpt⟩ := hpt
      replace hpt := (frac_iff _).mp hpt
      obtain ⟨ds, hds, rfl⟩ := hpt
      replace h1 := (upto_iff (by omega) _).mp h1
      obtain ⟨hh, hh', rfl⟩ := h1
      replace h2 := (upto_iff (by omega) _).mp h2
      obtain ⟨mi, hmi, rfl⟩ := h2
      replace h3 := (upto_iff (by omega) _).mp h3
      obtain ⟨se, hse, rfl⟩ := h3
      refine ⟨some ⟨y, m, d, hh, mi, se, ds, z⟩, ?_, ?_⟩
      · intro s hs
        simp only [Option.some.injEq] at hs
        subst hs
        exact ⟨⟨hy, hm.1, hm.2, hd1, Nat.le_trans hd2 (monthDays_le y m), hh', hmi, hse, hds.1, hds.2, hz⟩, hd2⟩
      · simp only [tsText, Stamp.render, List.append_assoc, List.cons_append]
  · rintro ⟨_ | s, hs, rfl⟩
    · exact Or.inl ((chr_iff 45 45 rfl _).mpr rfl)
    · obtain ⟨⟨hy, hm1, hm2, hd1, hd2, hh, hmi, hse, hf1, hf2, hz⟩, hr⟩ := hs s rfl
      refine Or.inr ⟨_, _, ?_, (date_iff _).mpr ⟨s.year, s.month, s.day, ⟨hy, ⟨hm1, hm2⟩, hd1, hr⟩, rfl⟩, (chr_seq (b := 84) rfl).mpr ⟨_, rfl,
        _, s.zone.render, rfl, ⟨d2 s.hour, _, rfl, (upto_iff (by omega) _).mpr ⟨_, hh, rfl⟩, (chr_seq (b := 58) rfl).mpr ⟨_, rfl,
          d2 s.min, _, rfl, (upto_iff (by omega) _).mpr ⟨_, hmi, rfl⟩, (chr_seq (b := 58) rfl).mpr ⟨_, rfl,
          d2 s.sec, fracRender s.frac, rfl, (upto_iff (by omega) _).mpr ⟨_, hse, rfl⟩, (frac_iff _).mpr ⟨_, ⟨hf1, hf2⟩, rfl⟩⟩⟩⟩,
        (zone_iff _).mpr ⟨_, hz, rfl⟩⟩⟩
      simp only [tsText, Stamp.render, List.append_assoc, List.cons_append]

/-! ## Structured data -/

theorem sdName_iff (w : Bytes) : SD_NAME w ↔ SdNameWF w := by
  rw [SD_NAME, rep_iff (p := fun b => Printable b ∧ b ≠ 61 ∧ b ≠ 93 ∧ b ≠ 34)]
  · constructor
    · rintro ⟨h1, h2, h3⟩; exact ⟨List.length_pos_iff.mp h1, h2, h3⟩
    · rintro ⟨h1, h2, h3⟩; exact ⟨List.length_pos_iff.mpr h1, h2, h3⟩
  · intro w
    constructor
    · rintro ⟨⟨b, rfl, hb⟩, h1, -, h2, h3⟩
      exact ⟨b, rfl, hb, by simpa using h1, by simpa using h2, by simpa using h3⟩
    · rintro ⟨b, rfl, hb, h1, h2, h3⟩
      refine ⟨⟨b, rfl, hb⟩, by simpa using h1, ?_, by simpa using h2, by simpa using h3⟩
      simp only [ne_eq, List.cons.injEq, and_true]
      rintro rfl
      have := hb.1; simp at this

theorem r1 {lo hi : Nat} {w : Bytes} : range lo hi w ↔ ∃ b, w = [b] ∧ btw lo hi b := Iff.rfl

theorem utf8Char_iff (w : Bytes) : UTF8_char w ↔ Utf8Char w := by
  constructor
  · rintro (h | h | h | h)
    · obtain ⟨a, rfl, ha⟩ := h; exact .u1 ha
    · obtain ⟨_, _, rfl, ⟨a, rfl, ha⟩, b, rfl, hb⟩ := h; exact .u2 ha hb
    · rcases h with h | h | h | h <;> obtain ⟨_, _, rfl, ⟨a, rfl, ha⟩, _, _, rfl, ⟨b, rfl, hb⟩, c, rfl, hc⟩ := h
      · exact .u3e0 (by omega) hb hc
      · exact .u3 (Or.inl ha) hb hc
      · exact .u3ed (by omega) hb hc
      · exact .u3 (Or.inr ha) hb hc
    · rcases h with h | h | h <;> obtain ⟨_, _, rfl, ⟨a, rfl, ha⟩, _, _, rfl, ⟨b, rfl, hb⟩, _, _, rfl, ⟨c, rfl, hc⟩, d, rfl, hd⟩ := h
      · exact .u4f0 (by omega) hb hc hd
      · exact .u4 ha hb hc hd
      · exact .u4f4 (by omega) hb hc hd
  · intro h
    have s3 : ∀ {l1 h1 l2 h2 l3 h3 : Nat} {a b c : UInt8}, btw l1 h1 a → btw l2 h2 b → btw l3 h3 c →
        (range l1 h1 ⬝ range l2 h2 ⬝ range l3 h3) [a, b, c] := fun ha hb hc => ⟨[_], [_, _], rfl, ⟨_, rfl, ha⟩, [_], [_], rfl, ⟨_, rfl, hb⟩, _, rfl, hc⟩
    have s4 : ∀ {l1 h1 l2 h2 l3 h3 l4 h4 : Nat} {a b c d : UInt8}, btw l1 h1 a → btw l2 h2 b → btw l3 h3 c → btw l4 h4 d →
        (range l1 h1 ⬝ range l2 h2 ⬝ range l3 h3 ⬝ range l4 h4) [a, b, c, d] :=
      fun ha hb hc hd => ⟨[_], [_, _, _], rfl, ⟨_, rfl, ha⟩, [_], [_, _], rfl, ⟨_, rfl, hb⟩, [_], [_], rfl, ⟨_, rfl, hc⟩, _, rfl, hd⟩
    cases h with
    | u1 ha => exact Or.inl ⟨_, rfl, ha⟩
    | u2 ha hb => exact Or.inr (Or.inl ⟨[_], [_], rfl, ⟨_, rfl, ha⟩, _, rfl, hb⟩)
    | u3e0 ha hb hc => exact Or.inr (Or.inr (Or.inl (Or.inl (s3 ⟨by omega, by omega⟩ hb hc))))
    | u3 ha hb hc =>
      rcases ha with ha | ha
      · exact Or.inr (Or.inr (Or.inl (Or.inr (Or.inl (s3 ha hb hc)))))
      · exact Or.inr (Or.inr (Or.inl (Or.inr (Or.inr (Or.inr (s3 ha hb hc))))))
    | u3ed ha hb hc => exact Or.inr (Or.inr (Or.inl (Or.inr (Or.inr (Or.inl (s3 ⟨by omega, by omega⟩ hb hc))))))
    | u4f0 ha hb hc hd => exact Or.inr (Or.inr (Or.inr (Or.inl (s4 ⟨by omega, by omega⟩ hb hc hd))))
    | u4 ha hb hc hd => exact Or.inr (Or.inr (Or.inr (Or.inr (Or.inl (s4 ha hb hc hd)))))
    | u4f4 ha hb hc hd => exact Or.inr (Or.inr (Or.inr (Or.inr (Or.inr (s4 ⟨by omega, by omega⟩ hb hc hd)))))

theorem utf8_iff (w : Bytes) : UTF_8_STRING w ↔ Utf8 w := by
  constructor
  · rintro ⟨l, hl, rfl⟩
    induction l with
    | nil => exact .nil
    | cons x l ih => exact .cons ((utf8Char_iff x).mp (hl x (by simp))) (ih fun y hy => hl y (by simp [hy]))
  · intro h
    induction h with
    | nil => exact many_nil
    | cons hc _ ih => exact many_cons ((utf8Char_iff _).mpr hc) ih

/-- a character of more than one byte has no byte of US-ASCII -/
theorem utf8Char_cases {c : Bytes} (h : Utf8Char c) : (∃ a : UInt8, a.toNat ≤ 0x7F ∧ c = [a]) ∨ (1 < c.length ∧ ∀ b ∈ c, 0x80 ≤ b.toNat) := by
  cases h with
  | u1 ha => exact Or.inl ⟨_, ha.2, rfl⟩
  | _ =>
    refine Or.inr ⟨by simp, ?_⟩
    simp only [btw, List.mem_cons, List.not_mem_nil, or_false, forall_eq_or_imp, forall_eq] at *
    omega

theorem escape_high : ∀ {c : Bytes}, (∀ b ∈ c, 0x80 ≤ b.toNat) → ∀ s, escape (c ++ s) = c ++ escape s := by
  intro c
  induction c with
  | nil => intro _ s; rfl
  | cons b c ih =>
    intro h s
    have hb := h b (by simp)
    have : ¬ (b = 34 ∨ b = 92 ∨ b = 93) := by
      rintro (rfl | rfl | rfl) <;> simp at hb
    simp only [List.cons_append, escape, if_neg this]
    rw [ih (fun x hx => h x (by simp [hx]))]

theorem value_iff (w : Bytes) : PARAM_VALUE w ↔ ∃ v, Utf8 v ∧ w = escape v := by
  constructor
  · rintro ⟨l, hl, rfl⟩
    induction l with
    | nil => exact ⟨[], .nil, rfl⟩
    | cons x l ih =>
      obtain ⟨v, hv, e⟩ := ih fun y hy => hl y (by simp [hy])
      rw [List.flatten_cons, e]
      rcases hl x (by simp) with h | ⟨h, hn⟩
      · replace h := (chr_seq (b := 92) rfl).mp h
        obtain ⟨y, rfl, h⟩ := h
        have : ∃ b : UInt8, y = [b] ∧ (b = 34 ∨ b = 92 ∨ b = 93) := by
          rcases h with h | h | h
          · exact ⟨34, (chr_iff 34 34 rfl _).mp h, by simp⟩
          · exact ⟨92, (chr_iff 92 92 rfl _).mp h, by simp⟩
          · exact ⟨93, (chr_iff 93 93 rfl _).mp h, by simp⟩
        obtain ⟨b, rfl, hb⟩ := this
        refine ⟨[b] ++ v, .cons (.u1 ?_) hv, ?_⟩
        · rcases hb with rfl | rfl | rfl <;> exact ⟨by decide, by decide⟩
        · simp only [List.cons_append, List.nil_append, escape, if_pos hb]
      · have hc := (utf8Char_iff x).mp h
        refine ⟨x ++ v, .cons hc hv, ?_⟩
        rcases utf8Char_cases hc with ⟨a, -, rfl⟩ | ⟨-, hh⟩
        · have : ¬ (a = 34 ∨ a = 92 ∨ a = 93) := by
            simp only [ne_eq, List.cons.injEq, and_true] at hn
            rintro (h | h | h)
            · exact hn.1 h
            · exact hn.2.1 h
            · exact hn.2.2 h
          simp only [List.cons_append, List.nil_append, escape, if_neg this]
        · rw [escape_high hh]
  · rintro ⟨v, hv, rfl⟩
    induction hv with
    | nil => exact many_nil
    | @cons c s hc _ ih =>
      rcases utf8Char_cases hc with ⟨a, -, rfl⟩ | ⟨hl, hh⟩
      · simp only [List.cons_append, List.nil_append, escape]
        by_cases h : a = 34 ∨ a = 92 ∨ a = 93
        · rw [if_pos h]
          refine many_cons (x := [92, a]) (Or.inl ((chr_seq (b := 92) rfl).mpr ⟨[a], rfl, ?_⟩)) ih
          rcases h with rfl | rfl | rfl
          · exact Or.inl ((chr_iff _ _ rfl _).mpr rfl)
          · exact Or.inr (Or.inl ((chr_iff _ _ rfl _).mpr rfl))
          · exact Or.inr (Or.inr ((chr_iff _ _ rfl _).mpr rfl))
        · rw [if_neg h]
          refine many_cons (x := [a]) (Or.inr ⟨(utf8Char_iff _).mpr hc, ?_⟩) ih
          simp only [ne_eq, List.cons.injEq, and_true]
          exact ⟨fun e => h (Or.inl e), fun e => h (Or.inr (Or.inl e)), fun e => h (Or.inr (Or.inr e))⟩
      · rw [escape_high hh]
        refine many_cons (Or.inr ⟨(utf8Char_iff _).mpr hc, ?_⟩) ih
        refine ⟨?_, ?_, ?_⟩ <;> (rintro rfl; simp at hl)

theorem param_iff (w : Bytes) : (SP ⬝ SD_PARAM) w ↔ ∃ p : Param, p.WF ∧ w = p.render := by
  constructor
  · intro h
    replace h := (chr_seq (b := 32) rfl).mp h
    obtain ⟨w, rfl, h⟩ := h
    obtain ⟨n, w, rfl, hn, h⟩ := h
    replace h := (chr_seq (b := 61) rfl).mp h
    obtain ⟨w, rfl, h⟩ := h
    replace h := (chr_seq (b := 34) rfl).mp h
    obtain ⟨w, rfl, h⟩ := h
    obtain ⟨v, q, rfl, hv, hq⟩ := h
    rw [chr_iff 34 34 rfl] at hq; subst hq
    replace hv := (value_iff _).mp hv
    obtain ⟨v, hv, rfl⟩ := hv
    exact ⟨⟨n, v⟩, ⟨(sdName_iff _).mp hn, hv⟩, rfl⟩
  · rintro ⟨p, hp, rfl⟩
    exact (chr_seq (b := 32) rfl).mpr ⟨_, rfl, p.name, _, rfl, (sdName_iff _).mpr hp.1, (chr_seq (b := 61) rfl).mpr ⟨_, rfl,
      (chr_seq (b := 34) rfl).mpr ⟨_, rfl, _, [34], rfl, (value_iff _).mpr ⟨_, hp.2, rfl⟩, (chr_iff _ _ rfl _).mpr rfl⟩⟩⟩

theorem params_iff (w : Bytes) : many (SP ⬝ SD_PARAM) w ↔ ∃ ps : List Param, (∀ p ∈ ps, p.WF) ∧ w = ps.flatMap Param.render := by
  constructor
  · rintro ⟨l, hl, rfl⟩
    induction l with
    | nil => exact ⟨[], by simp, rfl⟩
    | cons x l ih =>
      obtain ⟨p, hp, rfl⟩ := (param_iff x).mp (hl x (by simp))
      obtain ⟨ps, hps, e⟩ := ih fun y hy => hl y (by simp [hy])
      refine ⟨p :: ps, ?_, by rw [List.flatten_cons, e]; rfl⟩
      intro q hq
      rcases List.mem_cons.mp hq with rfl | hq
      · exact hp
      · exact hps q hq
  · rintro ⟨ps, hps, rfl⟩
    induction ps with
    | nil => exact many_nil
    | cons p ps ih => exact many_cons ((param_iff _).mpr ⟨p, hps p (by simp), rfl⟩) (ih fun q hq => hps q (by simp [hq]))

theorem element_iff (id w : Bytes) : SD_ELEMENT id w ↔ ∃ e : Elem, e.WF ∧ e.id = id ∧ w = e.render := by
  constructor
  · intro h
    replace h := (chr_seq (b := 91) rfl).mp h
    obtain ⟨w, rfl, h⟩ := h
    obtain ⟨i, w, rfl, ⟨hi, rfl⟩, h⟩ := h
    obtain ⟨ps, q, rfl, hps, hq⟩ := h
    rw [chr_iff 93 93 rfl] at hq; subst hq
    replace hps := (params_iff _).mp hps
    obtain ⟨ps, hps, rfl⟩ := hps
    exact ⟨⟨i, ps⟩, ⟨(sdName_iff _).mp hi, hps⟩, rfl, rfl⟩
  · rintro ⟨e, he, rfl, rfl⟩
    exact (chr_seq (b := 91) rfl).mpr ⟨_, rfl, e.id, _, rfl, ⟨(sdName_iff _).mpr he.1, rfl⟩, _, [93], rfl,
      (params_iff _).mpr ⟨_, he.2, rfl⟩, (chr_iff _ _ rfl _).mpr rfl⟩

theorem elements_iff : ∀ (ids : List Bytes) (w : Bytes),
    elements ids w ↔ ∃ es : List Elem, (∀ e ∈ es, e.WF) ∧ es.map Elem.id = ids ∧ w = es.flatMap Elem.render := by
  intro ids
  induction ids with
  | nil =>
    intro w
    constructor
    · intro h; exact ⟨[], by simp, rfl, h⟩
    · rintro ⟨es, -, h, rfl⟩
      rw [List.map_eq_nil_iff] at h
      subst h; rfl
  | cons id ids ih =>
    intro w
    constructor
    · rintro ⟨u, v, rfl, hu, hv⟩
      replace hu := (element_iff _ _).mp hu
      obtain ⟨e, he, rfl, rfl⟩ := hu
      replace hv := (ih v).mp hv
      obtain ⟨es, hes, rfl, rfl⟩ := hv
      refine ⟨e :: es, ?_, rfl, rfl⟩
      intro x hx
      rcases List.mem_cons.mp hx with rfl | hx
      · exact he
      · exact hes x hx
    · rintro ⟨es, hes, h, rfl⟩
      rcases es with _ | ⟨e, es⟩
      · simp at h
      · simp only [List.map_cons, List.cons.injEq] at h
        obtain ⟨h1, h2⟩ := h
        exact ⟨e.render, es.flatMap Elem.render, rfl, (element_iff _ _).mpr ⟨e, hes e (by simp), h1, rfl⟩,
          (ih _).mpr ⟨es, fun x hx => hes x (by simp [hx]), h2, rfl⟩⟩

theorem sdText_of {es : List Elem} (h : es ≠ []) : sdText es = es.flatMap Elem.render := by
  cases es with
  | nil => exact absurd rfl h
  | cons => rfl

theorem sd_iff (w : Bytes) : STRUCTURED_DATA w ↔ ∃ sd : List Elem, (∀ e ∈ sd, e.WF) ∧ (sd.map Elem.id).Nodup ∧ w = sdText sd := by
  constructor
  · rintro (h | ⟨ids, hne, hnd, h⟩)
    · exact ⟨[], by simp, by simp, (chr_iff 45 45 rfl _).mp h⟩
    · replace h := (elements_iff ids w).mp h
      obtain ⟨es, hes, rfl, rfl⟩ := h
      exact ⟨es, hes, hnd, (sdText_of fun e => hne (by rw [e]; rfl)).symm⟩
  · rintro ⟨sd, h1, h2, rfl⟩
    by_cases h : sd = []
    · subst h; exact Or.inl ((chr_iff 45 45 rfl _).mpr rfl)
    · refine Or.inr ⟨sd.map Elem.id, by simpa using h, h2, ?_⟩
      rw [elements_iff]
      exact ⟨sd, h1, rfl, sdText_of h⟩

/-! ## MSG -/

theorem bom_iff (w : Bytes) : BOM w ↔ w = bom := by
  constructor
  · intro h
    replace h := (chr_seq (b := 0xEF) rfl).mp h
    obtain ⟨v, rfl, h⟩ := h
    replace h := (chr_seq (b := 0xBB) rfl).mp h
    obtain ⟨v, rfl, h⟩ := h
    rw [chr_iff 0xBF 0xBF rfl] at h
    subst h; rfl
  · rintro rfl
    exact (chr_seq (b := 0xEF) rfl).mpr ⟨_, rfl, (chr_seq (b := 0xBB) rfl).mpr ⟨_, rfl, (chr_iff _ _ rfl _).mpr rfl⟩⟩

/-- the byte order mark is a character -/
theorem utf8_bom (v : Bytes) : Utf8 (bom ++ v) ↔ Utf8 v := by
  constructor
  · intro h
    obtain ⟨c, s, hc, hs, e⟩ : ∃ c s, Utf8Char c ∧ Utf8 s ∧ bom ++ v = c ++ s := by
      generalize hx : bom ++ v = x at h
      cases h with
      | nil => simp [bom] at hx
      | cons hc hs => exact ⟨_, _, hc, hs, rfl⟩
    simp only [bom, List.cons_append, List.nil_append] at e
    cases hc with
    | u3 ha hb hc => simp only [List.cons_append, List.nil_append, List.cons.injEq] at e; rw [e.2.2.2]; exact hs
    | _ =>
      exfalso
      simp only [List.cons_append, List.nil_append, List.cons.injEq] at e
      obtain ⟨rfl, -⟩ := e
      simp_all [btw]
  · intro h
    exact .cons (.u3 (Or.inr ⟨by decide, by decide⟩) ⟨by decide, by decide⟩ ⟨by decide, by decide⟩) h

theorem msg_iff (w : Bytes) : MSG w ↔ MsgCompliant w := by
  constructor
  · rintro (⟨-, h⟩ | ⟨u, v, rfl, hu, hv⟩)
    · rintro ⟨t, e⟩
      exact absurd ⟨bom, t, e.symm, (bom_iff _).mpr rfl⟩ h
    · rw [bom_iff] at hu; subst hu
      intro _
      exact (utf8_bom v).mpr ((utf8_iff v).mp hv)
  · intro h
    by_cases hb : bom <+: w
    · obtain ⟨v, rfl⟩ := hb
      exact Or.inr ⟨bom, v, rfl, (bom_iff _).mpr rfl, (utf8_iff v).mpr ((utf8_bom v).mp (h ⟨v, rfl⟩))⟩
    · refine Or.inl ⟨many_octet w, ?_⟩
      rintro ⟨u, v, rfl, hu⟩
      rw [bom_iff] at hu; subst hu
      exact hb ⟨v, rfl⟩

theorem optMsg_iff {A : Rule} {p : Bytes → Prop} (hA : ∀ w, A w ↔ p w) (w : Bytes) :
    opt (SP ⬝ A) w ↔ ∃ m : Option Bytes, (∀ v, m = some v → p v) ∧ w = msgText m := by
  constructor
  · rintro (rfl | h)
    · exact ⟨none, by simp, rfl⟩
    · replace h := (chr_seq (b := 32) rfl).mp h
      obtain ⟨v, rfl, h⟩ := h
      refine ⟨some v, ?_, rfl⟩
      intro v' hv'
      simp only [Option.some.injEq] at hv'
      subst hv'; exact (hA _).mp h
  · rintro ⟨_ | v, h, rfl⟩
    · exact Or.inl rfl
    · exact Or.inr ((chr_seq (b := 32) rfl).mpr ⟨v, rfl, (hA v).mpr (h v rfl)⟩)

/-! ## SYSLOG-MSG -/

theorem syslog_iff {A : Rule} {P : Bytes → Prop} (hA : ∀ w, A w ↔ P w) (w : Bytes) :
    (HEADER ⬝ SP ⬝ STRUCTURED_DATA ⬝ opt (SP ⬝ A)) w ↔ ∃ p : Parts, p.WF ∧ p.render = w ∧ ∀ v, p.msg = some v → P v := by
  constructor
  · rintro ⟨hd, w, rfl, hh, hw⟩
    obtain ⟨pr, hd, rfl, hpr, hh⟩ := hh
    replace hpr := (chr_seq (b := 60) rfl).mp hpr
    obtain ⟨pr, rfl, hpr⟩ := hpr
    obtain ⟨pr, gt, rfl, hpr, hgt⟩ := hpr
    rw [chr_iff 62 62 rfl] at hgt; subst hgt
    replace hpr := (prival_iff _).mp hpr
    obtain ⟨n, hn, rfl⟩ := hpr
    obtain ⟨ve, hd, rfl, hve, hh⟩ := hh
    replace hve := (version_iff _).mp hve
    obtain ⟨ve, hve, rfl⟩ := hve
    replace hh := (chr_seq (b := 32) rfl).mp hh
    obtain ⟨hd, rfl, hh⟩ := hh
    obtain ⟨ts, hd, rfl, hts, hh⟩ := hh
    replace hts := (timestamp_iff _).mp hts
    obtain ⟨ts, hts, rfl⟩ := hts
    replace hh := (chr_seq (b := 32) rfl).mp hh
    obtain ⟨hd, rfl, hh⟩ := hh
    obtain ⟨ho, hd, rfl, hho, hh⟩ := hh
    replace hho := (field_iff 255 _).mp hho
    obtain ⟨ho, hho, rfl⟩ := hho
    replace hh := (chr_seq (b := 32) rfl).mp hh
    obtain ⟨hd, rfl, hh⟩ := hh
    obtain ⟨ap, hd, rfl, hap, hh⟩ := hh
    replace hap := (field_iff 48 _).mp hap
    obtain ⟨ap, hap, rfl⟩ := hap
    replace hh := (chr_seq (b := 32) rfl).mp hh
    obtain ⟨hd, rfl, hh⟩ := hh
    obtain ⟨pi, hd, rfl, hpi, hh⟩ := hh
    replace hpi := (field_iff 128 _).mp hpi
    obtain ⟨pi, hpi, rfl⟩ := hpi
    replace hh := (chr_seq (b := 32) rfl).mp hh
    obtain ⟨hd, rfl, hh⟩ := hh
    replace hh := (field_iff 32 _).mp hh
    obtain ⟨mi, hmi, rfl⟩ := hh
    replace hw := (chr_seq (b := 32) rfl).mp hw
    obtain ⟨w, rfl, hw⟩ := hw
    obtain ⟨sd, w, rfl, hsd, hw⟩ := hw
    replace hsd := (sd_iff _).mp hsd
    obtain ⟨sd, hsd1, hsd2, rfl⟩ := hsd
    replace hw := (optMsg_iff hA _).mp hw
    obtain ⟨m, hm, rfl⟩ := hw
    refine ⟨⟨n, ve, ts, ho, ap, pi, mi, sd, m⟩, ⟨hn, hve, hts, hho, hap, hpi, hmi, hsd1, hsd2⟩, ?_, hm⟩
    simp only [Parts.render, List.append_assoc, List.cons_append, List.nil_append]
  · rintro ⟨p, hp, rfl, hm⟩
    refine ⟨_, _, ?_, ⟨60 :: (dec p.pri ++ [62]), _, rfl,
      (chr_seq (b := 60) rfl).mpr ⟨_, rfl, _, [62], rfl, (prival_iff _).mpr ⟨_, hp.pri, rfl⟩, (chr_iff _ _ rfl _).mpr rfl⟩,
      dec p.version, _, rfl, (version_iff _).mpr ⟨_, hp.version, rfl⟩, (chr_seq (b := 32) rfl).mpr ⟨_, rfl,
      tsText p.timestamp, _, rfl, (timestamp_iff _).mpr ⟨_, hp.timestamp, rfl⟩, (chr_seq (b := 32) rfl).mpr ⟨_, rfl,
      fieldText p.hostname, _, rfl, (field_iff 255 _).mpr ⟨_, hp.hostname, rfl⟩, (chr_seq (b := 32) rfl).mpr ⟨_, rfl,
      fieldText p.appname, _, rfl, (field_iff 48 _).mpr ⟨_, hp.appname, rfl⟩, (chr_seq (b := 32) rfl).mpr ⟨_, rfl,
      fieldText p.procID, _, rfl, (field_iff 128 _).mpr ⟨_, hp.procID, rfl⟩, (chr_seq (b := 32) rfl).mpr ⟨fieldText p.msgID, rfl,
      (field_iff 32 _).mpr ⟨_, hp.msgID, rfl⟩⟩⟩⟩⟩⟩⟩,
      (chr_seq (b := 32) rfl).mpr ⟨_, rfl, sdText p.sd, msgText p.msg, rfl, (sd_iff _).mpr ⟨_, hp.sd, hp.ids, rfl⟩,
        (optMsg_iff hA _).mpr ⟨_, hm, rfl⟩⟩⟩
    simp only [Parts.render, List.append_assoc, List.cons_append, List.nil_append]

end Verif.Abnf
