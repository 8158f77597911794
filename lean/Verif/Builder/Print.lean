import Verif.Builder.Model
import Verif.CommonLemmas
import Verif.Rfc5424.Steps

/-! # The text produced by `String` -/

namespace Verif.Builder
open Verif.Spec
open Verif.Rfc5424 (SyslogMessage SD)

/-! ## numbers -/

theorem printUint_eq (n : Nat) : printUint n = dec n := by
  induction n using Nat.strongRecOn with
  | ind n ih =>
    rw [printUint, dec]
    by_cases h : n < 10
    · rw [if_pos h, if_pos h]; rfl
    · rw [if_neg h, if_neg h, ih (n / 10) (by omega)]; rfl

/-- value of a list of digits -/
def dval (ds : List Nat) : Nat := ds.foldl (fun a d => a * 10 + d) 0

theorem dval_snoc (ds : List Nat) (d : Nat) : dval (ds ++ [d]) = dval ds * 10 + d := by simp [dval]

theorem dval_zeros (ds : List Nat) (k : Nat) : dval (ds ++ List.replicate k 0) = dval ds * 10 ^ k := by
  induction k with
  | zero => simp
  | succ k ih => rw [List.replicate_succ', ← List.append_assoc, dval_snoc, ih, Nat.pow_succ]; simp [Nat.mul_assoc]

/-- zero padding -/
def pad (k : Nat) (w : Bytes) : Bytes := List.replicate (k - w.length) 48 ++ w

theorem pad_dec_snoc (k q d : Nat) (hk : 1 ≤ k) (hd : d ≤ 9) : pad (k + 1) (dec (q * 10 + d)) = pad k (dec q) ++ [digit d] := by
  by_cases hq : q = 0
  · subst hq
    obtain ⟨j, rfl⟩ : ∃ j, k = j + 1 := ⟨k - 1, by omega⟩
    rw [show 0 * 10 + d = d by omega, dec_lt (by omega), dec_lt (by omega)]
    simp only [pad, List.length_singleton, Nat.add_sub_cancel]
    rw [List.replicate_succ']
    rfl
  · rw [dec_ge (by omega : 10 ≤ q * 10 + d), show (q * 10 + d) / 10 = q by omega, show (q * 10 + d) % 10 = d by omega]
    simp only [pad, List.length_append, List.length_singleton, ← List.append_assoc]
    rw [show k + 1 - ((dec q).length + 1) = k - (dec q).length by omega]

theorem pad_dec (ds : List Nat) (hne : ds ≠ []) (h : ∀ d ∈ ds, d ≤ 9) : pad ds.length (dec (dval ds)) = ds.map digit := by
  induction hn : ds.length generalizing ds with
  | zero => exact absurd (List.length_eq_zero_iff.mp hn) hne
  | succ k ih =>
    rcases List.eq_nil_or_concat ds with rfl | ⟨ds', d, rfl⟩
    · exact absurd rfl hne
    rw [List.concat_eq_append] at *
    simp only [List.length_append, List.length_singleton, Nat.add_right_cancel_iff] at hn
    have hd : d ≤ 9 := h d (by simp)
    rw [dval_snoc, List.map_append]
    by_cases hds : ds' = []
    · subst hds
      simp only [List.length_nil] at hn
      subst hn
      rw [show dval [] * 10 + d = d by simp [dval], dec_lt (by omega)]
      rfl
    · have hk : 1 ≤ k := by rw [← hn]; exact List.length_pos_iff.mpr hds
      rw [pad_dec_snoc k _ d hk hd, ih ds' hds (fun x hx => h x (by simp [hx])) hn]
      rfl

theorem appendInt_nat (n k : Nat) : appendInt (n : Int) k = pad k (dec n) := by
  simp only [appendInt, printUint_eq, Int.natAbs_natCast, pad]
  rw [if_neg (by omega)]; rfl

theorem appendInt2 {n : Nat} (h : n ≤ 99) : appendInt (n : Int) 2 = d2 n := by
  have := pad_dec [n / 10, n % 10] (by simp) (by simp; omega)
  rw [show dval [n / 10, n % 10] = n by simp only [dval, List.foldl]; omega] at this
  rw [appendInt_nat]
  exact this

theorem appendInt4 {n : Nat} (h : n ≤ 9999) : appendInt (n : Int) 4 = d4 n := by
  have := pad_dec [n / 100 / 10, n / 100 % 10, n % 100 / 10, n % 100 % 10] (by simp) (by simp; omega)
  rw [show dval [n / 100 / 10, n / 100 % 10, n % 100 / 10, n % 100 % 10] = n by simp only [dval, List.foldl]; omega] at this
  rw [appendInt_nat]
  exact this

/-! ## timestamps -/

/-- without trailing zeros -/
def strip (ds : List Nat) : List Nat := (ds.reverse.dropWhile (· == 0)).reverse

theorem strip_zeros (ds : List Nat) (k : Nat) : strip (ds ++ List.replicate k 0) = strip ds := by
  simp only [strip, List.reverse_append, List.reverse_replicate]
  congr 1
  induction k with
  | zero => rfl
  | succ k ih => rw [List.replicate_succ, List.cons_append, List.dropWhile_cons_of_pos (by rfl), ih]

theorem strip_split (ds : List Nat) : ∃ k, ds = strip ds ++ List.replicate k 0 := by
  refine ⟨(ds.reverse.takeWhile (· == 0)).length, ?_⟩
  have h1 := List.takeWhile_append_dropWhile (p := (· == 0)) (l := ds.reverse)
  have h2 : ds.reverse.takeWhile (· == 0) = List.replicate (ds.reverse.takeWhile (· == 0)).length 0 := by
    rw [List.eq_replicate_iff]
    refine ⟨rfl, fun b hb => ?_⟩
    have := List.all_takeWhile (l := ds.reverse) (p := (· == 0))
    rw [List.all_eq_true] at this
    simpa using this b hb
  have h3 := congrArg List.reverse h1
  rw [List.reverse_append, List.reverse_reverse] at h3
  conv => lhs; rw [← h3]
  simp only [strip]
  congr 1
  conv => lhs; rw [h2]
  rw [List.reverse_replicate]

theorem strip_length (ds : List Nat) : (strip ds).length ≤ ds.length := by
  obtain ⟨k, hk⟩ := strip_split ds
  have := congrArg List.length hk
  simp only [List.length_append] at this
  omega

theorem strip_mem {ds : List Nat} {d : Nat} (h : d ∈ strip ds) : d ∈ ds := by
  obtain ⟨k, hk⟩ := strip_split ds
  rw [hk]; simp [h]

theorem strip_nanos (ds : List Nat) (h : ds.length ≤ 9) : fracNanos (strip ds) = fracNanos ds := by
  obtain ⟨k, hk⟩ := strip_split ds
  have hl := congrArg List.length hk
  simp only [List.length_append, List.length_replicate] at hl
  have h1 : dval ds = dval (strip ds) * 10 ^ k := by conv => lhs; rw [hk, dval_zeros]
  show dval (strip ds) * _ = dval ds * _
  rw [h1, Nat.mul_assoc, ← Nat.pow_add, show 9 - (strip ds).length = k + (9 - ds.length) by omega]

theorem dropWhile_digits (l : List Nat) (h : ∀ d ∈ l, d ≤ 9) :
    (l.map digit).dropWhile (· = 48) = (l.dropWhile (· == 0)).map digit := by
  induction l with
  | nil => rfl
  | cons d l ih =>
    have hd := h d (by simp)
    have key : (digit d = 48) ↔ d = 0 := by
      rw [← UInt8.toNat_inj, Ts.digit_toNat hd]
      show 48 + d = 48 ↔ _
      omega
    rw [List.map_cons]
    by_cases h0 : d = 0
    · rw [List.dropWhile_cons_of_pos (by exact decide_eq_true (key.mpr h0)), List.dropWhile_cons_of_pos (by simp [h0]), ih (fun x hx => h x (by simp [hx]))]
    · rw [List.dropWhile_cons_of_neg (by simp [key, h0]), List.dropWhile_cons_of_neg (by simp [h0])]; rfl

theorem appendNano_eq (ds : List Nat) (h6 : ds.length ≤ 6) (h : ∀ d ∈ ds, d ≤ 9) :
    appendNano (fracNanos ds) = fracRender (strip ds) := by
  have h9 : fracNanos ds = dval (ds ++ List.replicate (9 - ds.length) 0) := by rw [dval_zeros]; rfl
  have hd9 : ∀ d ∈ ds ++ List.replicate (9 - ds.length) 0, d ≤ 9 := by
    intro d hd
    rcases List.mem_append.mp hd with hd | hd
    · exact h d hd
    · rw [List.mem_replicate] at hd; omega
  have hp := pad_dec (ds ++ List.replicate (9 - ds.length) 0) (by
    intro hh
    have := congrArg List.length hh
    simp only [List.length_append, List.length_replicate, List.length_nil] at this
    omega) hd9
  have hl9 : (ds ++ List.replicate (9 - ds.length) 0).length = 9 := by
    simp only [List.length_append, List.length_replicate]; omega
  rw [hl9] at hp
  have ht : (appendInt (fracNanos ds : Nat) 9).take 6 = (ds ++ List.replicate (6 - ds.length) 0).map digit := by
    rw [appendInt_nat, h9, hp, ← List.map_take, List.take_append, List.take_of_length_le h6, List.take_replicate]
    rw [show min (6 - ds.length) (9 - ds.length) = 6 - ds.length by omega]
  simp only [appendNano, ht]
  rw [← List.map_reverse, dropWhile_digits _ (by
    intro d hd
    rw [List.mem_reverse] at hd
    rcases List.mem_append.mp hd with hd | hd
    · exact h d hd
    · rw [List.mem_replicate] at hd; omega)]
  have hs := strip_zeros ds (6 - ds.length)
  rw [strip] at hs
  rw [← hs, ← List.map_reverse]
  cases (ds ++ List.replicate (6 - ds.length) 0).reverse.dropWhile (· == 0) with
  | nil => rfl
  | cons a l =>
    rw [if_neg (by simp)]
    generalize hr : (a :: l).reverse = r
    cases r with
    | nil => simp at hr
    | cons x xs => rfl

/-- the zone as printed: a zero offset is `Z` -/
def canonZone (z : Zone) : Zone := if z.seconds = 0 then .utc else z

theorem canonZone_seconds (z : Zone) : (canonZone z).seconds = z.seconds := by
  unfold canonZone; split
  · rename_i h; rw [h]; rfl
  · rfl

theorem appendZone_eq (z : Zone) (h : z.WF) : appendZone z.seconds = (canonZone z).render := by
  unfold appendZone canonZone
  by_cases h0 : z.seconds = 0
  · rw [if_pos h0, if_pos h0]; rfl
  · rw [if_neg h0, if_neg h0]
    cases z with
    | utc => exact absurd rfl h0
    | num neg hh mm =>
      simp only [Zone.WF] at h
      have e1 : (Zone.num neg hh mm).seconds.natAbs = hh * 3600 + mm * 60 := by
        cases neg <;> simp only [Zone.seconds, if_true, Bool.false_eq_true, if_false] <;> omega
      have e2 : (Zone.num neg hh mm).seconds.natAbs / 60 / 60 = hh ∧ (Zone.num neg hh mm).seconds.natAbs / 60 % 60 = mm := by
        rw [e1]; omega
      simp only [e2.1, e2.2]
      rw [appendInt2 (by omega), appendInt2 (by omega)]
      have e3 : ((Zone.num neg hh mm).seconds.tdiv 60 < 0) ↔ neg = true := by
        cases neg
        · simp only [Zone.seconds, Bool.false_eq_true, if_false, iff_false, Int.not_lt]
          exact Int.tdiv_nonneg (by omega) (by omega)
        · simp only [Zone.seconds, if_true, iff_true]
          simp only [Zone.seconds, if_true] at h0
          rw [Int.neg_tdiv]
          have : (0 : Int) < ((hh * 3600 + mm * 60 : Nat) : Int).tdiv 60 := by
            rw [Int.tdiv_eq_ediv_of_nonneg (by omega)]
            omega
          omega
      cases neg
      · rw [if_neg (by rw [e3]; simp)]; rfl
      · rw [if_pos (by rw [e3])]; rfl

/-- the timestamp as printed -/
def canonStamp (s : Stamp) : Stamp := { s with frac := strip s.frac, zone := canonZone s.zone }

theorem canonStamp_wf {s : Stamp} (h : s.WF) : (canonStamp s).WF := by
  obtain ⟨h1, h2, h3, h4, h5, h6, h7, h8, h9, h10, h11⟩ := h
  refine ⟨h1, h2, h3, h4, h5, h6, h7, h8, Nat.le_trans (strip_length _) h9, fun d hd => h10 d (strip_mem hd), ?_⟩
  simp only [canonStamp, canonZone]
  split
  · trivial
  · exact h11

theorem canonStamp_time {s : Stamp} (h : s.WF) : (canonStamp s).time = s.time := by
  obtain ⟨-, -, -, -, -, -, -, -, h9, -, -⟩ := h
  simp only [Stamp.time, canonStamp]
  rw [strip_nanos _ (by omega), canonZone_seconds]

theorem formatMicro_eq {s : Stamp} (h : s.WF) : formatMicro s.time = (canonStamp s).render := by
  obtain ⟨h1, h2, h3, h4, h5, h6, h7, h8, h9, h10, h11⟩ := h
  simp only [formatMicro, Stamp.time, Stamp.render, canonStamp]
  rw [appendInt4 (by omega), appendInt2 (by omega), appendInt2 (by omega), appendInt2 (by omega), appendInt2 (by omega),
    appendInt2 (by omega), appendNano_eq _ h9 h10, appendZone_eq _ h11]

/-! ## sorting -/

theorem ble_trans (a b c : Bytes) (h1 : ble a b = true) (h2 : ble b c = true) : ble a c = true := by
  simp only [ble, Bool.not_eq_true'] at *
  cases h : blt c a with
  | false => rfl
  | true =>
    by_cases hbc : b = c
    · subst hbc; rw [h] at h1; simp at h1
    · have : blt b c = true := by
        cases hb : blt b c with
        | true => rfl
        | false => exact absurd (blt_total hb h2) hbc
      rw [blt_trans this h] at h1; simp at h1

theorem ble_total (a b : Bytes) : (ble a b || ble b a) = true := by
  simp only [ble]
  cases h : blt b a with
  | false => simp
  | true => simp [blt_asymm h]

theorem ble_antisymm {a b : Bytes} (h1 : ble a b = true) (h2 : ble b a = true) : a = b := by
  simp only [ble, Bool.not_eq_true'] at *
  exact blt_total h2 h1

theorem sorted_perm_eq : ∀ {l l' : List Bytes}, l.Perm l' → l.Pairwise (fun a b => ble a b = true) →
    l'.Pairwise (fun a b => ble a b = true) → l = l' := by
  intro l l' h h1 h2
  exact h.eq_of_pairwise (le := fun a b => ble a b = true) (fun _ _ _ _ => ble_antisymm) h1 h2

theorem insertSorted_perm (a : Bytes) (l : List Bytes) : (insertSorted a l).Perm (a :: l) := by
  induction l with
  | nil => exact List.Perm.refl _
  | cons b l ih =>
    rw [insertSorted]
    split
    · exact List.Perm.refl _
    · exact (List.Perm.cons b ih).trans (List.Perm.swap a b l)

theorem sortStrings_perm (l : List Bytes) : (sortStrings l).Perm l := by
  induction l with
  | nil => exact List.Perm.refl _
  | cons a l ih => exact (insertSorted_perm a _).trans (List.Perm.cons a ih)

theorem insertSorted_sorted {a : Bytes} {l : List Bytes} (h : l.Pairwise (fun a b => ble a b = true)) :
    (insertSorted a l).Pairwise (fun a b => ble a b = true) := by
  induction l with
  | nil => exact List.pairwise_singleton _ _
  | cons b l ih =>
    rw [insertSorted]
    rw [List.pairwise_cons] at h
    split
    · rename_i hab
      refine List.Pairwise.cons (fun x hx => ?_) (List.pairwise_cons.mpr h)
      rcases List.mem_cons.mp hx with rfl | hx
      · exact hab
      · exact ble_trans _ _ _ hab (h.1 x hx)
    · rename_i hab
      refine List.Pairwise.cons (fun x hx => ?_) (ih h.2)
      rcases List.mem_cons.mp ((insertSorted_perm a l).mem_iff.mp hx) with rfl | hx
      · have := ble_total x b
        cases hxb : ble x b with
        | true => exact absurd hxb hab
        | false => simpa [hxb] using this
      · exact h.1 x hx

theorem sortStrings_sorted (l : List Bytes) : (sortStrings l).Pairwise (fun a b => ble a b = true) := by
  induction l with
  | nil => exact List.Pairwise.nil
  | cons a l ih => exact insertSorted_sorted ih

theorem sortStrings_of_perm {l l' : List Bytes} (h : l.Perm l') : sortStrings l = sortStrings l' :=
  sorted_perm_eq (((sortStrings_perm l).trans h).trans (sortStrings_perm l').symm) (sortStrings_sorted _) (sortStrings_sorted _)

/-- whatever algorithm is used: a sorted permutation is the result -/
theorem sortStrings_unique {l r : List Bytes} (h : r.Perm l) (hs : r.Pairwise (fun a b => ble a b = true)) : r = sortStrings l :=
  sorted_perm_eq (h.trans (sortStrings_perm l).symm) hs (sortStrings_sorted _)

theorem ble_of_blt {a b : Bytes} (h : blt a b = true) : ble a b = true := by simp [ble, blt_asymm h]

theorem keys_sorted {V : Type} {m : SMap V} (h : m.Sorted) : (keys m).Pairwise (fun a b => ble a b = true) := by
  induction m with
  | nil => exact List.Pairwise.nil
  | cons x r ih =>
    obtain ⟨k, v⟩ := x
    refine List.Pairwise.cons ?_ (ih h.2)
    intro a ha
    obtain ⟨e, he, rfl⟩ := List.mem_map.mp ha
    exact ble_of_blt (h.1 e he)

theorem sort_keys {V : Type} {m : SMap V} (h : m.Sorted) : sortStrings (keys m) = keys m :=
  (sortStrings_unique (List.Perm.refl _) (keys_sorted h)).symm

end Verif.Builder
