import Verif.Spec.Rfc3164
import Verif.Timestamp
import Verif.Rfc3164.Machine

/-!
# The `Mmm dd hh:mm:ss` sub-automaton and Go's `time.Parse(time.Stamp, _)` on its language
-/

namespace Verif.Rfc3164
open Spec Spec.Bsd GoTime

/-- Named states of the automaton (what was read of the month, then what is expected next). -/
inductive Bs where
  | m1 | La | Lap | Lau | Ld | Lde | Lf | Lfe | Lj | Lja | Lju | Lm | Lma | Ln | Lno | Lo | Loc | Ls | Lse
  | sp1 | day | dsp | d12 | d3 | sp2 | hour | h01 | h2 | c1 | min | minu | c2 | sec | secu | fin
  deriving DecidableEq, Repr

namespace Bs

/-- transitions: byte ranges and targets -/
def row : Bs → List (Nat × Nat × Bs)
  | m1 => [(65, 65, La), (68, 68, Ld), (70, 70, Lf), (74, 74, Lj), (77, 77, Lm), (78, 78, Ln), (79, 79, Lo), (83, 83, Ls)]
  | La => [(112, 112, Lap), (117, 117, Lau)]
  | Lap => [(114, 114, sp1)]
  | Lau => [(103, 103, sp1)]
  | Ld => [(101, 101, Lde)]
  | Lde => [(99, 99, sp1)]
  | Lf => [(101, 101, Lfe)]
  | Lfe => [(98, 98, sp1)]
  | Lj => [(97, 97, Lja), (117, 117, Lju)]
  | Lja => [(110, 110, sp1)]
  | Lju => [(108, 108, sp1), (110, 110, sp1)]
  | Lm => [(97, 97, Lma)]
  | Lma => [(114, 114, sp1), (121, 121, sp1)]
  | Ln => [(111, 111, Lno)]
  | Lno => [(118, 118, sp1)]
  | Lo => [(99, 99, Loc)]
  | Loc => [(116, 116, sp1)]
  | Ls => [(101, 101, Lse)]
  | Lse => [(112, 112, sp1)]
  | sp1 => [(32, 32, day)]
  | day => [(32, 32, dsp), (49, 50, d12), (51, 51, d3)]
  | dsp => [(49, 57, sp2)]
  | d12 => [(48, 57, sp2)]
  | d3 => [(48, 49, sp2)]
  | sp2 => [(32, 32, hour)]
  | hour => [(48, 49, h01), (50, 50, h2)]
  | h01 => [(48, 57, c1)]
  | h2 => [(48, 51, c1)]
  | c1 => [(58, 58, min)]
  | min => [(48, 53, minu)]
  | minu => [(48, 57, c2)]
  | c2 => [(58, 58, sec)]
  | sec => [(48, 53, secu)]
  | secu => [(48, 57, fin)]
  | fin => []

def look (n : Nat) : List (Nat × Nat × Bs) → Option Bs
  | [] => none
  | (lo, hi, s) :: r => if lo ≤ n ∧ n ≤ hi then some s else look n r

def step (s : Bs) (b : UInt8) : Option Bs := look b.toNat (row s)

def scan : Bs → Bytes → Ts.Res
  | s, [] => if s = fin then .ok [] [] else .bad 0
  | s, b :: l =>
    if s = fin then .ok [] (b :: l)
    else match step s b with
      | none => .bad 0
      | some s' => (scan s' l).cons b

theorem scan_fin (l : Bytes) : scan fin l = .ok [] l := by cases l <;> simp [scan]

theorem scan_cons_of {s s' : Bs} {b : UInt8} {l : Bytes} (hs : s ≠ fin) (h : step s b = some s') :
    scan s (b :: l) = (scan s' l).cons b := by simp [scan, hs, h]

theorem scan_append {s : Bs} {l w rest : Bytes} (h : scan s l = .ok w rest) : l = w ++ rest := by
  induction l generalizing s w with
  | nil => simp only [scan] at h; split at h <;> simp_all
  | cons b l ih =>
    simp only [scan] at h
    split at h
    · simp at h; simp [← h.1, ← h.2]
    · split at h
      · simp at h
      · rename_i s' _
        cases hr : scan s' l with
        | bad n => simp [hr, Ts.Res.cons] at h
        | ok w' r' => simp [hr, Ts.Res.cons] at h; rw [← h.1, ih (s := s') (w := w') (by rw [hr, h.2])]; rfl

theorem scan_bad_le {s : Bs} {l : Bytes} {n : Nat} (h : scan s l = .bad n) : n ≤ l.length := by
  induction l generalizing s n with
  | nil => simp only [scan] at h; split at h <;> simp_all
  | cons b l ih =>
    simp only [scan] at h
    split at h
    · simp at h
    · split at h
      · simp at h; omega
      · rename_i s' _
        cases hr : scan s' l with
        | ok w' r' => simp [hr, Ts.Res.cons] at h
        | bad k => simp [hr, Ts.Res.cons] at h; have := ih hr; simp; omega

theorem scan_inv {s : Bs} {l w rest : Bytes} (hs : s ≠ fin) (h : scan s l = .ok w rest) :
    ∃ b w' l' s', l = b :: l' ∧ w = b :: w' ∧ step s b = some s' ∧ scan s' l' = .ok w' rest := by
  cases l with
  | nil => simp [scan, hs] at h
  | cons b l =>
    simp only [scan, if_neg hs] at h
    split at h
    · simp at h
    · rename_i s' hs'
      cases hr : scan s' l with
      | bad n => simp [hr, Ts.Res.cons] at h
      | ok w' r' =>
        simp [hr, Ts.Res.cons] at h
        exact ⟨b, w', l, s', rfl, h.1.symm, hs', by rw [hr, h.2]⟩

theorem look_some {n : Nat} {s : Bs} : ∀ {r : List (Nat × Nat × Bs)}, look n r = some s → ∃ x ∈ r, x.1 ≤ n ∧ n ≤ x.2.1 ∧ s = x.2.2
  | [], h => by simp [look] at h
  | (lo, hi, s') :: r, h => by
    simp only [look] at h
    split at h
    · rename_i hb; simp at h; exact ⟨(lo, hi, s'), by simp, hb.1, hb.2, h.symm⟩
    · obtain ⟨x, hx, h'⟩ := look_some h; exact ⟨x, by simp [hx], h'⟩

theorem inv_fixed {s s' : Bs} {c : UInt8} {l w rest : Bytes} (hs : s ≠ fin)
    (hrow : row s = [(c.toNat, c.toNat, s')]) (h : scan s l = .ok w rest) :
    ∃ w' l', l = c :: l' ∧ w = c :: w' ∧ scan s' l' = .ok w' rest := by
  obtain ⟨b, w', l', s1, rfl, rfl, h1, h2⟩ := scan_inv hs h
  simp only [step, hrow, look] at h1
  split at h1
  · rename_i hb
    simp at h1; subst h1
    have : b = c := Ts.eq_of_toNat (by omega)
    subst this
    exact ⟨w', l', rfl, rfl, h2⟩
  · simp at h1

/-- the three letters of a month -/
theorem inv_month {l w rest : Bytes} (h : scan m1 l = .ok w rest) :
    ∃ k w' l', 1 ≤ k ∧ k ≤ 12 ∧ l = monthText k ++ l' ∧ w = monthText k ++ w' ∧ scan sp1 l' = .ok w' rest := by
  obtain ⟨x, w1, l1, s1, rfl, rfl, h1, g1⟩ := scan_inv (by simp) h
  obtain ⟨⟨lo, hi, t1⟩, hm1, e1, e1', rfl⟩ := look_some h1
  have ht1 : s1 ≠ fin := by
    rintro rfl; simp [row] at hm1
  obtain ⟨y, w2, l2, s2, rfl, rfl, h2, g2⟩ := scan_inv ht1 g1
  obtain ⟨⟨lo2, hi2, t2⟩, hm2, e2, e2', rfl⟩ := look_some h2
  have ht2 : s2 ≠ fin := by
    rintro rfl
    simp only [row, List.mem_cons, List.not_mem_nil, or_false, Prod.mk.injEq] at hm1
    rcases hm1 with ⟨-, -, rfl⟩ | ⟨-, -, rfl⟩ | ⟨-, -, rfl⟩ | ⟨-, -, rfl⟩ | ⟨-, -, rfl⟩ | ⟨-, -, rfl⟩ | ⟨-, -, rfl⟩ | ⟨-, -, rfl⟩ <;>
      simp [row] at hm2
  obtain ⟨z, w3, l3, s3, rfl, rfl, h3, g3⟩ := scan_inv ht2 g2
  obtain ⟨⟨lo3, hi3, t3⟩, hm3, e3, e3', rfl⟩ := look_some h3
  have fin3 : ∀ k, monthText k = [x, y, z] → 1 ≤ k → k ≤ 12 → s3 = sp1 →
      ∃ k w' l', 1 ≤ k ∧ k ≤ 12 ∧ x :: y :: z :: l3 = monthText k ++ l' ∧ x :: y :: z :: w3 = monthText k ++ w' ∧ scan sp1 l' = .ok w' rest := by
    intro k hk h1 h2 ht
    subst ht
    exact ⟨k, w3, l3, h1, h2, by rw [hk]; rfl, by rw [hk]; rfl, g3⟩
  have key : ∀ (a b c : UInt8), x.toNat = a.toNat → y.toNat = b.toNat → z.toNat = c.toNat → [a, b, c] = [x, y, z] := by
    intro a b c h1 h2 h3
    rw [Ts.eq_of_toNat h1, Ts.eq_of_toNat h2, Ts.eq_of_toNat h3]
  simp only [row, List.mem_cons, List.not_mem_nil, or_false, Prod.mk.injEq] at hm1
  rcases hm1 with ⟨rfl, rfl, rfl⟩ | ⟨rfl, rfl, rfl⟩ | ⟨rfl, rfl, rfl⟩ | ⟨rfl, rfl, rfl⟩ | ⟨rfl, rfl, rfl⟩ | ⟨rfl, rfl, rfl⟩ | ⟨rfl, rfl, rfl⟩ | ⟨rfl, rfl, rfl⟩ <;>
    simp only [row, List.mem_cons, List.not_mem_nil, or_false, Prod.mk.injEq] at hm2
  · rcases hm2 with ⟨rfl, rfl, rfl⟩ | ⟨rfl, rfl, rfl⟩ <;>
      simp only [row, List.mem_cons, List.not_mem_nil, or_false, Prod.mk.injEq] at hm3 <;> obtain ⟨rfl, rfl, rfl⟩ := hm3
    · exact fin3 4 (key 65 112 114 (by simp at *; omega) (by simp at *; omega) (by simp at *; omega)) (by omega) (by omega) rfl
    · exact fin3 8 (key 65 117 103 (by simp at *; omega) (by simp at *; omega) (by simp at *; omega)) (by omega) (by omega) rfl
  · obtain ⟨rfl, rfl, rfl⟩ := hm2
    simp only [row, List.mem_cons, List.not_mem_nil, or_false, Prod.mk.injEq] at hm3; obtain ⟨rfl, rfl, rfl⟩ := hm3
    exact fin3 12 (key 68 101 99 (by simp at *; omega) (by simp at *; omega) (by simp at *; omega)) (by omega) (by omega) rfl
  · obtain ⟨rfl, rfl, rfl⟩ := hm2
    simp only [row, List.mem_cons, List.not_mem_nil, or_false, Prod.mk.injEq] at hm3; obtain ⟨rfl, rfl, rfl⟩ := hm3
    exact fin3 2 (key 70 101 98 (by simp at *; omega) (by simp at *; omega) (by simp at *; omega)) (by omega) (by omega) rfl
  · rcases hm2 with ⟨rfl, rfl, rfl⟩ | ⟨rfl, rfl, rfl⟩ <;>
      simp only [row, List.mem_cons, List.not_mem_nil, or_false, Prod.mk.injEq] at hm3
    · obtain ⟨rfl, rfl, rfl⟩ := hm3
      exact fin3 1 (key 74 97 110 (by simp at *; omega) (by simp at *; omega) (by simp at *; omega)) (by omega) (by omega) rfl
    · rcases hm3 with ⟨rfl, rfl, rfl⟩ | ⟨rfl, rfl, rfl⟩
      · exact fin3 7 (key 74 117 108 (by simp at *; omega) (by simp at *; omega) (by simp at *; omega)) (by omega) (by omega) rfl
      · exact fin3 6 (key 74 117 110 (by simp at *; omega) (by simp at *; omega) (by simp at *; omega)) (by omega) (by omega) rfl
  · obtain ⟨rfl, rfl, rfl⟩ := hm2
    simp only [row, List.mem_cons, List.not_mem_nil, or_false, Prod.mk.injEq] at hm3
    rcases hm3 with ⟨rfl, rfl, rfl⟩ | ⟨rfl, rfl, rfl⟩
    · exact fin3 3 (key 77 97 114 (by simp at *; omega) (by simp at *; omega) (by simp at *; omega)) (by omega) (by omega) rfl
    · exact fin3 5 (key 77 97 121 (by simp at *; omega) (by simp at *; omega) (by simp at *; omega)) (by omega) (by omega) rfl
  · obtain ⟨rfl, rfl, rfl⟩ := hm2
    simp only [row, List.mem_cons, List.not_mem_nil, or_false, Prod.mk.injEq] at hm3; obtain ⟨rfl, rfl, rfl⟩ := hm3
    exact fin3 11 (key 78 111 118 (by simp at *; omega) (by simp at *; omega) (by simp at *; omega)) (by omega) (by omega) rfl
  · obtain ⟨rfl, rfl, rfl⟩ := hm2
    simp only [row, List.mem_cons, List.not_mem_nil, or_false, Prod.mk.injEq] at hm3; obtain ⟨rfl, rfl, rfl⟩ := hm3
    exact fin3 10 (key 79 99 116 (by simp at *; omega) (by simp at *; omega) (by simp at *; omega)) (by omega) (by omega) rfl
  · obtain ⟨rfl, rfl, rfl⟩ := hm2
    simp only [row, List.mem_cons, List.not_mem_nil, or_false, Prod.mk.injEq] at hm3; obtain ⟨rfl, rfl, rfl⟩ := hm3
    exact fin3 9 (key 83 101 112 (by simp at *; omega) (by simp at *; omega) (by simp at *; omega)) (by omega) (by omega) rfl

theorem inv_day {l w rest : Bytes} (h : scan day l = .ok w rest) :
    ∃ k w' l', 1 ≤ k ∧ k ≤ 31 ∧ l = dayText k ++ l' ∧ w = dayText k ++ w' ∧ scan sp2 l' = .ok w' rest := by
  obtain ⟨x, w1, l1, s1, rfl, rfl, h1, g1⟩ := scan_inv (by simp) h
  obtain ⟨⟨lo, hi, t1⟩, hm1, e1, e1', rfl⟩ := look_some h1
  simp only [row, List.mem_cons, List.not_mem_nil, or_false, Prod.mk.injEq] at hm1
  rcases hm1 with ⟨rfl, rfl, rfl⟩ | ⟨rfl, rfl, rfl⟩ | ⟨rfl, rfl, rfl⟩ <;>
    obtain ⟨y, w2, l2, s2, rfl, rfl, h2, g2⟩ := scan_inv (by simp) g1 <;>
    obtain ⟨⟨lo2, hi2, t2⟩, hm2, e2, e2', rfl⟩ := look_some h2 <;>
    simp only [row, List.mem_cons, List.not_mem_nil, or_false, Prod.mk.injEq] at hm2 <;>
    obtain ⟨rfl, rfl, rfl⟩ := hm2 <;> simp only at e1 e1' e2 e2'
  · have hx : x = 32 := Ts.eq_of_toNat (show x.toNat = 32 by omega)
    have hd : dayText (y.toNat - 48) = [x, y] := by
      rw [dayText, if_pos (by omega), ← Ts.eq_digit (by omega) (by omega), hx]
    exact ⟨y.toNat - 48, w2, l2, by omega, by omega, by rw [hd]; rfl, by rw [hd]; rfl, g2⟩
  all_goals
    have hd : dayText ((x.toNat - 48) * 10 + (y.toNat - 48)) = [x, y] := by
      rw [dayText, if_neg (by omega), ← Ts.d2_of (by omega) (by omega) (by omega) (by omega)]
    exact ⟨(x.toNat - 48) * 10 + (y.toNat - 48), w2, l2, by omega, by omega, by rw [hd]; rfl, by rw [hd]; rfl, g2⟩

theorem inv_hour {l w rest : Bytes} (h : scan hour l = .ok w rest) :
    ∃ k w' l', k ≤ 23 ∧ l = d2 k ++ l' ∧ w = d2 k ++ w' ∧ scan c1 l' = .ok w' rest := by
  obtain ⟨x, w1, l1, s1, rfl, rfl, h1, g1⟩ := scan_inv (by simp) h
  obtain ⟨⟨lo, hi, t1⟩, hm1, e1, e1', rfl⟩ := look_some h1
  simp only [row, List.mem_cons, List.not_mem_nil, or_false, Prod.mk.injEq] at hm1
  rcases hm1 with ⟨rfl, rfl, rfl⟩ | ⟨rfl, rfl, rfl⟩ <;>
    obtain ⟨y, w2, l2, s2, rfl, rfl, h2, g2⟩ := scan_inv (by simp) g1 <;>
    obtain ⟨⟨lo2, hi2, t2⟩, hm2, e2, e2', rfl⟩ := look_some h2 <;>
    simp only [row, List.mem_cons, List.not_mem_nil, or_false, Prod.mk.injEq] at hm2 <;>
    obtain ⟨rfl, rfl, rfl⟩ := hm2 <;> simp only at e1 e1' e2 e2'
  all_goals
    have hd := Ts.d2_of (a := x) (b := y) (by omega) (by omega) (by omega) (by omega)
    exact ⟨(x.toNat - 48) * 10 + (y.toNat - 48), w2, l2, by omega, by rw [← hd]; rfl, by rw [← hd]; rfl, g2⟩

theorem inv_pair {s s1 s2 : Bs} {l w rest : Bytes} (hs : s ≠ fin) (hs1 : s1 ≠ fin)
    (hrow : row s = [(48, 53, s1)]) (hrow1 : row s1 = [(48, 57, s2)])
    (h : scan s l = .ok w rest) :
    ∃ n w' l', n ≤ 59 ∧ l = d2 n ++ l' ∧ w = d2 n ++ w' ∧ scan s2 l' = .ok w' rest := by
  obtain ⟨x, w1, l1, t1, rfl, rfl, h1, g1⟩ := scan_inv hs h
  obtain ⟨⟨lo, hi, t1⟩, hm1, e1, e1', rfl⟩ := look_some h1
  simp only [hrow, List.mem_cons, List.not_mem_nil, or_false, Prod.mk.injEq] at hm1
  obtain ⟨rfl, rfl, rfl⟩ := hm1
  obtain ⟨y, w2, l2, t2, rfl, rfl, h2, g2⟩ := scan_inv hs1 g1
  obtain ⟨⟨lo2, hi2, t2⟩, hm2, e2, e2', rfl⟩ := look_some h2
  simp only [hrow1, List.mem_cons, List.not_mem_nil, or_false, Prod.mk.injEq] at hm2
  obtain ⟨rfl, rfl, rfl⟩ := hm2
  simp only at e1 e1' e2 e2' g2
  have hd := Ts.d2_of (a := x) (b := y) (by omega) (by omega) (by omega) (by omega)
  exact ⟨(x.toNat - 48) * 10 + (y.toNat - 48), w2, l2, by omega, by rw [← hd]; rfl, by rw [← hd]; rfl, g2⟩

/-- The automaton only accepts texts of well-formed timestamps. -/
theorem scan_sound {l w rest : Bytes} (h : scan m1 l = .ok w rest) :
    ∃ s : BStamp, s.WF ∧ w = s.render ∧ l = s.render ++ rest := by
  have hl := scan_append h
  obtain ⟨mo, w1, l1, k1, k1', -, rfl, g1⟩ := inv_month h
  obtain ⟨w2, l2, -, rfl, g2⟩ := inv_fixed (c := 32) (by simp) rfl g1
  obtain ⟨da, w3, l3, k2, k2', -, rfl, g3⟩ := inv_day g2
  obtain ⟨w4, l4, -, rfl, g4⟩ := inv_fixed (c := 32) (by simp) rfl g3
  obtain ⟨ho, w5, l5, k3, -, rfl, g5⟩ := inv_hour g4
  obtain ⟨w6, l6, -, rfl, g6⟩ := inv_fixed (c := 58) (by simp) rfl g5
  obtain ⟨mi, w7, l7, k4, -, rfl, g7⟩ := inv_pair (by simp) (by simp) rfl rfl g6
  obtain ⟨w8, l8, -, rfl, g8⟩ := inv_fixed (c := 58) (by simp) rfl g7
  obtain ⟨se, w9, l9, k5, -, rfl, g9⟩ := inv_pair (by simp) (by simp) rfl rfl g8
  rw [scan_fin] at g9
  simp only [Ts.Res.ok.injEq] at g9
  obtain ⟨rfl, rfl⟩ := g9
  refine ⟨⟨mo, da, ho, mi, se⟩, ⟨k1, k1', k2, k2', k3, k4, k5⟩, ?_, ?_⟩
  · simp [BStamp.render]
  · rw [hl]; simp [BStamp.render]

/-! ## completeness -/

/-- a path of the automaton -/
def walk : Bs → Bytes → Option Bs
  | s, [] => some s
  | s, b :: l => if s = fin then none else (step s b).bind fun s' => walk s' l

theorem walk_append {s s' : Bs} {w w' : Bytes} (h : walk s w = some s') : walk s (w ++ w') = walk s' w' := by
  induction w generalizing s with
  | nil => simp [walk] at h; subst h; rfl
  | cons b l ih =>
    simp only [walk, List.cons_append] at h ⊢
    split at h
    · simp at h
    rename_i hs
    rw [if_neg hs]
    cases hst : step s b with
    | none => simp [hst] at h
    | some s1 => simp only [hst, Option.bind_some] at h ⊢; exact ih h

theorem scan_walk {s : Bs} {w : Bytes} (h : walk s w = some fin) (l : Bytes) : scan s (w ++ l) = .ok w l := by
  induction w generalizing s with
  | nil => simp [walk] at h; subst h; exact scan_fin l
  | cons b r ih =>
    simp only [walk] at h
    split at h
    · simp at h
    rename_i hs
    cases hst : step s b with
    | none => simp [hst] at h
    | some s1 =>
      simp only [hst, Option.bind_some] at h
      rw [List.cons_append, scan_cons_of hs hst, ih h]; rfl

theorem walk_month {k : Nat} (h1 : 1 ≤ k) (h2 : k ≤ 12) : walk m1 (monthText k) = some sp1 := by
  have : k = 1 ∨ k = 2 ∨ k = 3 ∨ k = 4 ∨ k = 5 ∨ k = 6 ∨ k = 7 ∨ k = 8 ∨ k = 9 ∨ k = 10 ∨ k = 11 ∨ k = 12 := by omega
  rcases this with rfl | rfl | rfl | rfl | rfl | rfl | rfl | rfl | rfl | rfl | rfl | rfl <;> decide

theorem all_le {P : Nat → Prop} [DecidablePred P] (n : Nat) (h : ((List.range (n + 1)).all fun k => decide (P k)) = true) :
    ∀ k, k ≤ n → P k := by
  intro k hk
  simpa using List.all_eq_true.mp h k (List.mem_range.mpr (by omega))

theorem walk_day {k : Nat} (h1 : 1 ≤ k) (h2 : k ≤ 31) : walk day (dayText k) = some sp2 :=
  all_le (P := fun k => 1 ≤ k → walk day (dayText k) = some sp2) 31 (by decide +kernel) k h2 h1

theorem walk_hour {k : Nat} (h : k ≤ 23) : walk hour (d2 k) = some c1 :=
  all_le (P := fun k => walk hour (d2 k) = some c1) 23 (by decide +kernel) k h

theorem walk_min {k : Nat} (h : k ≤ 59) : walk min (d2 k) = some c2 :=
  all_le (P := fun k => walk min (d2 k) = some c2) 59 (by decide +kernel) k h

theorem walk_sec {k : Nat} (h : k ≤ 59) : walk sec (d2 k) = some fin :=
  all_le (P := fun k => walk sec (d2 k) = some fin) 59 (by decide +kernel) k h

/-- Every well-formed timestamp text is accepted, whatever follows it. -/
theorem scan_complete (s : BStamp) (h : s.WF) (l : Bytes) : scan m1 (s.render ++ l) = .ok s.render l := by
  obtain ⟨e1, e2, e3, e4, e5, e6, e7⟩ := h
  apply scan_walk
  have f32 : walk sp1 [32] = some day := by decide
  have f32' : walk sp2 [32] = some hour := by decide
  have f58 : walk c1 [58] = some min := by decide
  have f58' : walk c2 [58] = some sec := by decide
  rw [BStamp.render, walk_append (walk_month e1 e2), ← List.singleton_append, walk_append f32, walk_append (walk_day e3 e4),
    ← List.singleton_append, walk_append f32', walk_append (walk_hour e5), ← List.singleton_append, walk_append f58,
    walk_append (walk_min e6), ← List.singleton_append, walk_append f58', walk_sec e7]

theorem month_len {k : Nat} (h1 : 1 ≤ k) (h2 : k ≤ 12) : ∃ a b c, monthText k = [a, b, c] ∧ monthNum [a, b, c] = some k := by
  have : k = 1 ∨ k = 2 ∨ k = 3 ∨ k = 4 ∨ k = 5 ∨ k = 6 ∨ k = 7 ∨ k = 8 ∨ k = 9 ∨ k = 10 ∨ k = 11 ∨ k = 12 := by omega
  rcases this with rfl | rfl | rfl | rfl | rfl | rfl | rfl | rfl | rfl | rfl | rfl | rfl <;> exact ⟨_, _, _, rfl, by decide⟩

/-- what the automaton and `time.Parse` give for a timestamp: year 0, UTC -/
def stampTime (s : BStamp) : GoTime.Time := ⟨0, s.month, s.day, s.hour, s.min, s.sec, 0, 0⟩

theorem real_iff (s : BStamp) (h : s.WF) : s.day ≤ daysIn s.month 0 ↔ s.Real := by
  have : daysIn s.month 0 = if s.month = 2 then 29 else if s.month ∈ [4, 6, 9, 11] then 30 else 31 := by
    obtain ⟨e1, e2, -⟩ := h
    have := Ts.daysIn_eq 0 s.month
    simp only [Stamp.monthDays] at this
    simpa using this
  rw [BStamp.Real, this]

theorem render_len (s : BStamp) (h : s.WF) : s.render.length = 15 := by
  obtain ⟨a, b, c, hm, -⟩ := month_len h.1 h.2.1
  have : (dayText s.day).length = 2 := by rw [dayText]; split <;> rfl
  simp [BStamp.render, hm, d2, this]

/-- `time.Parse(time.Stamp, _)` on a well-formed timestamp fails exactly when the day does not exist. -/
theorem parse_render (s : BStamp) (h : s.WF) : parseStamp s.render = if s.Real then some (stampTime s) else none := by
  have hr := real_iff s h
  obtain ⟨e1, e2, e3, e4, e5, e6, e7⟩ := h
  obtain ⟨a, b, c, hm, hn⟩ := month_len e1 e2
  have hdig : ∀ k, k ≤ 9 → isDigit (digit k) = true := fun k hk => Ts.isDigit_digit hk
  have h2 : ∀ n, n ≤ 99 → decVal [digit (n / 10), digit (n % 10)] = n := fun n hn => Ts.decVal_d2 hn
  obtain ⟨x, y, hd, hx, hy, hv⟩ : ∃ x y, dayText s.day = [x, y] ∧ (decide (x = 32) || isDigit x) = true ∧ isDigit y = true ∧
      (if x = 32 then decVal [y] else decVal [x, y]) = s.day := by
    by_cases h10 : s.day < 10
    · refine ⟨32, digit s.day, by rw [dayText, if_pos h10], by decide, hdig _ (by omega), ?_⟩
      rw [if_pos rfl]; simp [decVal, Ts.dig_digit (show s.day ≤ 9 by omega)]
    · refine ⟨_, _, by rw [dayText, if_neg h10, d2], by rw [hdig _ (by omega)]; simp, hdig _ (by omega), ?_⟩
      rw [if_neg, h2 _ (by omega)]
      intro hh
      have := Ts.digit_toNat (n := s.day / 10) (by omega)
      rw [hh] at this; simp at this; omega
  have key : s.render = [a, b, c, 32, x, y, 32, digit (s.hour / 10), digit (s.hour % 10), 58, digit (s.min / 10), digit (s.min % 10),
      58, digit (s.sec / 10), digit (s.sec % 10)] := by
    simp [BStamp.render, hm, hd, d2]
  rw [key]
  simp only [parseStamp]
  rw [if_pos (by
    simp only [List.all_cons, List.all_nil, hy, hx, hdig _ (show s.hour / 10 ≤ 9 by omega), hdig _ (show s.hour % 10 ≤ 9 by omega),
      hdig _ (show s.min / 10 ≤ 9 by omega), hdig _ (show s.min % 10 ≤ 9 by omega), hdig _ (show s.sec / 10 ≤ 9 by omega),
      hdig _ (show s.sec % 10 ≤ 9 by omega)]; rfl)]
  simp only [hn, hv, h2 s.hour (by omega), h2 s.min (by omega), h2 s.sec (by omega)]
  by_cases hreal : s.Real
  · rw [if_pos ⟨by omega, by omega, by omega, e3, hr.mpr hreal⟩, if_pos hreal]; rfl
  · rw [if_neg (fun hc => hreal (hr.mp hc.2.2.2.2)), if_neg hreal]

end Bs
end Verif.Rfc3164
