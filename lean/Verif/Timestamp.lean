import Verif.Spec.Timestamp

/-!
# The RFC 3339 sub-automaton (common/common.rl:20-62) and Go's `time.Parse` on its language
-/

namespace Verif
open Spec GoTime

/-- Named states of the RFC 3339 automaton (what is expected next). -/
inductive Ts where
  | y1 | y2 | y3 | y4 | dash1 | mon | mon0 | mon1 | dash2 | day | day0 | day12 | day3 | t
  | hour | hour01 | hour2 | col1 | min | minu | col2 | sec | secu | zone
  | frac0 | frac1 | frac2 | frac3 | frac4 | frac5 | frac6
  | oh | oh01 | oh2 | ocol | om | omu | fin
  deriving DecidableEq, Repr

namespace Ts

/-- transitions: byte ranges and targets; `fr` tells whether a fraction is allowed -/
def row (fr : Bool) : Ts → List (Nat × Nat × Ts)
  | y1 => [(48, 57, y2)]
  | y2 => [(48, 57, y3)]
  | y3 => [(48, 57, y4)]
  | y4 => [(48, 57, dash1)]
  | dash1 => [(45, 45, mon)]
  | mon => [(48, 48, mon0), (49, 49, mon1)]
  | mon0 => [(49, 57, dash2)]
  | mon1 => [(48, 50, dash2)]
  | dash2 => [(45, 45, day)]
  | day => [(48, 48, day0), (49, 50, day12), (51, 51, day3)]
  | day0 => [(49, 57, t)]
  | day12 => [(48, 57, t)]
  | day3 => [(48, 49, t)]
  | t => [(84, 84, hour)]
  | hour => [(48, 49, hour01), (50, 50, hour2)]
  | hour01 => [(48, 57, col1)]
  | hour2 => [(48, 51, col1)]
  | col1 => [(58, 58, min)]
  | min => [(48, 53, minu)]
  | minu => [(48, 57, col2)]
  | col2 => [(58, 58, sec)]
  | sec => [(48, 53, secu)]
  | secu => [(48, 57, zone)]
  | zone => if fr then [(43, 43, oh), (45, 45, oh), (46, 46, frac0), (90, 90, fin)]
      else [(43, 43, oh), (45, 45, oh), (90, 90, fin)]
  | frac0 => [(48, 57, frac1)]
  | frac1 => [(43, 43, oh), (45, 45, oh), (48, 57, frac2), (90, 90, fin)]
  | frac2 => [(43, 43, oh), (45, 45, oh), (48, 57, frac3), (90, 90, fin)]
  | frac3 => [(43, 43, oh), (45, 45, oh), (48, 57, frac4), (90, 90, fin)]
  | frac4 => [(43, 43, oh), (45, 45, oh), (48, 57, frac5), (90, 90, fin)]
  | frac5 => [(43, 43, oh), (45, 45, oh), (48, 57, frac6), (90, 90, fin)]
  | frac6 => [(43, 43, oh), (45, 45, oh), (90, 90, fin)]
  | oh => [(48, 49, oh01), (50, 50, oh2)]
  | oh01 => [(48, 57, ocol)]
  | oh2 => [(48, 51, ocol)]
  | ocol => [(58, 58, om)]
  | om => [(48, 53, omu)]
  | omu => [(48, 57, fin)]
  | fin => []

def look (n : Nat) : List (Nat × Nat × Ts) → Option Ts
  | [] => none
  | (lo, hi, s) :: r => if lo ≤ n ∧ n ≤ hi then some s else look n r

def step (fr : Bool) (s : Ts) (b : UInt8) : Option Ts := look b.toNat (row fr s)

inductive Res where
  /-- the automaton reached its end after reading `w`; `rest` follows -/
  | ok (w rest : Bytes)
  /-- stuck at this offset (the length of the text if it is too short) -/
  | bad (n : Nat)
  deriving DecidableEq, Repr

def Res.cons (b : UInt8) : Res → Res
  | .ok w r => .ok (b :: w) r
  | .bad n => .bad (n + 1)

def scan (fr : Bool) : Ts → Bytes → Res
  | s, [] => if s = fin then .ok [] [] else .bad 0
  | s, b :: l =>
    if s = fin then .ok [] (b :: l)
    else match step fr s b with
      | none => .bad 0
      | some s' => (scan fr s' l).cons b

theorem scan_fin (fr : Bool) (l : Bytes) : scan fr fin l = .ok [] l := by cases l <;> simp [scan]

theorem scan_cons_of {fr : Bool} {s s' : Ts} {b : UInt8} {l : Bytes} (hs : s ≠ fin) (h : step fr s b = some s') :
    scan fr s (b :: l) = (scan fr s' l).cons b := by simp [scan, hs, h]

theorem scan_append {fr : Bool} {s : Ts} {l w rest : Bytes} (h : scan fr s l = .ok w rest) : l = w ++ rest := by
  induction l generalizing s w with
  | nil => simp only [scan] at h; split at h <;> simp_all
  | cons b l ih =>
    simp only [scan] at h
    split at h
    · simp at h; simp [← h.1, ← h.2]
    · split at h
      · simp at h
      · rename_i s' _
        cases hr : scan fr s' l with
        | bad n => simp [hr, Res.cons] at h
        | ok w' r' => simp [hr, Res.cons] at h; rw [← h.1, ih (s := s') (w := w') (by rw [hr, h.2])]; rfl

theorem scan_bad_le {fr : Bool} {s : Ts} {l : Bytes} {n : Nat} (h : scan fr s l = .bad n) : n ≤ l.length := by
  induction l generalizing s n with
  | nil => simp only [scan] at h; split at h <;> simp_all
  | cons b l ih =>
    simp only [scan] at h
    split at h
    · simp at h
    · split at h
      · simp at h; omega
      · rename_i s' _
        cases hr : scan fr s' l with
        | ok w' r' => simp [hr, Res.cons] at h
        | bad k => simp [hr, Res.cons] at h; have := ih hr; simp; omega

/-- inversion of one step -/
theorem scan_inv {fr : Bool} {s : Ts} {l w rest : Bytes} (hs : s ≠ fin) (h : scan fr s l = .ok w rest) :
    ∃ b w' l' s', l = b :: l' ∧ w = b :: w' ∧ step fr s b = some s' ∧ scan fr s' l' = .ok w' rest := by
  cases l with
  | nil => simp [scan, hs] at h
  | cons b l =>
    simp only [scan, if_neg hs] at h
    split at h
    · simp at h
    · rename_i s' hs'
      cases hr : scan fr s' l with
      | bad n => simp [hr, Res.cons] at h
      | ok w' r' =>
        simp [hr, Res.cons] at h
        exact ⟨b, w', l, s', rfl, h.1.symm, hs', by rw [hr, h.2]⟩

theorem digit_toNat {n : Nat} (h : n ≤ 9) : (digit n).toNat = 48 + n := by
  simp only [digit, UInt8.toNat_ofNat']; omega

theorem eq_digit {b : UInt8} (h1 : 48 ≤ b.toNat) (h2 : b.toNat ≤ 57) : b = digit (b.toNat - 48) := by
  apply UInt8.toNat_inj.mp
  rw [digit_toNat (by omega)]; omega

theorem eq_of_toNat {b c : UInt8} (h : b.toNat = c.toNat) : b = c := UInt8.toNat_inj.mp h

theorem d2_of {a b : UInt8} (ha : 48 ≤ a.toNat) (ha' : a.toNat ≤ 57) (hb : 48 ≤ b.toNat) (hb' : b.toNat ≤ 57) :
    [a, b] = d2 ((a.toNat - 48) * 10 + (b.toNat - 48)) := by
  rw [d2, show ((a.toNat - 48) * 10 + (b.toNat - 48)) / 10 = a.toNat - 48 by omega,
    show ((a.toNat - 48) * 10 + (b.toNat - 48)) % 10 = b.toNat - 48 by omega, ← eq_digit ha ha', ← eq_digit hb hb']

/-- one fixed byte -/
theorem inv_fixed {fr : Bool} {s s' : Ts} {c : UInt8} {l w rest : Bytes} (hs : s ≠ fin)
    (hrow : row fr s = [(c.toNat, c.toNat, s')]) (h : scan fr s l = .ok w rest) :
    ∃ w' l', l = c :: l' ∧ w = c :: w' ∧ scan fr s' l' = .ok w' rest := by
  obtain ⟨b, w', l', s1, rfl, rfl, h1, h2⟩ := scan_inv hs h
  simp only [step, hrow, look] at h1
  split at h1
  · rename_i hb
    simp at h1; subst h1
    have : b = c := eq_of_toNat (by omega)
    subst this
    exact ⟨w', l', rfl, rfl, h2⟩
  · simp at h1

/-- a two-digit field with the plain shape `[lo-hi][0-9]` -/
theorem inv_pair {fr : Bool} {s s1 s2 : Ts} {l w rest : Bytes} {hi : Nat} (hs : s ≠ fin) (hs1 : s1 ≠ fin)
    (hhi : hi ≤ 57) (hrow : row fr s = [(48, hi, s1)]) (hrow1 : row fr s1 = [(48, 57, s2)])
    (h : scan fr s l = .ok w rest) :
    ∃ n w' l', n ≤ (hi - 48) * 10 + 9 ∧ l = d2 n ++ l' ∧ w = d2 n ++ w' ∧ scan fr s2 l' = .ok w' rest := by
  obtain ⟨a, w', l', t1, rfl, rfl, h1, h2⟩ := scan_inv hs h
  simp only [step, hrow, look] at h1
  split at h1
  · rename_i ha
    simp at h1; subst h1
    obtain ⟨b, w2, l2, t2, rfl, rfl, h3, h4⟩ := scan_inv hs1 h2
    simp only [step, hrow1, look] at h3
    split at h3
    · rename_i hb
      simp at h3; subst h3
      refine ⟨(a.toNat - 48) * 10 + (b.toNat - 48), w2, l2, by omega, ?_, ?_, h4⟩
      · rw [← d2_of ha.1 (by omega) hb.1 hb.2]; rfl
      · rw [← d2_of ha.1 (by omega) hb.1 hb.2]; rfl
    · simp at h3
  · simp at h1

theorem inv_mon {fr : Bool} {l w rest : Bytes} (h : scan fr mon l = .ok w rest) :
    ∃ n w' l', 1 ≤ n ∧ n ≤ 12 ∧ l = d2 n ++ l' ∧ w = d2 n ++ w' ∧ scan fr dash2 l' = .ok w' rest := by
  obtain ⟨a, w', l', t1, rfl, rfl, h1, h2⟩ := scan_inv (by simp) h
  simp only [step, row, look] at h1
  split at h1
  · rename_i ha
    simp at h1; subst h1
    obtain ⟨b, w2, l2, t2, rfl, rfl, h3, h4⟩ := scan_inv (by simp) h2
    simp only [step, row, look] at h3
    split at h3
    · rename_i hb
      simp at h3; subst h3
      refine ⟨(a.toNat - 48) * 10 + (b.toNat - 48), w2, l2, by omega, by omega, ?_, ?_, h4⟩ <;>
      · rw [← d2_of (by omega) (by omega) (by omega) (by omega)]; rfl
    · simp at h3
  split at h1
  · rename_i ha
    simp at h1; subst h1
    obtain ⟨b, w2, l2, t2, rfl, rfl, h3, h4⟩ := scan_inv (by simp) h2
    simp only [step, row, look] at h3
    split at h3
    · rename_i hb
      simp at h3; subst h3
      refine ⟨(a.toNat - 48) * 10 + (b.toNat - 48), w2, l2, by omega, by omega, ?_, ?_, h4⟩ <;>
      · rw [← d2_of (by omega) (by omega) (by omega) (by omega)]; rfl
    · simp at h3
  · simp at h1

theorem inv_day {fr : Bool} {l w rest : Bytes} (h : scan fr day l = .ok w rest) :
    ∃ n w' l', 1 ≤ n ∧ n ≤ 31 ∧ l = d2 n ++ l' ∧ w = d2 n ++ w' ∧ scan fr t l' = .ok w' rest := by
  obtain ⟨a, w', l', t1, rfl, rfl, h1, h2⟩ := scan_inv (by simp) h
  simp only [step, row, look] at h1
  split at h1
  · rename_i ha
    simp at h1; subst h1
    obtain ⟨b, w2, l2, t2, rfl, rfl, h3, h4⟩ := scan_inv (by simp) h2
    simp only [step, row, look] at h3
    split at h3
    · rename_i hb
      simp at h3; subst h3
      refine ⟨(a.toNat - 48) * 10 + (b.toNat - 48), w2, l2, by omega, by omega, ?_, ?_, h4⟩ <;>
      · rw [← d2_of (by omega) (by omega) (by omega) (by omega)]; rfl
    · simp at h3
  split at h1
  · rename_i ha
    simp at h1; subst h1
    obtain ⟨b, w2, l2, t2, rfl, rfl, h3, h4⟩ := scan_inv (by simp) h2
    simp only [step, row, look] at h3
    split at h3
    · rename_i hb
      simp at h3; subst h3
      refine ⟨(a.toNat - 48) * 10 + (b.toNat - 48), w2, l2, by omega, by omega, ?_, ?_, h4⟩ <;>
      · rw [← d2_of (by omega) (by omega) (by omega) (by omega)]; rfl
    · simp at h3
  split at h1
  · rename_i ha
    simp at h1; subst h1
    obtain ⟨b, w2, l2, t2, rfl, rfl, h3, h4⟩ := scan_inv (by simp) h2
    simp only [step, row, look] at h3
    split at h3
    · rename_i hb
      simp at h3; subst h3
      refine ⟨(a.toNat - 48) * 10 + (b.toNat - 48), w2, l2, by omega, by omega, ?_, ?_, h4⟩ <;>
      · rw [← d2_of (by omega) (by omega) (by omega) (by omega)]; rfl
    · simp at h3
  · simp at h1

theorem inv_hour {fr : Bool} {s s1 s2 s3 : Ts} {l w rest : Bytes} (hs : s ≠ fin) (hs1 : s1 ≠ fin) (hs2 : s2 ≠ fin)
    (hrow : row fr s = [(48, 49, s1), (50, 50, s2)]) (hrow1 : row fr s1 = [(48, 57, s3)])
    (hrow2 : row fr s2 = [(48, 51, s3)]) (h : scan fr s l = .ok w rest) :
    ∃ n w' l', n ≤ 23 ∧ l = d2 n ++ l' ∧ w = d2 n ++ w' ∧ scan fr s3 l' = .ok w' rest := by
  obtain ⟨a, w', l', t1, rfl, rfl, h1, h2⟩ := scan_inv hs h
  simp only [step, hrow, look] at h1
  split at h1
  · rename_i ha
    simp at h1; subst h1
    obtain ⟨b, w2, l2, t2, rfl, rfl, h3, h4⟩ := scan_inv hs1 h2
    simp only [step, hrow1, look] at h3
    split at h3
    · rename_i hb
      simp at h3; subst h3
      refine ⟨(a.toNat - 48) * 10 + (b.toNat - 48), w2, l2, by omega, ?_, ?_, h4⟩ <;>
      · rw [← d2_of (by omega) (by omega) (by omega) (by omega)]; rfl
    · simp at h3
  split at h1
  · rename_i ha
    simp at h1; subst h1
    obtain ⟨b, w2, l2, t2, rfl, rfl, h3, h4⟩ := scan_inv hs2 h2
    simp only [step, hrow2, look] at h3
    split at h3
    · rename_i hb
      simp at h3; subst h3
      refine ⟨(a.toNat - 48) * 10 + (b.toNat - 48), w2, l2, by omega, ?_, ?_, h4⟩ <;>
      · rw [← d2_of (by omega) (by omega) (by omega) (by omega)]; rfl
    · simp at h3
  · simp at h1

/-- the numeric offset after its sign -/
theorem inv_oh {fr : Bool} {l w rest : Bytes} (h : scan fr oh l = .ok w rest) :
    ∃ hh mm, hh ≤ 23 ∧ mm ≤ 59 ∧ w = d2 hh ++ 58 :: d2 mm := by
  obtain ⟨hh, w1, l1, b1, -, rfl, h1⟩ := inv_hour (by simp) (by simp) (by simp) rfl rfl rfl h
  obtain ⟨w2, l2, -, rfl, h2⟩ := inv_fixed (c := 58) (by simp) rfl h1
  obtain ⟨mm, w3, l3, b3, -, rfl, h3⟩ := inv_pair (by simp) (by simp) (by omega) rfl rfl h2
  rw [scan_fin] at h3
  simp at h3
  exact ⟨hh, mm, b1, by omega, by simp [h3.1]⟩

/-- the byte after the seconds or after a fraction digit -/
theorem inv_zone_byte {fr : Bool} {s1 : Ts} {b : UInt8} {w l rest : Bytes}
    (h1 : (b.toNat = 43 ∨ b.toNat = 45) ∧ s1 = oh ∨ b.toNat = 90 ∧ s1 = fin)
    (h2 : scan fr s1 l = .ok w rest) : ∃ z : Zone, z.WF ∧ b :: w = z.render := by
  rcases h1 with ⟨hb, rfl⟩ | ⟨hb, rfl⟩
  · obtain ⟨hh, mm, b1, b2, rfl⟩ := inv_oh h2
    rcases hb with hb | hb
    · refine ⟨.num false hh mm, ⟨b1, b2⟩, ?_⟩
      have : b = 43 := eq_of_toNat (by simpa using hb)
      simp [Zone.render, this]
    · refine ⟨.num true hh mm, ⟨b1, b2⟩, ?_⟩
      have : b = 45 := eq_of_toNat (by simpa using hb)
      simp [Zone.render, this]
  · rw [scan_fin] at h2
    simp at h2
    refine ⟨.utc, trivial, ?_⟩
    have : b = 90 := eq_of_toNat (by simpa using hb)
    simp [Zone.render, this, ← h2.1]

/-- state after `k` fraction digits -/
def fracSt : Nat → Ts
  | 0 => frac0 | 1 => frac1 | 2 => frac2 | 3 => frac3 | 4 => frac4 | 5 => frac5 | _ => frac6

theorem step_frac {k : Nat} (hk : k ≤ 6) {fr : Bool} {b : UInt8} {s : Ts} (h : step fr (fracSt k) b = some s) :
    (k < 6 ∧ 48 ≤ b.toNat ∧ b.toNat ≤ 57 ∧ s = fracSt (k + 1)) ∨
    (1 ≤ k ∧ ((b.toNat = 43 ∨ b.toNat = 45) ∧ s = oh ∨ b.toNat = 90 ∧ s = fin)) := by
  have hc : k = 0 ∨ k = 1 ∨ k = 2 ∨ k = 3 ∨ k = 4 ∨ k = 5 ∨ k = 6 := by omega
  rcases hc with rfl | rfl | rfl | rfl | rfl | rfl | rfl
  · simp only [fracSt, step, row, look] at h
    split at h
    · simp at h; subst h; left; simp [fracSt]; omega
    · simp at h
  all_goals
    simp only [fracSt, step, row, look] at h
    split at h
    · simp at h; subst h; right; refine ⟨by omega, ?_⟩; left; exact ⟨by omega, rfl⟩
    split at h
    · simp at h; subst h; right; refine ⟨by omega, ?_⟩; left; exact ⟨by omega, rfl⟩
    split at h
    · simp at h; subst h
      first
      | (left; simp [fracSt]; omega)
      | (right; refine ⟨by omega, ?_⟩; right; exact ⟨by omega, rfl⟩)
    try split at h
    · simp at h; try (subst h; right; refine ⟨by omega, ?_⟩; right; exact ⟨by omega, rfl⟩)
    try (simp at h)

theorem fracSt_ne (k : Nat) : fracSt k ≠ fin := by
  unfold fracSt; split <;> simp

theorem inv_frac {fr : Bool} {rest : Bytes} : ∀ (l w : Bytes) (k : Nat), k ≤ 6 →
    scan fr (fracSt k) l = .ok w rest →
    ∃ (ds : List Nat) (z : Zone), k + ds.length ≤ 6 ∧ 1 ≤ k + ds.length ∧ (∀ d ∈ ds, d ≤ 9) ∧ z.WF ∧
      w = ds.map digit ++ z.render := by
  intro l
  induction l with
  | nil => intro w k _ h; simp [scan, fracSt_ne] at h
  | cons b l ih =>
    intro w k hk h
    obtain ⟨b', w', l', s', e, rfl, h1, h2⟩ := scan_inv (fracSt_ne k) h
    simp at e; obtain ⟨rfl, rfl⟩ := e
    rcases step_frac hk h1 with ⟨hk', hb1, hb2, rfl⟩ | ⟨hk', hz⟩
    · obtain ⟨ds, z, e1, e2, e3, e4, rfl⟩ := ih w' (k + 1) (by omega) h2
      refine ⟨(b.toNat - 48) :: ds, z, by simp; omega, by simp; omega, ?_, e4, ?_⟩
      · intro d hd; simp at hd; rcases hd with hd | hd; · omega
        · exact e3 d hd
      · simp [← eq_digit hb1 hb2]
    · obtain ⟨z, hz1, hz2⟩ := inv_zone_byte hz h2
      exact ⟨[], z, by simpa using hk, by simpa using hk', by simp, hz1, by simpa using hz2⟩

theorem inv_zone {fr : Bool} {l w rest : Bytes} (h : scan fr zone l = .ok w rest) :
    ∃ (ds : List Nat) (z : Zone), ds.length ≤ 6 ∧ (fr = false → ds = []) ∧ (∀ d ∈ ds, d ≤ 9) ∧ z.WF ∧
      w = fracRender ds ++ z.render := by
  obtain ⟨b, w', l', s', rfl, rfl, h1, h2⟩ := scan_inv (by simp) h
  have hz : ((b.toNat = 43 ∨ b.toNat = 45) ∧ s' = oh ∨ b.toNat = 90 ∧ s' = fin) ∨
      (b.toNat = 46 ∧ s' = frac0 ∧ fr = true) := by
    simp only [step, row] at h1
    split at h1
    · rename_i hfr
      simp only [look] at h1
      split at h1
      · simp at h1; subst h1; left; left; exact ⟨by omega, rfl⟩
      split at h1
      · simp at h1; subst h1; left; left; exact ⟨by omega, rfl⟩
      split at h1
      · simp at h1; subst h1; right; exact ⟨by omega, rfl, hfr⟩
      split at h1
      · simp at h1; subst h1; left; right; exact ⟨by omega, rfl⟩
      · simp at h1
    · simp only [look] at h1
      split at h1
      · simp at h1; subst h1; left; left; exact ⟨by omega, rfl⟩
      split at h1
      · simp at h1; subst h1; left; left; exact ⟨by omega, rfl⟩
      split at h1
      · simp at h1; subst h1; left; right; exact ⟨by omega, rfl⟩
      · simp at h1
  rcases hz with hz | ⟨hb, rfl, hfr⟩
  · obtain ⟨z, hz1, hz2⟩ := inv_zone_byte hz h2
    exact ⟨[], z, by simp, by simp, by simp, hz1, by simpa [fracRender] using hz2⟩
  · obtain ⟨ds, z, e1, e2, e3, e4, rfl⟩ := inv_frac (k := 0) l' w' (by omega) h2
    refine ⟨ds, z, by omega, by simp [hfr], e3, e4, ?_⟩
    have hb : b = 46 := eq_of_toNat (by simpa using hb)
    cases ds with
    | nil => simp at e2
    | cons d ds => simp [fracRender, hb]

/-- The automaton only accepts texts of well-formed timestamps. -/
theorem scan_sound {fr : Bool} {l w rest : Bytes} (h : scan fr y1 l = .ok w rest) :
    ∃ s : Stamp, s.WF ∧ (fr = false → s.frac = []) ∧ w = s.render ∧ l = s.render ++ rest := by
  have hl := scan_append h
  obtain ⟨ya, w1, l1, k1, -, rfl, g1⟩ := inv_pair (s2 := y3) (by simp) (by simp) (by omega) rfl rfl h
  obtain ⟨yb, w2, l2, k2, -, rfl, g2⟩ := inv_pair (by simp) (by simp) (by omega) rfl rfl g1
  obtain ⟨w3, l3, -, rfl, g3⟩ := inv_fixed (c := 45) (by simp) rfl g2
  obtain ⟨mo, w4, l4, k3, k3', -, rfl, g4⟩ := inv_mon g3
  obtain ⟨w5, l5, -, rfl, g5⟩ := inv_fixed (c := 45) (by simp) rfl g4
  obtain ⟨da, w6, l6, k4, k4', -, rfl, g6⟩ := inv_day g5
  obtain ⟨w7, l7, -, rfl, g7⟩ := inv_fixed (c := 84) (by simp) rfl g6
  obtain ⟨ho, w8, l8, k5, -, rfl, g8⟩ := inv_hour (by simp) (by simp) (by simp) rfl rfl rfl g7
  obtain ⟨w9, l9, -, rfl, g9⟩ := inv_fixed (c := 58) (by simp) rfl g8
  obtain ⟨mi, w10, l10, k6, -, rfl, g10⟩ := inv_pair (by simp) (by simp) (by omega) rfl rfl g9
  obtain ⟨w11, l11, -, rfl, g11⟩ := inv_fixed (c := 58) (by simp) rfl g10
  obtain ⟨se, w12, l12, k7, -, rfl, g12⟩ := inv_pair (by simp) (by simp) (by omega) rfl rfl g11
  obtain ⟨ds, z, e1, e2, e3, e4, rfl⟩ := inv_zone g12
  have hy : d2 ya ++ d2 yb = d4 (ya * 100 + yb) := by
    rw [d4, show (ya * 100 + yb) / 100 = ya by omega, show (ya * 100 + yb) % 100 = yb by omega]
  refine ⟨⟨ya * 100 + yb, mo, da, ho, mi, se, ds, z⟩, ?_, e2, ?_, ?_⟩
  · exact ⟨by simp only []; omega, k3, k3', k4, k4', k5, by simp only []; omega, by simp only []; omega, e1, e3, e4⟩
  · simp [Stamp.render, ← hy]
  · rw [hl]; simp [Stamp.render, ← hy]

/-! ## completeness -/

/-- prepend a word to a result -/
def Res.app (w : Bytes) : Res → Res
  | .ok w' r => .ok (w ++ w') r
  | .bad n => .bad (w.length + n)

theorem Res.cons_app (b : UInt8) (w : Bytes) (r : Res) : (r.app w).cons b = r.app (b :: w) := by
  cases r <;> simp [Res.app, Res.cons]; omega

theorem Res.cons_eq (b : UInt8) (r : Res) : r.cons b = r.app [b] := by
  cases r <;> simp [Res.app, Res.cons]; omega

theorem Res.app_app (w w' : Bytes) (r : Res) : (r.app w').app w = r.app (w ++ w') := by
  cases r <;> simp [Res.app]; omega

theorem go_fixed {fr : Bool} {s s' : Ts} (c : UInt8) {l : Bytes} (hs : s ≠ fin)
    (hrow : row fr s = [(c.toNat, c.toNat, s')]) : scan fr s (c :: l) = (scan fr s' l).app [c] := by
  rw [scan_cons_of hs (s' := s') (by simp [step, hrow, look]), Res.cons_eq]

theorem go_two {fr : Bool} {s s1 s2 : Ts} {a b : UInt8} {l : Bytes} (hs : s ≠ fin) (hs1 : s1 ≠ fin)
    (h1 : step fr s a = some s1) (h2 : step fr s1 b = some s2) :
    scan fr s (a :: b :: l) = (scan fr s2 l).app [a, b] := by
  rw [scan_cons_of hs h1, scan_cons_of hs1 h2, Res.cons_eq, Res.cons_eq, Res.app_app]; rfl

theorem go_pair {fr : Bool} {s s1 s2 : Ts} {l : Bytes} {hi n : Nat} (hs : s ≠ fin) (hs1 : s1 ≠ fin)
    (hhi : 48 ≤ hi) (hhi' : hi ≤ 57) (hrow : row fr s = [(48, hi, s1)]) (hrow1 : row fr s1 = [(48, 57, s2)])
    (hn : n ≤ (hi - 48) * 10 + 9) : scan fr s (d2 n ++ l) = (scan fr s2 l).app (d2 n) := by
  refine go_two hs hs1 ?_ ?_
  · rw [step, hrow, look, if_pos]; rw [digit_toNat (by omega)]; omega
  · rw [step, hrow1, look, if_pos]; rw [digit_toNat (by omega)]; omega

theorem go_mon {fr : Bool} {l : Bytes} {n : Nat} (h1 : 1 ≤ n) (h2 : n ≤ 12) :
    scan fr mon (d2 n ++ l) = (scan fr dash2 l).app (d2 n) := by
  rcases Nat.lt_or_ge n 10 with h | h
  · refine go_two (s1 := mon0) (by simp) (by simp) ?_ ?_
    · rw [step, digit_toNat (by omega), show n / 10 = 0 by omega]; rfl
    · rw [step, digit_toNat (by omega), row, look, if_pos (by omega)]
  · refine go_two (s1 := mon1) (by simp) (by simp) ?_ ?_
    · rw [step, digit_toNat (by omega), show n / 10 = 1 by omega]; rfl
    · rw [step, digit_toNat (by omega), row, look, if_pos (by omega)]

theorem go_day {fr : Bool} {l : Bytes} {n : Nat} (h1 : 1 ≤ n) (h2 : n ≤ 31) :
    scan fr day (d2 n ++ l) = (scan fr t l).app (d2 n) := by
  rcases Nat.lt_or_ge n 10 with h | h
  · refine go_two (s1 := day0) (by simp) (by simp) ?_ ?_
    · rw [step, digit_toNat (by omega), show n / 10 = 0 by omega]; rfl
    · rw [step, digit_toNat (by omega), row, look, if_pos (by omega)]
  rcases Nat.lt_or_ge n 30 with h' | h'
  · refine go_two (s1 := day12) (by simp) (by simp) ?_ ?_
    · rw [step, digit_toNat (by omega), row, look, if_neg (by omega), look, if_pos (by omega)]
    · rw [step, digit_toNat (by omega), row, look, if_pos (by omega)]
  · refine go_two (s1 := day3) (by simp) (by simp) ?_ ?_
    · rw [step, digit_toNat (by omega), show n / 10 = 3 by omega]; rfl
    · rw [step, digit_toNat (by omega), row, look, if_pos (by omega)]

theorem go_hour {fr : Bool} {s s1 s2 s3 : Ts} {l : Bytes} {n : Nat} (hs : s ≠ fin) (hs1 : s1 ≠ fin) (hs2 : s2 ≠ fin)
    (hrow : row fr s = [(48, 49, s1), (50, 50, s2)]) (hrow1 : row fr s1 = [(48, 57, s3)])
    (hrow2 : row fr s2 = [(48, 51, s3)]) (hn : n ≤ 23) :
    scan fr s (d2 n ++ l) = (scan fr s3 l).app (d2 n) := by
  rcases Nat.lt_or_ge n 20 with h | h
  · refine go_two hs hs1 ?_ ?_
    · rw [step, digit_toNat (by omega), hrow, look, if_pos (by omega)]
    · rw [step, digit_toNat (by omega), hrow1, look, if_pos (by omega)]
  · refine go_two hs hs2 ?_ ?_
    · rw [step, digit_toNat (by omega), hrow, look, if_neg (by omega), look, if_pos (by omega)]
    · rw [step, digit_toNat (by omega), hrow2, look, if_pos (by omega)]

/-- the zone, from any state with the zone transitions -/
theorem go_zone {fr : Bool} {s : Ts} {l : Bytes} {z : Zone} (hs : s ≠ fin) (hz : z.WF)
    (h1 : step fr s 43 = some oh) (h2 : step fr s 45 = some oh) (h3 : step fr s 90 = some fin) :
    scan fr s (z.render ++ l) = .ok z.render l := by
  cases z with
  | utc => rw [Zone.render, List.singleton_append, scan_cons_of hs h3, scan_fin]; rfl
  | num neg hh mm =>
    have key : scan fr oh ((d2 hh ++ 58 :: d2 mm) ++ l) = .ok (d2 hh ++ 58 :: d2 mm) l := by
      rw [List.append_assoc, go_hour (s3 := ocol) (by simp) (by simp) (by simp) rfl rfl rfl hz.1, List.cons_append,
        go_fixed (s' := om) 58 (by simp) rfl,
        go_pair (s2 := fin) (by simp) (by simp) (by omega) (by omega) rfl rfl (by have := hz.2; omega),
        scan_fin]
      simp [Res.app]
    rw [Zone.render, List.cons_append, scan_cons_of (s' := oh) hs, key]
    · rfl
    · cases neg <;> simp_all

theorem go_frac {fr : Bool} {l : Bytes} {z : Zone} (hz : z.WF) : ∀ (ds : List Nat) (k : Nat), k + ds.length ≤ 6 →
    1 ≤ k + ds.length → (∀ d ∈ ds, d ≤ 9) →
    scan fr (fracSt k) (ds.map digit ++ z.render ++ l) = .ok (ds.map digit ++ z.render) l := by
  intro ds
  induction ds with
  | nil =>
    intro k h1 h2 _
    simp only [List.map_nil, List.nil_append]
    have hc : k = 1 ∨ k = 2 ∨ k = 3 ∨ k = 4 ∨ k = 5 ∨ k = 6 := by simp at h1 h2; omega
    rcases hc with rfl | rfl | rfl | rfl | rfl | rfl <;> exact go_zone (fracSt_ne _) hz rfl rfl rfl
  | cons d ds ih =>
    intro k h1 h2 h3
    simp only [List.length_cons] at h1 h2
    have hd := h3 d (by simp)
    have hstep : step fr (fracSt k) (digit d) = some (fracSt (k + 1)) := by
      have hc : k = 0 ∨ k = 1 ∨ k = 2 ∨ k = 3 ∨ k = 4 ∨ k = 5 := by omega
      rw [step, digit_toNat hd]
      rcases hc with rfl | rfl | rfl | rfl | rfl | rfl
      · simp only [fracSt, row, look]; rw [if_pos (by omega)]
      all_goals
        simp only [fracSt, row, look]
        rw [if_neg (by omega), if_neg (by omega), if_pos (by omega)]
    simp only [List.map_cons, List.cons_append]
    rw [scan_cons_of (fracSt_ne k) hstep, ih (k + 1) (by omega) (by omega) (fun d hd => h3 d (by simp [hd]))]
    rfl

theorem go_fraczone {fr : Bool} {l : Bytes} {z : Zone} {ds : List Nat} (hz : z.WF) (hl : ds.length ≤ 6)
    (hd : ∀ d ∈ ds, d ≤ 9) (hfr : fr = false → ds = []) :
    scan fr zone (fracRender ds ++ z.render ++ l) = .ok (fracRender ds ++ z.render) l := by
  cases ds with
  | nil =>
    simp only [fracRender, List.nil_append]
    cases fr <;> exact go_zone (by simp) hz rfl rfl rfl
  | cons d ds =>
    have hfr : fr = true := by cases fr <;> simp_all
    subst hfr
    simp only [fracRender, List.cons_append]
    rw [scan_cons_of (s' := frac0) (by simp) rfl, ← List.cons_append]
    have := go_frac (fr := true) (l := l) hz (d :: ds) 0 (by simpa using hl) (by simp) hd
    simp only [fracSt] at this
    simp only [List.append_assoc] at this ⊢
    rw [this]
    rfl

/-- Every well-formed timestamp text is accepted, whatever follows it. -/
theorem scan_complete {fr : Bool} (s : Stamp) (h : s.WF) (hfr : fr = false → s.frac = []) (l : Bytes) :
    scan fr y1 (s.render ++ l) = .ok s.render l := by
  obtain ⟨e1, e2, e3, e4, e5, e6, e7, e8, e9, e10, e11⟩ := h
  simp only [Stamp.render, d4, List.append_assoc, List.cons_append]
  rw [go_pair (s2 := y3) (by simp) (by simp) (by omega) (by omega) rfl rfl (by omega),
    go_pair (s2 := dash1) (by simp) (by simp) (by omega) (by omega) rfl rfl (by omega),
    go_fixed (s' := mon) 45 (by simp) rfl, go_mon e2 e3, go_fixed (s' := day) 45 (by simp) rfl, go_day e4 e5,
    go_fixed (s' := hour) 84 (by simp) rfl,
    go_hour (s3 := col1) (by simp) (by simp) (by simp) rfl rfl rfl e6,
    go_fixed (s' := min) 58 (by simp) rfl,
    go_pair (s2 := col2) (by simp) (by simp) (by omega) (by omega) rfl rfl (by omega),
    go_fixed (s' := sec) 58 (by simp) rfl,
    go_pair (s2 := zone) (by simp) (by simp) (by omega) (by omega) rfl rfl (by omega)]
  rw [← List.append_assoc, go_fraczone e11 e9 e10 hfr]
  simp [Res.app]


/-! ## Go's `time.Parse` on well-formed timestamps -/

theorem isDigit_digit {n : Nat} (h : n ≤ 9) : isDigit (digit n) = true := by
  simp [isDigit, digit_toNat h]; omega

theorem dig_digit {n : Nat} (h : n ≤ 9) : dig (digit n) = n := by
  simp [dig, digit_toNat h]

theorem decVal_d2 {n : Nat} (h : n ≤ 99) : decVal (d2 n) = n := by
  simp only [decVal, d2, List.foldl, dig_digit (show n / 10 ≤ 9 by omega), dig_digit (show n % 10 ≤ 9 by omega)]
  omega

theorem decVal_digits (ds : List Nat) (h : ∀ d ∈ ds, d ≤ 9) (a : Nat) :
    List.foldl (fun acc b => acc * 10 + dig b) a (ds.map digit) = ds.foldl (fun a d => a * 10 + d) a := by
  induction ds generalizing a with
  | nil => rfl
  | cons d ds ih =>
    simp only [List.map_cons, List.foldl, dig_digit (h d (by simp))]
    exact ih (fun d hd => h d (by simp [hd])) _

theorem zone_head_not_digit (z : Zone) : ∃ b r, z.render = b :: r ∧ isDigit b = false ∧ b ≠ 46 := by
  cases z with
  | utc => exact ⟨90, [], rfl, by decide, by decide⟩
  | num neg h m => cases neg <;> exact ⟨_, _, rfl, by decide, by decide⟩

theorem takeWhile_digits (ds : List Nat) (h : ∀ d ∈ ds, d ≤ 9) (z : Zone) :
    (ds.map digit ++ z.render).takeWhile isDigit = ds.map digit ∧
    (ds.map digit ++ z.render).dropWhile isDigit = z.render := by
  obtain ⟨b, r, hz, hb, -⟩ := zone_head_not_digit z
  induction ds with
  | nil => simp [hz, hb]
  | cons d ds ih =>
    have := ih (fun d hd => h d (by simp [hd]))
    simp [isDigit_digit (h d (by simp)), this]

theorem parseFrac_render (ds : List Nat) (hl : ds.length ≤ 6) (h : ∀ d ∈ ds, d ≤ 9) (z : Zone) :
    parseFrac (fracRender ds ++ z.render) = (fracNanos ds, z.render) := by
  cases ds with
  | nil =>
    obtain ⟨b, r, hz, hb, hb'⟩ := zone_head_not_digit z
    simp only [fracRender, List.nil_append, hz]
    unfold parseFrac
    split
    · rename_i heq; simp at heq; exact absurd heq.1 hb'
    · simp [fracNanos]
  | cons d ds =>
    have hd := h d (by simp)
    have htw := takeWhile_digits ds (fun d hd => h d (by simp [hd])) z
    simp only [fracRender, List.map_cons, List.cons_append, parseFrac, isDigit_digit hd, if_true, htw]
    have htake : (digit d :: ds.map digit).take 9 = (d :: ds).map digit := by
      rw [List.take_of_length_le]; · rfl
      · simp at hl ⊢; omega
    rw [htake, decVal, decVal_digits _ h]
    simp [fracNanos]

theorem parseZone_render (z : Zone) (h : z.WF) : parseZone z.render = some z.seconds := by
  cases z with
  | utc => rfl
  | num neg hh mm =>
    obtain ⟨h1, h2⟩ := h
    have a1 : hh / 10 ≤ 9 := by omega
    have a2 : hh % 10 ≤ 9 := by omega
    have a3 : mm / 10 ≤ 9 := by omega
    have a4 : mm % 10 ≤ 9 := by omega
    have e : ((hh / 10 * 10 + hh % 10) * 60 + (mm / 10 * 10 + mm % 10)) * 60 = hh * 3600 + mm * 60 := by omega
    cases neg <;>
      simp only [Zone.render, d2, List.cons_append, List.nil_append, parseZone, isDigit_digit a1, isDigit_digit a2,
        isDigit_digit a3, isDigit_digit a4, dig_digit a1, dig_digit a2, dig_digit a3, dig_digit a4, e, Bool.and_self,
        if_true, Zone.seconds, if_false, Bool.false_eq_true]
    rw [if_neg (by decide)]

theorem daysIn_eq (y m : Nat) : daysIn m (y : Int) = Stamp.monthDays y m := by
  have hleap : isLeap (y : Int) = true ↔ ((4 ∣ y ∧ ¬ 100 ∣ y) ∨ 400 ∣ y) := by
    simp only [isLeap, Bool.and_eq_true, Bool.or_eq_true, decide_eq_true_eq]
    omega
  simp only [daysIn, Stamp.monthDays]
  split
  · by_cases hl : isLeap (y : Int) = true
    · rw [if_pos hl, if_pos (hleap.mp hl)]
    · rw [if_neg hl, if_neg (fun h => hl (hleap.mpr h))]
  · simp

/-- `time.Parse` on a well-formed timestamp fails exactly when the date does not exist, and otherwise
returns the written fields. -/
theorem parse_render (s : Stamp) (h : s.WF) :
    parseRFC3339Micro s.render = if s.Real then some s.time else none := by
  obtain ⟨e1, e2, e3, e4, e5, e6, e7, e8, e9, e10, e11⟩ := h
  have key : s.render = digit (s.year / 100 / 10) :: digit (s.year / 100 % 10) :: digit (s.year % 100 / 10) ::
      digit (s.year % 100 % 10) :: 45 :: digit (s.month / 10) :: digit (s.month % 10) :: 45 ::
      digit (s.day / 10) :: digit (s.day % 10) :: 84 :: digit (s.hour / 10) :: digit (s.hour % 10) :: 58 ::
      digit (s.min / 10) :: digit (s.min % 10) :: 58 :: digit (s.sec / 10) :: digit (s.sec % 10) ::
      (fracRender s.frac ++ s.zone.render) := by
    simp [Stamp.render, d4, d2]
  rw [key]
  have hyear : decVal [digit (s.year / 100 / 10), digit (s.year / 100 % 10), digit (s.year % 100 / 10),
      digit (s.year % 100 % 10)] = s.year := by
    simp only [decVal, List.foldl, dig_digit (show s.year / 100 / 10 ≤ 9 by omega),
      dig_digit (show s.year / 100 % 10 ≤ 9 by omega), dig_digit (show s.year % 100 / 10 ≤ 9 by omega),
      dig_digit (show s.year % 100 % 10 ≤ 9 by omega)]
    omega
  have h2 : ∀ n, n ≤ 99 → decVal [digit (n / 10), digit (n % 10)] = n := fun n hn => decVal_d2 hn
  simp only [parseRFC3339Micro]
  rw [if_pos]
  · rw [parseFrac_render s.frac e9 e10, parseZone_render _ e11]
    simp only [hyear, h2 s.month (by omega), h2 s.day (by omega), h2 s.hour (by omega), h2 s.min (by omega),
      h2 s.sec (by omega), daysIn_eq]
    by_cases hr : s.Real
    · rw [if_pos ⟨e2, e3, by omega, by omega, by omega, e4, hr⟩, if_pos hr]; rfl
    · rw [if_neg (fun hc => hr hc.2.2.2.2.2.2), if_neg hr]
  · simp only [List.all_cons, List.all_nil, Bool.and_true, Bool.and_eq_true]
    refine ⟨?_, ?_, ?_, ?_, ?_, ?_, ?_, ?_, ?_, ?_, ?_, ?_, ?_, ?_⟩ <;> exact isDigit_digit (by omega)

end Ts
end Verif
