import Verif.GoTime

/-!
# Calendar arithmetic: `time.Date`, `Time.AddDate`, `Time.In`, `time.ParseInLocation` (Go standard library)

Not in the repository; this is the model of the library functions that `rfc3164/machine.go:1161-1182` (`set_timestamp`) calls.
Years are unbounded integers (Go's are 64-bit: nothing is said about years for which Go would overflow).
-/

namespace Verif.GoTime

/-- A `*time.Location`, as far as the library can see it: `offsetAt u` is the offset (seconds east of UTC) in use at the instant `u`
(seconds since 1970-01-01 00:00 UTC), and `resolve w` the offset that `time.Date` chooses for the wall clock reading `w` (seconds
from 1970-01-01 00:00 to that reading). Both are arbitrary: how `time.Date` treats readings that are skipped or repeated by a
zone transition is deliberately left open, as in its documentation. -/
structure Location where
  offsetAt : Int → Int
  resolve : Int → Int

/-- `time.UTC` -/
def utc : Location := ⟨fun _ => 0, fun _ => 0⟩

/-- a location with one offset -/
def fixedZone (off : Int) : Location := ⟨fun _ => off, fun _ => off⟩

/-- days from 0000-01-01 to `y`-01-01 -/
def daysBeforeYear (y : Int) : Int := 365 * y + (y + 3) / 4 - (y + 99) / 100 + (y + 399) / 400

/-- days of year `y` before month `m` -/
def daysBeforeMonth (y : Int) : Nat → Int
  | 0 => 0
  | 1 => 0
  | m + 1 => daysBeforeMonth y m + daysIn m y

/-- days from 0000-01-01 to the day `d` of month `m`; the day may be outside of the month -/
def days (y : Int) (m : Nat) (d : Int) : Int := daysBeforeYear y + daysBeforeMonth y m + (d - 1)

/-- The date that is `d - 1` days after the first of month `m` of year `y` (for `1 ≤ m ≤ 12`, any `d`). Month by month: this is not the
algorithm of Go's `time.Date`, but both give the one date with this day number (`norm_days`, `norm_valid`, `days_inj`). -/
def norm : Nat → Int → Nat → Int → Int × Nat × Int
  | 0, y, m, d => (y, m, d)
  | f + 1, y, m, d =>
    if d < 1 then
      if m ≤ 1 then norm f (y - 1) 12 (d + daysIn 12 (y - 1)) else norm f y (m - 1) (d + daysIn (m - 1) y)
    else if daysIn m y < d then
      if 12 ≤ m then norm f (y + 1) 1 (d - daysIn m y) else norm f y (m + 1) (d - daysIn m y)
    else (y, m, d)

/-- enough steps -/
def civil (y : Int) (m : Nat) (d : Int) : Int × Nat × Int := norm (d.natAbs + 2) y m d

/-- seconds since midnight -/
def Time.clock (t : Time) : Int := t.hour * 3600 + t.min * 60 + t.sec

/-- the wall clock reading, in seconds from 1970-01-01 00:00 (719528 days after 0000-01-01) to it -/
def Time.wall (t : Time) : Int := (days t.year t.month t.day - 719528) * 86400 + t.clock

/-- the instant: seconds since 1970-01-01 00:00 UTC (Go `Time.Unix`) -/
def Time.unix (t : Time) : Int := t.wall - t.off

/-- the wall clock `δ` seconds later -/
def Time.shift (t : Time) (δ : Int) : Time :=
  let c := t.clock + δ
  let n := civil t.year t.month (t.day + c / 86400)
  let s := (c % 86400).toNat
  { t with year := n.1, month := n.2.1, day := n.2.2.toNat, hour := s / 3600, min := s % 3600 / 60, sec := s % 60 }

/-- Go `Time.In`: the same instant, presented in another location -/
def Time.inLoc (t : Time) (l : Location) : Time := { t.shift (l.offsetAt t.unix - t.off) with off := l.offsetAt t.unix }

/-- Go `time.Date(y, m, d, h, mi, s, ns, l)` for `1 ≤ m ≤ 12`, clock fields in range, and any day number -/
def date (y : Int) (m : Nat) (d : Int) (h mi s ns : Nat) (l : Location) : Time :=
  let n := civil y m d
  let t : Time := ⟨n.1, n.2.1, n.2.2.toNat, h, mi, s, ns, 0⟩
  Time.inLoc { t with off := l.resolve t.wall } l

/-- Go `t.AddDate(years, 0, 0)`; `l` is the location of `t` -/
def Time.addYears (t : Time) (years : Int) (l : Location) : Time :=
  date (t.year + years) t.month t.day t.hour t.min t.sec t.nsec l

/-- the fields of a time are in their ranges and the date exists -/
def Time.Valid (t : Time) : Prop :=
  1 ≤ t.month ∧ t.month ≤ 12 ∧ 1 ≤ t.day ∧ t.day ≤ daysIn t.month t.year ∧ t.hour < 24 ∧ t.min < 60 ∧ t.sec < 60

/-! ## Facts -/

theorem isLeap_iff (y : Int) : isLeap y = true ↔ y % 4 = 0 ∧ (y % 100 ≠ 0 ∨ y % 400 = 0) := by simp [isLeap]

theorem daysIn_range (m : Nat) (y : Int) : 28 ≤ daysIn m y ∧ daysIn m y ≤ 31 := by
  unfold daysIn
  split
  · split <;> omega
  · split <;> omega

theorem daysBeforeYear_succ (y : Int) : daysBeforeYear (y + 1) = daysBeforeYear y + (if isLeap y then 366 else 365) := by
  unfold daysBeforeYear
  by_cases h : isLeap y = true
  · rw [if_pos h]; rw [isLeap_iff] at h; omega
  · rw [if_neg h]; rw [isLeap_iff] at h; omega

theorem daysBeforeMonth_succ (y : Int) {m : Nat} (h : 1 ≤ m) : daysBeforeMonth y (m + 1) = daysBeforeMonth y m + daysIn m y := by
  obtain ⟨k, rfl⟩ : ∃ k, m = k + 1 := ⟨m - 1, by omega⟩
  rfl

theorem daysBeforeMonth_12 (y : Int) : daysBeforeMonth y 12 + daysIn 12 y = if isLeap y then 366 else 365 := by
  simp only [daysBeforeMonth, daysIn]
  by_cases h : isLeap y = true <;> simp [h]

theorem days_month {y : Int} {m : Nat} (h : 1 ≤ m) (d : Int) : days y (m + 1) d = days y m (d + daysIn m y) := by
  unfold days
  rw [daysBeforeMonth_succ y h]
  omega

theorem days_year (y : Int) (d : Int) : days (y + 1) 1 d = days y 12 (d + daysIn 12 y) := by
  have h1 := daysBeforeYear_succ y
  have h2 := daysBeforeMonth_12 y
  simp only [days]
  rw [h1]
  have : daysBeforeMonth (y + 1) 1 = 0 := rfl
  rw [this]
  omega

theorem norm_spec : ∀ (f : Nat) (y : Int) (m : Nat) (d : Int), 1 ≤ m → m ≤ 12 → d.natAbs + 2 ≤ f →
    ∃ y' m' d', norm f y m d = (y', m', d') ∧ 1 ≤ m' ∧ m' ≤ 12 ∧ 1 ≤ d' ∧ d' ≤ daysIn m' y' ∧ days y' m' d' = days y m d := by
  intro f
  induction f with
  | zero => intro y m d h1 h2 h3; omega
  | succ f ih =>
    intro y m d h1 h2 h3
    unfold norm
    by_cases hd : d < 1
    · rw [if_pos hd]
      have key : ∀ (y' : Int) (m' : Nat), 1 ≤ m' → m' ≤ 12 → (d ≤ 0) →
          ∃ y2 m2 d2, norm f y' m' (d + daysIn m' y') = (y2, m2, d2) ∧ 1 ≤ m2 ∧ m2 ≤ 12 ∧ 1 ≤ d2 ∧ d2 ≤ daysIn m2 y2 ∧
            days y2 m2 d2 = days y' m' (d + daysIn m' y') := by
        intro y' m' h1' h2' hd'
        have hr := daysIn_range m' y'
        by_cases hin : 1 ≤ d + daysIn m' y'
        · refine ⟨y', m', d + daysIn m' y', ?_, h1', h2', hin, by omega, rfl⟩
          obtain ⟨f, rfl⟩ : ∃ k, f = k + 1 := ⟨f - 1, by omega⟩
          unfold norm
          rw [if_neg (by omega), if_neg (by omega)]
        · exact ih y' m' _ h1' h2' (by omega)
      by_cases hm : m ≤ 1
      · rw [if_pos hm]
        obtain rfl : m = 1 := by omega
        obtain ⟨y2, m2, d2, k1, k2, k3, k4, k5, k6⟩ := key (y - 1) 12 (by omega) (by omega) (by omega)
        refine ⟨y2, m2, d2, k1, k2, k3, k4, k5, ?_⟩
        have := days_year (y - 1) d
        rw [show y - 1 + 1 = y by omega] at this
        rw [k6, this]
      · rw [if_neg hm]
        obtain ⟨k, rfl⟩ : ∃ k, m = k + 1 := ⟨m - 1, by omega⟩
        obtain ⟨y2, m2, d2, k1, k2, k3, k4, k5, k6⟩ := key y k (by omega) (by omega) (by omega)
        refine ⟨y2, m2, d2, k1, k2, k3, k4, k5, ?_⟩
        rw [k6, days_month (by omega)]
    · rw [if_neg hd]
      by_cases hb : (daysIn m y : Int) < d
      · rw [if_pos hb]
        have hr := daysIn_range m y
        by_cases hm : 12 ≤ m
        · rw [if_pos hm]
          obtain rfl : m = 12 := by omega
          obtain ⟨y2, m2, d2, k1, k2, k3, k4, k5, k6⟩ := ih (y + 1) 1 (d - daysIn 12 y) (by omega) (by omega) (by omega)
          refine ⟨y2, m2, d2, k1, k2, k3, k4, k5, ?_⟩
          rw [k6, days_year, show d - daysIn 12 y + daysIn 12 y = d by omega]
        · rw [if_neg hm]
          obtain ⟨y2, m2, d2, k1, k2, k3, k4, k5, k6⟩ := ih y (m + 1) (d - daysIn m y) (by omega) (by omega) (by omega)
          refine ⟨y2, m2, d2, k1, k2, k3, k4, k5, ?_⟩
          rw [k6, days_month h1, show d - daysIn m y + daysIn m y = d by omega]
      · rw [if_neg hb]
        exact ⟨y, m, d, rfl, h1, h2, by omega, by omega, rfl⟩

/-- the result is a date that exists, with the same day number -/
theorem civil_spec (y : Int) (m : Nat) (d : Int) (h1 : 1 ≤ m) (h2 : m ≤ 12) :
    1 ≤ (civil y m d).2.1 ∧ (civil y m d).2.1 ≤ 12 ∧ 1 ≤ (civil y m d).2.2 ∧ (civil y m d).2.2 ≤ daysIn (civil y m d).2.1 (civil y m d).1 ∧
      days (civil y m d).1 (civil y m d).2.1 (civil y m d).2.2 = days y m d := by
  obtain ⟨y', m', d', h, k1, k2, k3, k4, k5⟩ := norm_spec _ y m d h1 h2 (Nat.le_refl _)
  unfold civil
  rw [h]
  exact ⟨k1, k2, k3, k4, k5⟩

theorem civil_self {y : Int} {m : Nat} {d : Int} (h1 : 1 ≤ d) (h2 : d ≤ daysIn m y) : civil y m d = (y, m, d) := by
  unfold civil norm
  rw [if_neg (by omega), if_neg (by omega)]

/-- the day after the last of February -/
theorem civil_feb29 {y : Int} (h : isLeap y = false) : civil y 2 29 = (y, 3, 1) := by
  have hd : daysIn 2 y = 28 := by simp [daysIn, h]
  unfold civil
  rw [show ((29 : Int).natAbs + 2) = 29 + 1 + 1 from rfl]
  unfold norm
  rw [if_neg (by decide), hd, if_pos (by decide), if_neg (by decide)]
  unfold norm
  have hd3 : daysIn (2 + 1) y = 31 := by simp [daysIn]
  rw [if_neg (by decide), hd3, if_neg (by decide)]
  rfl

theorem daysBeforeMonth_le (y : Int) : ∀ m, 1 ≤ m → m ≤ 12 → 0 ≤ daysBeforeMonth y m ∧ daysBeforeMonth y m + daysIn m y ≤ daysBeforeYear (y + 1) - daysBeforeYear y := by
  intro m h1 h2
  rw [daysBeforeYear_succ]
  have : m = 1 ∨ m = 2 ∨ m = 3 ∨ m = 4 ∨ m = 5 ∨ m = 6 ∨ m = 7 ∨ m = 8 ∨ m = 9 ∨ m = 10 ∨ m = 11 ∨ m = 12 := by omega
  by_cases hl : isLeap y = true <;>
    (rcases this with rfl | rfl | rfl | rfl | rfl | rfl | rfl | rfl | rfl | rfl | rfl | rfl <;> simp [daysBeforeMonth, daysIn, hl] <;> omega)

theorem daysBeforeYear_mono {y y' : Int} (h : y ≤ y') : daysBeforeYear y ≤ daysBeforeYear y' := by
  unfold daysBeforeYear; omega

theorem daysBeforeMonth_mono (y : Int) {m m' : Nat} (h1 : 1 ≤ m) (h : m < m') : daysBeforeMonth y m + daysIn m y ≤ daysBeforeMonth y m' := by
  induction m' with
  | zero => omega
  | succ k ih =>
    by_cases hk : m = k
    · subst hk; rw [daysBeforeMonth_succ y h1]; exact Int.le_refl _
    · have := ih (by omega)
      rw [daysBeforeMonth_succ y (by omega)]
      omega

/-- A day number belongs to one date only, so `civil` is what any correct implementation computes. -/
theorem days_inj {y y' : Int} {m m' : Nat} {d d' : Int} (h1 : 1 ≤ m) (h2 : m ≤ 12) (h3 : 1 ≤ d) (h4 : d ≤ daysIn m y)
    (k1 : 1 ≤ m') (k2 : m' ≤ 12) (k3 : 1 ≤ d') (k4 : d' ≤ daysIn m' y') (h : days y m d = days y' m' d') : y = y' ∧ m = m' ∧ d = d' := by
  have a := daysBeforeMonth_le y m h1 h2
  have a' := daysBeforeMonth_le y' m' k1 k2
  unfold days at h
  have hy : y = y' := by
    rcases Int.lt_trichotomy y y' with hlt | heq | hgt
    · have := daysBeforeYear_mono (show y + 1 ≤ y' by omega); omega
    · exact heq
    · have := daysBeforeYear_mono (show y' + 1 ≤ y by omega); omega
  subst hy
  have hm : m = m' := by
    rcases Nat.lt_trichotomy m m' with hlt | heq | hgt
    · have := daysBeforeMonth_mono y h1 hlt; omega
    · exact heq
    · have := daysBeforeMonth_mono y k1 hgt; omega
  subst hm
  exact ⟨rfl, rfl, by omega⟩

/-! ## Times -/

theorem Time.clock_range {t : Time} (h : t.Valid) : 0 ≤ t.clock ∧ t.clock < 86400 := by
  obtain ⟨-, -, -, -, h1, h2, h3⟩ := h
  unfold Time.clock
  omega

theorem Time.shift_valid {t : Time} (h : t.Valid) (δ : Int) : (t.shift δ).Valid := by
  obtain ⟨h1, h2, -⟩ := h
  obtain ⟨k1, k2, k3, k4, -⟩ := civil_spec t.year t.month (t.day + (t.clock + δ) / 86400) h1 h2
  have hc : (t.clock + δ) % 86400 < 86400 := by omega
  refine ⟨k1, k2, ?_, ?_, ?_, ?_, ?_⟩
  · simp only [Time.shift]; omega
  · simp only [Time.shift]; omega
  · simp only [Time.shift]; omega
  · simp only [Time.shift]; omega
  · simp only [Time.shift]; omega

theorem Time.shift_wall {t : Time} (h : t.Valid) (δ : Int) : (t.shift δ).wall = t.wall + δ := by
  obtain ⟨h1, h2, -⟩ := h
  obtain ⟨k1, k2, k3, k4, k5⟩ := civil_spec t.year t.month (t.day + (t.clock + δ) / 86400) h1 h2
  have e : ((civil t.year t.month (t.day + (t.clock + δ) / 86400)).2.2.toNat : Int) = (civil t.year t.month (t.day + (t.clock + δ) / 86400)).2.2 :=
    Int.toNat_of_nonneg (by omega)
  have hw : (t.shift δ).wall = (days t.year t.month (t.day + (t.clock + δ) / 86400) - 719528) * 86400 + (t.clock + δ) % 86400 := by
    simp only [Time.wall, Time.shift]
    rw [e, k5]
    congr 1
    simp only [Time.clock]
    omega
  rw [hw]
  unfold Time.wall days
  omega

theorem Time.inLoc_valid {t : Time} (h : t.Valid) (l : Location) : (t.inLoc l).Valid := Time.shift_valid h _

/-- `In` never changes the instant. -/
theorem Time.inLoc_unix {t : Time} (h : t.Valid) (l : Location) : (t.inLoc l).unix = t.unix := by
  have h1 : (t.inLoc l).wall = t.wall + (l.offsetAt t.unix - t.off) := Time.shift_wall h _
  have h2 : (t.inLoc l).off = l.offsetAt t.unix := rfl
  simp only [Time.unix] at h1 h2 ⊢
  rw [h1, h2]
  omega

theorem Time.inLoc_off (t : Time) (l : Location) : (t.inLoc l).off = l.offsetAt t.unix := rfl

theorem Time.inLoc_nsec (t : Time) (l : Location) : (t.inLoc l).nsec = t.nsec := rfl

theorem Time.shift_zero {t : Time} (h : t.Valid) : t.shift 0 = t := by
  obtain ⟨h1, h2, h3, h4, h5, h6, h7⟩ := h
  have hc : 0 ≤ t.clock ∧ t.clock < 86400 := Time.clock_range ⟨h1, h2, h3, h4, h5, h6, h7⟩
  have e1 : (t.clock + 0) / 86400 = 0 := by omega
  have e2 : ((t.clock + 0) % 86400).toNat = t.hour * 3600 + t.min * 60 + t.sec := by
    rw [Int.add_zero, Int.emod_eq_of_lt hc.1 hc.2]
    unfold Time.clock; omega
  simp only [Time.shift, e1, e2]
  rw [Int.add_zero]
  rw [civil_self (by omega) (by omega)]
  have a1 : (t.hour * 3600 + t.min * 60 + t.sec) / 3600 = t.hour := by omega
  have a2 : (t.hour * 3600 + t.min * 60 + t.sec) % 3600 / 60 = t.min := by omega
  have a3 : (t.hour * 3600 + t.min * 60 + t.sec) % 60 = t.sec := by omega
  simp only [a1, a2, a3, Int.toNat_natCast]

theorem Time.inLoc_self {t : Time} (h : t.Valid) {l : Location} (hl : l.offsetAt t.unix = t.off) : t.inLoc l = t := by
  unfold Time.inLoc
  rw [hl, Int.sub_self, Time.shift_zero h]

/-- the date before any presentation -/
theorem civil_valid {y : Int} {m : Nat} {d : Int} {h mi s ns : Nat} {off : Int} (h1 : 1 ≤ m) (h2 : m ≤ 12) (h3 : h < 24) (h4 : mi < 60)
    (h5 : s < 60) : (⟨(civil y m d).1, (civil y m d).2.1, (civil y m d).2.2.toNat, h, mi, s, ns, off⟩ : Time).Valid := by
  obtain ⟨k1, k2, k3, k4, -⟩ := civil_spec y m d h1 h2
  refine ⟨k1, k2, ?_, ?_, h3, h4, h5⟩ <;> simp only <;> omega

theorem date_valid {y : Int} {m : Nat} {d : Int} {h mi s ns : Nat} {l : Location} (h1 : 1 ≤ m) (h2 : m ≤ 12) (h3 : h < 24) (h4 : mi < 60)
    (h5 : s < 60) : (date y m d h mi s ns l).Valid := Time.inLoc_valid (civil_valid h1 h2 h3 h4 h5) l

/-- in UTC, `time.Date` of an existing date gives the fields back -/
theorem date_utc {y : Int} {m : Nat} {d : Nat} {h mi s ns : Nat} (h1 : 1 ≤ m) (h2 : m ≤ 12) (h3 : h < 24) (h4 : mi < 60)
    (h5 : s < 60) (h6 : 1 ≤ d) (h7 : d ≤ daysIn m y) : date y m d h mi s ns utc = ⟨y, m, d, h, mi, s, ns, 0⟩ := by
  unfold date
  rw [civil_self (by omega) (by omega)]
  simp only [Int.toNat_natCast, utc]
  exact Time.inLoc_self (l := ⟨fun _ => 0, fun _ => 0⟩) ⟨h1, h2, h6, h7, h3, h4, h5⟩ rfl

end Verif.GoTime
