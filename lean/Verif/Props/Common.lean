import Verif.CommonLemmas
import Verif.Base
import Verif.Spec.Escape
import Verif.Spec.Names

/-! # C17-C20: priorities and `common/functions.go` -/

namespace Verif.Props
open Verif.Spec

/-! ## C17 -/

/-- C17: `ComputeFromPriority` splits a priority into facility and severity, from which it can be recovered; other
fields are not touched. -/
theorem C17_decomposition (m : Base) (v : UInt8) :
    ∃ f s : UInt8, (m.computeFromPriority v).facility = some f ∧ (m.computeFromPriority v).severity = some s ∧
      (m.computeFromPriority v).priority = some v ∧ f.toNat * 8 + s.toNat = v.toNat ∧ s.toNat < 8 ∧
      { m.computeFromPriority v with priority := m.priority, facility := m.facility, severity := m.severity } = m := by
  refine ⟨v / 8, v % 8, rfl, rfl, rfl, ?_, ?_, rfl⟩
  · rw [UInt8.toNat_div, UInt8.toNat_mod, show UInt8.toNat 8 = 8 from rfl]; omega
  · rw [UInt8.toNat_mod, show UInt8.toNat 8 = 8 from rfl]; omega

/-- C17: `Valid()` of the common part: a priority is present and at most 191. -/
theorem C17_valid_iff (m : Base) : m.valid = true ↔ ∃ v, m.priority = some v ∧ v.toNat ≤ 191 := by
  unfold Base.valid
  cases m.priority with
  | none => simp
  | some p => simp [Common.validPriority, Common.inBetween]; omega

/-- C17: after `ComputeFromPriority` of a valid priority all textual lookups give a non-empty text. -/
theorem C17_lookups (m : Base) (v : UInt8) (h : (m.computeFromPriority v).valid = true) :
    ∃ a b c d e : String, a ≠ "" ∧ b ≠ "" ∧ c ≠ "" ∧ d ≠ "" ∧ e ≠ "" ∧
      (m.computeFromPriority v).facilityMessage = some a ∧ (m.computeFromPriority v).facilityLevel = some b ∧
      (m.computeFromPriority v).severityMessage = some c ∧ (m.computeFromPriority v).severityLevel = some d ∧
      (m.computeFromPriority v).severityShortLevel = some e := by
  rw [C17_valid_iff] at h
  obtain ⟨w, hw, hle⟩ := h
  simp only [Base.computeFromPriority, Option.some.injEq] at hw
  subst hw
  have hf : (v / 8).toNat < 24 := by rw [UInt8.toNat_div, show UInt8.toNat 8 = 8 from rfl]; omega
  have hs : (v % 8).toNat < 8 := by rw [UInt8.toNat_mod, show UInt8.toNat 8 = 8 from rfl]; omega
  refine ⟨_, _, _, _, _, ?_, ?_, ?_, ?_, ?_, rfl, rfl, rfl, rfl, rfl⟩
  · exact (show ∀ n < 24, facilityMessages.getD n "" ≠ "" by decide) _ hf
  · exact (show ∀ n < 24, (match facilityKeywords[n]? with | some k => k | none => facilityMessages.getD n "") ≠ "" by decide) _ hf
  · exact (show ∀ n < 8, severityMessages.getD n "" ≠ "" by decide) _ hs
  · exact (show ∀ n < 8, severityLevels.getD n "" ≠ "" by decide) _ hs
  · exact (show ∀ n < 8, severityLevelsShort.getD n "" ≠ "" by decide) _ hs

theorem facility_table : ∀ n < 24, ∃ l t, FacilityLabel n l ∧ FacilityText l t ∧
    facilityKeywords[n]? = some (if n = 13 then "security" else l) ∧ facilityMessages.getD n "" = t := by
  intro n hn
  have hl : ∀ k, k ≤ 7 → ∃ l t, FacilityLabel (16 + k) l ∧ FacilityText l t ∧
      facilityKeywords[16 + k]? = some (if 16 + k = 13 then "security" else l) ∧ facilityMessages.getD (16 + k) "" = t := by
    intro k hk
    refine ⟨_, _, .local k hk, .local k hk, ?_, ?_⟩
    · exact (show ∀ k < 8, facilityKeywords[16 + k]? = some (if 16 + k = 13 then "security" else "local" ++ toString k) by decide) k (by omega)
    · exact (show ∀ k < 8, facilityMessages.getD (16 + k) "" = "local use " ++ toString k ++ " (local" ++ toString k ++ ")" by decide) k (by omega)
  match n, hn with
  | 0, _ => exact ⟨_, _, .kern, .kern, by decide, by decide⟩
  | 1, _ => exact ⟨_, _, .user, .user, by decide, by decide⟩
  | 2, _ => exact ⟨_, _, .mail, .mail, by decide, by decide⟩
  | 3, _ => exact ⟨_, _, .daemon, .daemon, by decide, by decide⟩
  | 4, _ => exact ⟨_, _, .auth, .auth, by decide, by decide⟩
  | 5, _ => exact ⟨_, _, .syslog, .syslog, by decide, by decide⟩
  | 6, _ => exact ⟨_, _, .lpr, .lpr, by decide, by decide⟩
  | 7, _ => exact ⟨_, _, .news, .news, by decide, by decide⟩
  | 8, _ => exact ⟨_, _, .uucp, .uucp, by decide, by decide⟩
  | 9, _ => exact ⟨_, _, .cron, .cron, by decide, by decide⟩
  | 10, _ => exact ⟨_, _, .authpriv, .authpriv, by decide, by decide⟩
  | 11, _ => exact ⟨_, _, .ftp, .ftp, by decide, by decide⟩
  | 12, _ => exact ⟨_, _, .ntp, .ntp, by decide, by decide⟩
  | 13, _ => exact ⟨_, _, .audit, .audit, by decide, by decide⟩
  | 14, _ => exact ⟨_, _, .console, .console, by decide, by decide⟩
  | 15, _ => exact ⟨_, _, .cron2, .cron2, by decide, by decide⟩
  | k + 16, hk => exact Nat.add_comm 16 k ▸ hl k (by omega)

theorem severity_table : ∀ n < 8, ∃ l lv t, SeverityLabel n l ∧ SeverityText l lv t ∧
    severityLevelsShort.getD n "" = l ∧ severityLevels.getD n "" = lv ∧ severityMessages.getD n "" = t := by
  intro n hn
  match n, hn with
  | 0, _ => exact ⟨_, _, _, .emerg, .emerg, by decide, by decide, by decide⟩
  | 1, _ => exact ⟨_, _, _, .alert, .alert, by decide, by decide, by decide⟩
  | 2, _ => exact ⟨_, _, _, .crit, .crit, by decide, by decide, by decide⟩
  | 3, _ => exact ⟨_, _, _, .err, .err, by decide, by decide, by decide⟩
  | 4, _ => exact ⟨_, _, _, .warning, .warning, by decide, by decide, by decide⟩
  | 5, _ => exact ⟨_, _, _, .notice, .notice, by decide, by decide, by decide⟩
  | 6, _ => exact ⟨_, _, _, .info, .info, by decide, by decide, by decide⟩
  | 7, _ => exact ⟨_, _, _, .debug, .debug, by decide, by decide, by decide⟩

/-- C17: the texts are those of RFC 5427 and RFC 5424 for the facility `v / 8` and the severity `v % 8` - except that the label of
facility 13, `audit` in RFC 5427, is `security` here. -/
theorem C17_names (m : Base) (v : UInt8) (h : v.toNat ≤ 191) :
    (∃ l t, FacilityLabel (v.toNat / 8) l ∧ FacilityText l t ∧
      (m.computeFromPriority v).facilityLevel = some (if v.toNat / 8 = 13 then "security" else l) ∧
      (m.computeFromPriority v).facilityMessage = some t) ∧
    ∃ l lv t, SeverityLabel (v.toNat % 8) l ∧ SeverityText l lv t ∧ (m.computeFromPriority v).severityShortLevel = some l ∧
      (m.computeFromPriority v).severityLevel = some lv ∧ (m.computeFromPriority v).severityMessage = some t := by
  have hf : (v / 8).toNat = v.toNat / 8 := by rw [UInt8.toNat_div, show UInt8.toNat 8 = 8 from rfl]
  have hs : (v % 8).toNat = v.toNat % 8 := by rw [UInt8.toNat_mod, show UInt8.toNat 8 = 8 from rfl]
  constructor
  · obtain ⟨l, t, h1, h2, h3, h4⟩ := facility_table (v.toNat / 8) (by omega)
    refine ⟨l, t, h1, h2, ?_, ?_⟩
    · simp only [Base.facilityLevel, Base.computeFromPriority, Option.map_some, hf, h3]
    · simp only [Base.facilityMessage, Base.computeFromPriority, Option.map_some, hf, h4]
  · obtain ⟨l, lv, t, h1, h2, h3, h4, h5⟩ := severity_table (v.toNat % 8) (by omega)
    refine ⟨l, lv, t, h1, h2, ?_, ?_, ?_⟩
    · simp only [Base.severityShortLevel, Base.computeFromPriority, Option.map_some, hs, h3]
    · simp only [Base.severityLevel, Base.computeFromPriority, Option.map_some, hs, h4]
    · simp only [Base.severityMessage, Base.computeFromPriority, Option.map_some, hs, h5]

/-- C17: facility and severity keywords identify the priority. -/
theorem C17_names_identify (m m' : Base) (v w : UInt8) (hv : v.toNat ≤ 191) (hw : w.toNat ≤ 191)
    (h1 : (m.computeFromPriority v).facilityLevel = (m'.computeFromPriority w).facilityLevel)
    (h2 : (m.computeFromPriority v).severityShortLevel = (m'.computeFromPriority w).severityShortLevel) : v = w := by
  have ef : ∀ a < 24, ∀ b < 24, facilityKeywords[a]? = facilityKeywords[b]? → a = b := by decide
  have es : ∀ a < 8, ∀ b < 8, severityLevelsShort.getD a "" = severityLevelsShort.getD b "" → a = b := by decide
  have hf : ∀ x : UInt8, (x / 8).toNat = x.toNat / 8 := fun x => by rw [UInt8.toNat_div, show UInt8.toNat 8 = 8 from rfl]
  have hs : ∀ x : UInt8, (x % 8).toNat = x.toNat % 8 := fun x => by rw [UInt8.toNat_mod, show UInt8.toNat 8 = 8 from rfl]
  obtain ⟨l, t, -, -, g3, -⟩ := facility_table (v.toNat / 8) (by omega)
  obtain ⟨l', t', -, -, g3', -⟩ := facility_table (w.toNat / 8) (by omega)
  simp only [Base.facilityLevel, Base.computeFromPriority, Option.map_some, hf, g3, g3'] at h1
  simp only [Base.severityShortLevel, Base.computeFromPriority, Option.map_some, hs, Option.some.injEq] at h2
  have e1 := ef (v.toNat / 8) (by omega) (w.toNat / 8) (by omega) (by rw [g3, g3']; exact h1)
  have e2 := es (v.toNat % 8) (by omega) (w.toNat % 8) (by omega) h2
  apply UInt8.toNat_inj.mp
  omega

example : FacilityLabel 20 "local4" := .local 4 (by decide)

example : (({} : Base).computeFromPriority 191).valid = true ∧ (({} : Base).computeFromPriority 192).valid = false ∧
    (({} : Base).computeFromPriority 165).facilityMessage = some "local use 4 (local4)" ∧
    (({} : Base).computeFromPriority 165).severityLevel = some "notice" := by decide

/-! ## C18 -/

/-- C18: the value of a string of decimal digits (Horner), modulo the wrap-around of Go's 64 bit `int`. -/
theorem C18_decimal_value (ds : List Nat) (h : ∀ d ∈ ds, d < 10) :
    Common.unsafeDec (ds.map digit) = BitVec.ofNat 64 (ds.foldl (fun a d => a * 10 + d) 0) := by
  have hd : IsDigits (ds.map digit) := by
    intro c hc
    obtain ⟨d, hd, rfl⟩ := List.mem_map.mp hc
    rw [Ts.digit_toNat (Nat.le_of_lt_succ (h d hd))]; have := h d hd; omega
  have key : ∀ (ds : List Nat), (∀ d ∈ ds, d < 10) → ∀ a : Nat,
      (ds.map digit).foldl (fun a c => a * 10 + (c.toNat - 48)) a = ds.foldl (fun a d => a * 10 + d) a := by
    intro ds
    induction ds with
    | nil => intro _ a; rfl
    | cons d ds ih =>
      intro h a
      rw [List.map_cons, List.foldl_cons, List.foldl_cons, ih (fun x hx => h x (by simp [hx])),
        Ts.digit_toNat (Nat.le_of_lt_succ (h d (by simp))), Nat.add_sub_cancel_left]
  rw [unsafeDec_eq _ hd, numVal, key ds h]

/-- C18: inverse to decimal printing for every non-negative `int`. -/
theorem C18_inverse_of_printing (n : Nat) (h : n < 2 ^ 63) : (Common.unsafeDec (dec n)).toInt = n := by
  rw [unsafeDec_eq _ (dec_digits n), numVal_dec]
  rw [BitVec.toInt_eq_toNat_of_lt] <;> rw [BitVec.toNat_ofNat] <;> omega

example : Common.unsafeDec (ascii "9223372036854775807") = BitVec.ofNat 64 (2 ^ 63 - 1) := by decide +kernel
example : dec 9223372036854775807 = ascii "9223372036854775807" := by decide +kernel

/-! ## C19 -/

theorem removeLoop_spec (offset : Nat) : ∀ (ps : List Nat) (A B : Bytes) (k i : Nat), A.length + i = k →
    ps.Pairwise (· < ·) → (∀ p ∈ ps, k + offset ≤ p ∧ p < k + offset + B.length) →
    Common.removeBytesLoop (ps.map Int.ofNat) i offset (A ++ B) =
      some (A ++ ((B.zipIdx k).filter fun x => x.2 + offset ∉ ps).map Prod.fst) := by
  intro ps
  induction ps with
  | nil =>
    intro A B k i _ _ _
    simp only [Common.removeBytesLoop, List.map_nil, List.not_mem_nil, not_false_eq_true, decide_true]
    rw [List.filter_eq_self.mpr (by simp), List.zipIdx_map_fst]
  | cons p ps ih =>
    intro A B k i hk hs hp
    rw [List.pairwise_cons] at hs
    have hpp := hp p (by simp)
    obtain ⟨j, hj⟩ : ∃ j, p = k + offset + j := ⟨p - (k + offset), by omega⟩
    have hjB : j < B.length := by omega
    have hat : (Int.ofNat p - (i : Int) - (offset : Int)) = ((A.length + j : Nat) : Int) := by
      simp only [Int.ofNat_eq_natCast]; omega
    simp only [List.map_cons, Common.removeBytesLoop, hat]
    rw [if_pos (by simp only [List.length_append]; omega)]
    simp only [Int.toNat_natCast]
    have e1 : (A ++ B).take (A.length + j) = A ++ B.take j := by
      rw [List.take_append, List.take_of_length_le (by omega)]; congr 2; omega
    have e2 : (A ++ B).drop (A.length + j + 1) = B.drop (j + 1) := by
      rw [List.drop_append, List.drop_of_length_le (by omega), List.nil_append]; congr 1; omega
    rw [e1, e2, show ((i : Int) + 1) = ((i + 1 : Nat) : Int) by omega,
      ih (A ++ B.take j) (B.drop (j + 1)) (k + j + 1) (i + 1)
        (by simp only [List.length_append, List.length_take]; omega) hs.2
        (by
          intro q hq
          have := hs.1 q hq
          have := hp q (by simp [hq])
          simp only [List.length_drop]; omega)]
    congr 1
    rw [List.append_assoc]
    congr 1
    have eB : B = B.take j ++ (B[j] :: B.drop (j + 1)) := by
      rw [List.getElem_cons_drop hjB, List.take_append_drop]
    conv => rhs; rw [eB]
    rw [List.zipIdx_append, List.filter_append, List.map_append, List.zipIdx_cons]
    have hl : (B.take j).length = j := by simp; omega
    rw [hl]
    congr 1
    · rw [List.filter_eq_self.mpr, List.zipIdx_map_fst]
      intro x hx
      have hx2 := List.snd_lt_add_of_mem_zipIdx hx
      have hx1 := List.le_snd_of_mem_zipIdx hx
      simp only [decide_eq_true_eq, List.mem_cons, not_or]
      refine ⟨by omega, fun hm => ?_⟩
      have := hs.1 _ hm
      omega
    · rw [List.filter_cons]
      simp only [List.mem_cons, not_or]
      rw [if_neg (by simp; omega)]
      congr 1
      apply List.filter_congr
      intro x hx
      have hx1 := List.le_snd_of_mem_zipIdx hx
      have : ¬ x.2 + offset = p := by omega
      simp [this]

/-- C19: for strictly increasing positions inside the slice (whose first byte has position `offset`), `RemoveBytes`
does not panic and returns the bytes at all other positions, in order. -/
theorem C19_remove_exactly (data : Bytes) (positions : List Nat) (offset : Nat) (hs : positions.Pairwise (· < ·))
    (hp : ∀ p ∈ positions, offset ≤ p ∧ p < offset + data.length) :
    Common.removeBytes data (positions.map Int.ofNat) offset =
      some ((data.zipIdx.filter fun x => x.2 + offset ∉ positions).map Prod.fst) := by
  have := removeLoop_spec offset positions [] data 0 0 (by simp) hs (by simpa using hp)
  simpa [Common.removeBytes] using this

example : Common.removeBytes (ascii "abcdef") [11, 12, 15] 10 = some (ascii "ade") := by decide +kernel
/-- positions outside the slice do panic -/
example : Common.removeBytes (ascii "abc") [3] 0 = none := by decide +kernel

/-! ## C20 -/

theorem escapeBytes_ascii (v : Bytes) (h : ∀ b ∈ v, b.toNat < 128) : Common.escapeBytes v = escape v := by
  unfold Common.escapeBytes
  induction v with
  | nil => rfl
  | cons b v ih =>
    have hb := h b (by simp)
    have h2 : ∀ b1, Common.runeWidth.runeWidth2 b b1 = 1 := by
      intro b1; rw [Common.runeWidth.runeWidth2, if_neg (by omega)]
    have h3 : ∀ b1 b2, Common.runeWidth.runeWidth3 b b1 b2 = 1 := by
      intro b1 b2; rw [Common.runeWidth.runeWidth3, h2, if_neg (by simp), if_neg (by omega)]
    have hw : Common.runeWidth (b :: v) = 1 := by
      match v with
      | [] => rfl
      | [b1] => simp [Common.runeWidth, h2]
      | [b1, b2] => simp [Common.runeWidth, h3]
      | b1 :: b2 :: b3 :: r => rw [Common.runeWidth, h3, if_neg (by simp), if_neg (by omega)]
    have e : ∀ n : Nat, n < 256 → (b.toNat = n ↔ b = UInt8.ofNat n) := by
      intro n hn
      rw [← UInt8.toNat_inj, UInt8.toNat_ofNat', Nat.mod_eq_of_lt hn]
    have hsp : (b.toNat = 92 ∨ b.toNat = 93 ∨ b.toNat = 34) ↔ (b = 34 ∨ b = 92 ∨ b = 93) := by
      rw [e 92 (by omega), e 93 (by omega), e 34 (by omega)]
      exact ⟨fun h => by rcases h with h | h | h <;> simp [h], fun h => by rcases h with h | h | h <;> simp [h]⟩
    rw [Common.escapeBytesLoop, hw, ih (fun x hx => h x (by simp [hx])), Common.stringOfByte, if_pos hb, escape]
    simp only [hsp]
    split <;> rfl

/-- C20: for US-ASCII values, unescaping the output of `EscapeBytes` gives the value back; no special byte stands alone
in it (that is part of `Unescaped`). -/
theorem C20_escape_safe_and_reversible (v : Bytes) (h : ∀ b ∈ v, b.toNat < 128) : Unescaped (Common.escapeBytes v) v :=
  (unescaped_iff _ _).mpr (escapeBytes_ascii v h)

/-- C20: different US-ASCII values have different escaped texts, and the escaped text determines the value. -/
theorem C20_unescaping_is_a_function {raw v w : Bytes} (h1 : Unescaped raw v) (h2 : Unescaped raw w) : v = w := by
  induction h1 generalizing w with
  | nil => cases h2; rfl
  | pair hb _ ih =>
    cases h2 with
    | pair _ h => rw [ih h]
    | plain hb' _ => exact absurd (Or.inr (Or.inl rfl)) hb'
  | plain hb _ ih =>
    cases h2 with
    | pair _ h => exact absurd (Or.inr (Or.inl rfl)) hb
    | plain _ h => rw [ih h]

example : Common.escapeBytes (ascii "a\"b\\c]d") = ascii "a\\\"b\\\\c\\]d" := by decide +kernel
/-- the hypothesis is needed: `é` comes back as something else -/
example : Common.escapeBytes [0xC3, 0xA9] = [0xC3, 0x83] := by decide +kernel

end Verif.Props
