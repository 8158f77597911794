import Verif.Spec.SameMessage
import Verif.Props.Truncated
import Verif.Props.Rebuild

/-!
# C95: texts that say the same
-/

namespace Verif.Props
open Verif.Spec Verif.Rfc5424

/-! ## timestamps -/

/-- the number written by some digits -/
def digVal (ds : List Nat) : Nat := ds.foldl (fun a d => a * 10 + d) 0

theorem digVal_snoc (ds : List Nat) (d : Nat) : digVal (ds ++ [d]) = digVal ds * 10 + d := by simp [digVal]

theorem digVal_zeros (ds : List Nat) (k : Nat) : digVal (ds ++ List.replicate k 0) = digVal ds * 10 ^ k := by
  induction k with
  | zero => simp
  | succ k ih =>
    rw [List.replicate_succ', ← List.append_assoc, digVal_snoc, ih, Nat.pow_succ, Nat.add_zero, Nat.mul_assoc]

theorem fracNanos_pad {ds : List Nat} (h : ds.length ≤ 6) : fracNanos ds = digVal (padFrac ds) * 1000 := by
  rw [padFrac, digVal_zeros, fracNanos, show 9 - ds.length = (6 - ds.length) + 3 by omega, Nat.pow_add]
  change digVal ds * _ = _
  rw [Nat.mul_assoc]

theorem digVal_inj {as bs : List Nat} (hl : as.length = bs.length) (ha : ∀ d ∈ as, d ≤ 9) (hb : ∀ d ∈ bs, d ≤ 9) (h : digVal as = digVal bs) :
    as = bs := by
  generalize hn : as.length = n at hl
  induction n generalizing as bs with
  | zero => rw [List.length_eq_zero_iff.mp hn, List.length_eq_zero_iff.mp hl.symm]
  | succ n ih =>
    rcases List.eq_nil_or_concat as with rfl | ⟨as', a, rfl⟩
    · simp at hn
    rcases List.eq_nil_or_concat bs with rfl | ⟨bs', b, rfl⟩
    · simp at hl
    rw [List.concat_eq_append] at *
    rw [List.concat_eq_append] at *
    rw [digVal_snoc, digVal_snoc] at h
    have h1 := ha a (by simp)
    have h2 := hb b (by simp)
    have e : a = b := by omega
    rw [ih (as := as') (bs := bs') (fun d hd => ha d (by simp [hd])) (fun d hd => hb d (by simp [hd])) (by omega)
      (by simpa using hn) (by simp at hl; omega), e]

theorem padFrac_length {ds : List Nat} (h : ds.length ≤ 6) : (padFrac ds).length = 6 := by simp [padFrac]; omega

theorem padFrac_digits {ds : List Nat} (h : ∀ d ∈ ds, d ≤ 9) : ∀ d ∈ padFrac ds, d ≤ 9 := by
  intro d hd
  simp only [padFrac, List.mem_append, List.mem_replicate] at hd
  rcases hd with hd | hd
  · exact h d hd
  · omega

theorem zone_seconds {z w : Zone} (hz : z.WF) (hw : w.WF) : z.seconds = w.seconds ↔ z = w ∨ z.seconds = 0 ∧ w.seconds = 0 := by
  constructor
  · intro h
    cases z with
    | utc => exact Or.inr ⟨rfl, by rw [← h]; rfl⟩
    | num a b c =>
      cases w with
      | utc => exact Or.inr ⟨by rw [h]; rfl, rfl⟩
      | num a' b' c' =>
        obtain ⟨h1, h2⟩ := hz
        obtain ⟨h3, h4⟩ := hw
        simp only [Zone.seconds] at h ⊢
        by_cases h0 : b = 0 ∧ c = 0
        · refine Or.inr ⟨by simp [h0.1, h0.2], ?_⟩
          rw [← h]; simp [h0.1, h0.2]
        · refine Or.inl ?_
          cases a <;> cases a' <;> simp only [if_true, if_false, Bool.false_eq_true] at h <;> simp only [Zone.num.injEq, true_and, Bool.false_eq_true, Bool.true_eq_false, false_and] <;> omega
  · rintro (rfl | ⟨h1, h2⟩)
    · rfl
    · rw [h1, h2]

/-- two timestamps denote the same time and zone exactly if they are the same up to spelling -/
theorem stamp_time {s t : Stamp} (hs : s.WF) (ht : t.WF) : s.time = t.time ↔ SameStamp s t := by
  obtain ⟨-, -, -, -, -, -, -, -, s1, s2, s3⟩ := hs
  obtain ⟨-, -, -, -, -, -, -, -, t1, t2, t3⟩ := ht
  have hf : fracNanos s.frac = fracNanos t.frac ↔ padFrac s.frac = padFrac t.frac := by
    rw [fracNanos_pad s1, fracNanos_pad t1]
    constructor
    · intro h
      exact digVal_inj (by rw [padFrac_length s1, padFrac_length t1]) (padFrac_digits s2) (padFrac_digits t2) (by omega)
    · intro h; rw [h]
  simp only [Stamp.time, GoTime.Time.mk.injEq, SameStamp, hf, zone_seconds s3 t3]
  simp only [Int.natCast_inj]

/-! ## structured data -/

theorem find_foldl_params (name : Bytes) (ps : List Param) (m : SMap Bytes) :
    SMap.find name (ps.foldl (fun m p => m.insert p.name p.value) m) = (lastValue name ps).or (m.find name) := by
  induction ps generalizing m with
  | nil => simp [lastValue]
  | cons q ps ih =>
    rw [List.foldl_cons, ih, SMap.find_insert]
    simp only [lastValue, List.reverse_cons, List.find?_append]
    cases hf : List.find? (fun p => decide (p.name = name)) ps.reverse with
    | some r => simp
    | none =>
      by_cases hn : name = q.name
      · subst hn; simp [List.find?]
      · have : ¬ q.name = name := fun h => hn h.symm
        simp [hn, this, List.find?]

theorem paramMap_find (name : Bytes) (ps : List Param) : (paramMap ps).find name = lastValue name ps := by
  rw [paramMap, find_foldl_params]; simp [SMap.find]

theorem paramMap_sorted' (ps : List Param) : SMap.Sorted (paramMap ps) := by
  have : ∀ (ps : List Param) (m : SMap Bytes), SMap.Sorted m → SMap.Sorted (ps.foldl (fun m p => m.insert p.name p.value) m) := by
    intro ps
    induction ps with
    | nil => intro m h; exact h
    | cons q ps ih => intro m h; exact ih _ (SMap.sorted_insert h)
  exact this ps [] SMap.sorted_nil

theorem elemMap_sorted' (es : List Elem) : SMap.Sorted (elemMap es) := by
  have : ∀ (ps : List Elem) (m : SD), SMap.Sorted m → SMap.Sorted (ps.foldl (fun m e => m.insert e.id (paramMap e.params)) m) := by
    intro ps
    induction ps with
    | nil => intro m h; exact h
    | cons q ps ih => intro m h; exact ih _ (SMap.sorted_insert h)
  exact this es [] SMap.sorted_nil

theorem paramMap_eq {ps qs : List Param} : paramMap ps = paramMap qs ↔ ∀ name, lastValue name ps = lastValue name qs := by
  constructor
  · intro h name; rw [← paramMap_find, ← paramMap_find, h]
  · intro h
    refine SMap.ext (paramMap_sorted' ps) (paramMap_sorted' qs) (fun k => ?_)
    rw [paramMap_find, paramMap_find, h]

theorem find_elemMap_of_mem {es : List Elem} (hn : (es.map Elem.id).Nodup) {e : Elem} (he : e ∈ es) :
    (elemMap es).find e.id = some (paramMap e.params) := by
  exact find_elems_of hn [] he

theorem find_elemMap_none {es : List Elem} {id : Bytes} (h : ∀ e ∈ es, e.id ≠ id) : (elemMap es).find id = none := by
  cases hf : (elemMap es).find id with
  | none => rfl
  | some ps =>
    rcases find_elems_mem es [] hf with ⟨e, he, hi, -⟩ | h'
    · exact absurd hi (h e he)
    · simp [SMap.find] at h'

theorem elemMap_eq {es fs : List Elem} (h1 : (es.map Elem.id).Nodup) (h2 : (fs.map Elem.id).Nodup) :
    elemMap es = elemMap fs ↔ SdWithin es fs ∧ SdWithin fs es := by
  have half : ∀ {es fs : List Elem}, (es.map Elem.id).Nodup → (fs.map Elem.id).Nodup → elemMap es = elemMap fs → SdWithin es fs := by
    intro es fs h1 h2 h e he
    have a := find_elemMap_of_mem h1 he
    rw [h] at a
    rcases find_elems_mem fs [] a with ⟨f, hf, hi, hp⟩ | h'
    · exact ⟨f, hf, hi, paramMap_eq.mp hp⟩
    · simp [SMap.find] at h'
  constructor
  · intro h; exact ⟨half h1 h2 h, half h2 h1 h.symm⟩
  · rintro ⟨a, b⟩
    refine SMap.ext (elemMap_sorted' es) (elemMap_sorted' fs) (fun id => ?_)
    by_cases hid : ∃ e ∈ es, e.id = id
    · obtain ⟨e, he, rfl⟩ := hid
      obtain ⟨f, hf, hi, hp⟩ := a e he
      rw [find_elemMap_of_mem h1 he, ← hi, find_elemMap_of_mem h2 hf, paramMap_eq.mpr hp]
    · have n1 : ∀ e ∈ es, e.id ≠ id := fun e he hi => hid ⟨e, he, hi⟩
      have n2 : ∀ f ∈ fs, f.id ≠ id := by
        intro f hf hi
        obtain ⟨e, he, hi', -⟩ := b f hf
        exact hid ⟨e, he, hi'.trans hi⟩
      rw [find_elemMap_none n1, find_elemMap_none n2]

theorem uint8_ofNat_inj {a b : Nat} (ha : a ≤ 191) (hb : b ≤ 191) (h : UInt8.ofNat a = UInt8.ofNat b) : a = b := by
  have := congrArg UInt8.toNat h
  simp only [UInt8.toNat_ofNat'] at this
  omega

theorem uint16_ofNat_inj {a b : Nat} (ha : a ≤ 999) (hb : b ≤ 999) (h : UInt16.ofNat a = UInt16.ofNat b) : a = b := by
  have := congrArg UInt16.toNat h
  simp only [UInt16.toNat_ofNat'] at this
  omega

theorem toMessage_eq {p q : Parts} (hp : p.WF) (hq : q.WF) : p.toMessage = q.toMessage ↔ SaySame p q := by
  have hsd : ((if p.sd = [] then none else some (elemMap p.sd)) = if q.sd = [] then none else some (elemMap q.sd)) ↔
      SdWithin p.sd q.sd ∧ SdWithin q.sd p.sd := by
    rw [← elemMap_eq hp.ids hq.ids]
    have ne : ∀ {es : List Elem}, es ≠ [] → (es.map Elem.id).Nodup → elemMap es ≠ [] := by
      intro es h hn h0
      cases es with
      | nil => exact h rfl
      | cons e es =>
        have := find_elemMap_of_mem hn (List.mem_cons_self (a := e) (l := es))
        rw [h0] at this
        simp [SMap.find] at this
    by_cases a : p.sd = [] <;> by_cases b : q.sd = []
    · simp [a, b]
    · have := ne b hq.ids
      simp only [a, if_true, if_neg b, reduceCtorEq, false_iff]
      intro h; exact this h.symm
    · have := ne a hp.ids
      simp only [b, if_true, if_neg a, reduceCtorEq, false_iff]
      exact this
    · simp [a, b]
  have hmsg : ((if p.msg = some [] then none else p.msg) = if q.msg = some [] then none else q.msg) ↔ p.msg.getD [] = q.msg.getD [] := by
    cases h1 : p.msg with
    | none =>
      cases h2 : q.msg with
      | none => simp
      | some w => cases w <;> simp
    | some v =>
      cases h2 : q.msg with
      | none => cases v <;> simp
      | some w => cases v <;> cases w <;> simp
  have hts : p.timestamp.map Stamp.time = q.timestamp.map Stamp.time ↔
      (p.timestamp = none ∧ q.timestamp = none) ∨ ∃ s t, p.timestamp = some s ∧ q.timestamp = some t ∧ SameStamp s t := by
    cases h1 : p.timestamp with
    | none => cases h2 : q.timestamp <;> simp
    | some s =>
      cases h2 : q.timestamp with
      | none => simp
      | some t =>
        have := stamp_time (hp.timestamp s h1).1 (hq.timestamp t h2).1
        simp [this]
  constructor
  · intro h
    have e1 := uint8_ofNat_inj hp.pri hq.pri (Option.some.inj (congrArg (·.priority) h))
    have e2 := uint16_ofNat_inj hp.version.2 hq.version.2 (congrArg (·.version) h)
    have e3 := hsd.mp (congrArg (·.structuredData) h)
    exact ⟨e1, e2, hts.mp (congrArg (·.timestamp) h), congrArg (·.hostname) h, congrArg (·.appname) h, congrArg (·.procID) h,
      congrArg (·.msgID) h, e3.1, e3.2, hmsg.mp (congrArg (·.message) h)⟩
  · intro h
    have e1 := hts.mpr h.timestamp
    have e2 := hsd.mpr ⟨h.sd, h.sd'⟩
    have e3 := hmsg.mpr h.msg
    rw [Parts.toMessage, Parts.toMessage, h.pri, h.version, e1, h.hostname, h.appname, h.procID, h.msgID, e2, e3]

/-- C95: two accepted texts give the same message exactly if they say the same: they may differ in the order of elements and parameters, in
parameters overridden later in the element, in the spelling of the timestamp, in an empty MSG, and in nothing else. -/
theorem C95_same_message (o : Opts) (p q : Parts) (hp : p.WF) (hq : q.WF)
    (h1 : o.compliantMsg = true → ∀ w, p.msg = some w → MsgCompliant w) (h2 : o.compliantMsg = true → ∀ w, q.msg = some w → MsgCompliant w) :
    ∃ m m', parse1 o p.render = some ⟨some m, none⟩ ∧ parse1 o q.render = some ⟨some m', none⟩ ∧ (m = m' ↔ SaySame p q) := by
  obtain ⟨be, co⟩ := o
  exact ⟨p.toMessage, q.toMessage, (C57_every_outcome be co _ _).mpr (Or.inl ⟨p, hp, rfl, fun w hw hc => h1 hc w hw, rfl⟩),
    (C57_every_outcome be co _ _).mpr (Or.inl ⟨q, hq, rfl, fun w hw hc => h2 hc w hw, rfl⟩), toMessage_eq hp hq⟩

/-- C95: every accepted text is that of exactly one `p` (so that `C95_same_message` speaks about all pairs of accepted texts). -/
theorem C95_all_texts (o : Opts) (a : Bytes) (m : SyslogMessage) (h : parse1 o a = some ⟨some m, none⟩) :
    ∃ p : Parts, p.WF ∧ p.render = a ∧ (o.compliantMsg = true → ∀ w, p.msg = some w → MsgCompliant w) ∧ m = p.toMessage := by
  obtain ⟨be, co⟩ := o
  rcases (C57_every_outcome be co _ _).mp h with ⟨p, hp, hr, hc, hm⟩ | ⟨k, c, m', -, hm⟩
  · exact ⟨p, hp, hr, fun hh w hw => hc w hw hh, by simpa using hm⟩
  · simp at hm

/-- C95: `String` of a returned message is a canonical text: two returned messages (complete or partial) with US-ASCII parameter values have the
same text exactly if they are the same message. -/
theorem C95_canonical (o o' : Opts) (a b : Bytes) (m m' : SyslogMessage) (e e' : Option Err) (ha : parse1 o a = some ⟨some m, e⟩)
    (hb : parse1 o' b = some ⟨some m', e'⟩) (va : AsciiValues m) (vb : AsciiValues m')
    (outer outer' : List Bytes) (inner inner' : Bytes → List Bytes) (ho : IterationOrder m outer inner) (ho' : IterationOrder m' outer' inner') :
    Builder.stringWith outer inner m = Builder.stringWith outer' inner' m' ↔ m = m' := by
  constructor
  · intro h
    obtain ⟨t, n, h1, h2, -, h3⟩ := C66_returned_string_parses o a m e ha outer inner ho false
    obtain ⟨t', n', h1', h2', -, h3'⟩ := C66_returned_string_parses o' b m' e' hb outer' inner' ho' false
    rw [h1, h1'] at h
    cases h
    rw [h2] at h2'
    cases h2'
    rw [← h3 va, ← h3' vb]
  · rintro rfl
    exact C25_order_irrelevant m ho ho'

/-! ## The sample message, and another text for the same -/

/-- `.00300` for `.003`, the elements in the other order, without the parameter that is overridden -/
def sample' : Parts :=
  { sample with
    timestamp := some ⟨2003, 2, 28, 22, 14, 15, [0, 0, 3, 0, 0], .num true 7 0⟩
    sd := [⟨ascii "b", []⟩, ⟨ascii "a@1", [⟨ascii "x", ascii "b\\"⟩]⟩] }

theorem sample'_wf : sample'.WF := by
  have h := sample_wf
  refine ⟨h.pri, h.version, ?_, h.hostname, h.appname, h.procID, h.msgID, ?_, by decide +kernel⟩
  · intro s hs
    simp only [sample', Option.some.injEq] at hs
    subst hs
    refine ⟨?_, by decide +kernel⟩
    simp only [Stamp.WF, Zone.WF]
    decide
  · intro e he
    simp only [sample', List.mem_cons, List.not_mem_nil, or_false] at he
    rcases he with rfl | rfl
    · exact ⟨by decide +kernel, by simp⟩
    · refine ⟨by decide +kernel, ?_⟩
      intro p hp
      simp only [List.mem_cons, List.not_mem_nil, or_false] at hp
      subst hp
      exact ⟨by decide +kernel, (U8.acc_iff _).mp (show U8.firstBad _ _ = none by decide +kernel)⟩

example : sample.render ≠ sample'.render ∧ SaySame sample sample' := ⟨by decide +kernel, (toMessage_eq sample_wf sample'_wf).mp (by decide +kernel)⟩

/-- an element less is another message -/
example : ¬ SdWithin sample.sd [⟨ascii "b", []⟩] := by
  intro h
  obtain ⟨f, hf, hi, -⟩ := h ⟨ascii "a@1", [⟨ascii "x", ascii "q\"uote"⟩, ⟨ascii "x", ascii "b\\"⟩]⟩ (by decide +kernel)
  simp only [List.mem_singleton] at hf
  subst hf
  revert hi
  decide +kernel

/-- `Z` and `-00:00` are the same, `+01:00` is not, although the instant may be -/
example : SameStamp ⟨2003, 2, 28, 22, 14, 15, [], .utc⟩ ⟨2003, 2, 28, 22, 14, 15, [0], .num true 0 0⟩ ∧
    ¬ SameStamp ⟨2003, 2, 28, 22, 14, 15, [], .utc⟩ ⟨2003, 2, 28, 23, 14, 15, [], .num false 1 0⟩ := by
  constructor
  · refine ⟨rfl, rfl, rfl, rfl, rfl, rfl, by decide, Or.inr ⟨rfl, by decide⟩⟩
  · rintro ⟨-, -, -, h, -⟩; simp at h

end Verif.Props
