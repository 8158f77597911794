import Verif.Mini.Base

/-!
# `minimal` and `export` of the two internal messages, run symbolically
-/

set_option linter.constructorNameAsVariable false
set_option linter.unusedSimpArgs false

namespace Verif.Mini
open Verif.Gen.Mini

variable {E : Type} {X : Env0 E}

theorem upd_self (h : Nat → Val) (a : Nat) : upd h a (h a) = h := by funext b; unfold upd; split <;> simp_all

/-- `if cond { out.F = &sm.f }` -/
theorem store_if {calls : Nm → List Val → M E Val} {l : Loc} {w : W E} {a s : Nat} {ty : Nm} {fs : List (Nm × Val)} (F f : Nm) (cond : Expr) (c : Bool) {u : Val}
    (hl1 : l .out = .ptr a []) (hl2 : l .sm = .ptr s []) (ha : w.heap a = .struct ty fs) (hF : fs.lookup F = some u)
    (hc : eval X calls l cond w = some (.ok (.bool c) w)) :
    ∃ fs', exec X calls (.ifs cond (.store (.addr (.var .out) F) (.addr (.var .sm) f)) .skip) l w =
        some (.ok (.next, l) { w with heap := upd w.heap a (.struct ty fs') }) ∧
      ∀ g, fs'.lookup g = if g = F then some (if c then .ptr s [f] else u) else fs.lookup g := by
  cases c with
  | false =>
    refine ⟨fs, ?_, fun g => ?_⟩
    · have : upd w.heap a (.struct ty fs) = w.heap := by rw [← ha, upd_self]
      rw [this]
      simp [hc]
    · split
      · rename_i h; subst h; simpa using hF
      · rfl
  | true =>
    refine ⟨setField fs F (.ptr s [f]), ?_, fun g => ?_⟩
    · simp [hc, hl1, hl2, store_field ha hF]
    · rw [lookup_setField]
      split
      · rename_i h; subst h; rw [hF]; simp
      · rfl

/-- `sm.f != "-" && sm.f != ""` -/
theorem cond_opt {calls : Nm → List Val → M E Val} {l : Loc} {w : W E} {s : Nat} {ty : Nm} {fs : List (Nm × Val)} {f : Nm} {b : Bytes}
    (hl : l .sm = .ptr s []) (hs : w.heap s = .struct ty fs) (hf : fs.lookup f = some (.str b)) :
    eval X calls l (.and (.bin .ne (.field (.var .sm) f) (.lit (.str (ascii "-")))) (.bin .ne (.field (.var .sm) f) (.lit (.str [])))) w =
      some (.ok (.bool (decide (b ≠ [45] ∧ b ≠ []))) w) := by
  have h45 : ascii "-" = [45] := by decide
  rw [h45]
  by_cases h1 : b = [45]
  · subst h1
    simp [hl, hs, hf]
  · have : (b == [45]) = false := by simpa using h1
    by_cases h2 : b = []
    · subst h2; simp [hl, hs, hf]
    · have h2' : (b == []) = false := by simpa using h2
      simp only [eval_and, bind_apply, eval_bin, eval_field, eval_var, eval_lit, hl, load_ptr, hs, get_struct, hf, of_some, pure_apply, on_ne, eq_str, this, h2', Option.map_some,
        Bool.not_false, truth_bool, if_true]
      simp [h1, h2]

theorem points_opt {w : W E} {own s : Nat} {f : Nm} {ty : Nm} {fs : List (Nm × Val)} {b : Bytes} (hs : w.heap s = .struct ty fs) (hf : fs.lookup f = some (.str b))
    (hn : s < w.next) (ho : s ≠ own) : Points w own (if decide (b ≠ [45] ∧ b ≠ []) then .ptr s [f] else .nil) .str (Rfc5424.optField b) := by
  unfold Rfc5424.optField
  by_cases h : b ≠ [45] ∧ b ≠ []
  · rw [if_pos h, if_pos (by simpa using h)]
    exact ⟨s, [f], rfl, hn, ho, by simp [hs, Val.getPath, hf]⟩
  · rw [if_neg h, if_neg (by simpa using h)]
    rfl

theorem seq_next {calls : Nm → List Val → M E Val} {a b : Stmt} {l l' : Loc} {w w' : W E} (h : exec X calls a l w = some (.ok (.next, l') w')) :
    exec X calls (.seq a b) l w = exec X calls b l' w' := by simp [h]

theorem FieldAt.congr {α : Type} {w : W E} {own : Nat} {fs fs' : List (Nm × Val)} {f : Nm} {enc : α → Val} {x : Option α}
    (h : FieldAt w own fs f enc x) (e : fs'.lookup f = fs.lookup f) : FieldAt w own fs' f enc x := by
  obtain ⟨v, h1, h2⟩ := h
  exact ⟨v, e.trans h1, h2⟩

theorem FieldAt.nil {α : Type} {w : W E} {own : Nat} {fs : List (Nm × Val)} {f : Nm} {enc : α → Val} (h : FieldAt w own fs f enc none) : fs.lookup f = some .nil := by
  obtain ⟨v, h1, h2⟩ := h
  have h2 : v = .nil := h2
  rw [h1, h2]

/-- `if sm.timestampSet { out.Timestamp = &sm.timestamp }` -/
theorem points_time {w : W E} {own s : Nat} {ty : Nm} {fs : List (Nm × Val)} {b : Bool} {t : GoTime.Time} (hs : w.heap s = .struct ty fs) (hf : fs.lookup .timestamp = some (timeVal t))
    (hn : s < w.next) (ho : s ≠ own) : Points w own (if b then .ptr s [.timestamp] else .nil) timeVal (if b then some t else none) := by
  cases b with
  | true => exact ⟨s, [.timestamp], rfl, hn, ho, by simp [hs, Val.getPath, hf]⟩
  | false => rfl

theorem points_msg {w : W E} {own s : Nat} {ty : Nm} {fs : List (Nm × Val)} {b : Bytes} (hs : w.heap s = .struct ty fs) (hf : fs.lookup .message = some (.str b))
    (hn : s < w.next) (ho : s ≠ own) : Points w own (if decide (b ≠ []) then .ptr s [.message] else .nil) .str (if b ≠ [] then some b else none) := by
  by_cases h : b ≠ []
  · rw [if_pos h, if_pos (by simpa using h)]; exact ⟨s, [.message], rfl, hn, ho, by simp [hs, Val.getPath, hf]⟩
  · rw [if_neg h, if_neg (by simpa using h)]; rfl

theorem cond_msg {calls : Nm → List Val → M E Val} {l : Loc} {w : W E} {s : Nat} {ty : Nm} {fs : List (Nm × Val)} {b : Bytes}
    (hl : l .sm = .ptr s []) (hs : w.heap s = .struct ty fs) (hf : fs.lookup .message = some (.str b)) :
    eval X calls l (.bin .ne (.field (.var .sm) .message) (.lit (.str []))) w = some (.ok (.bool (decide (b ≠ []))) w) := by
  by_cases h2 : b = []
  · subst h2; simp [hl, hs, hf]
  · have h2' : (b == []) = false := by simpa using h2
    simp only [bind_apply, eval_bin, eval_field, eval_var, eval_lit, hl, load_ptr, hs, get_struct, hf, of_some, pure_apply, on_ne, eq_str, h2', Option.map_some, Bool.not_false]
    simp [h2]

/-! ## RFC 5424 -/

/-- the struct `syslogMessage` (rfc5424/syslog_message.go:10-23); `sd` is the value of the map -/
def out5Val (o : Rfc5424.Out) (sd : Val) : Val := .struct .rfc5424_syslogMessage [(.prioritySet, .bool o.prioritySet), (.timestampSet, .bool o.timestampSet),
  (.hasElements, .bool o.hasElements), (.priority, byteVal o.priority), (.version, .int .u16 o.version.toNat), (.timestamp, timeVal o.timestamp), (.hostname, .str o.hostname),
  (.appname, .str o.appname), (.procID, .str o.procID), (.msgID, .str o.msgID), (.structuredData, sd), (.message, .str o.message)]

/-- `syslogMessage.minimal` (rfc5424/syslog_message.go:25-27) -/
theorem minimal5_call (hp : X.prog = prog) (n : Nat) (s : Nat) (o : Rfc5424.Out) (sd : Val) (w : W E) (h : w.heap s = out5Val o sd) :
    call X (n + 3) .rfc5424_syslogMessage_minimal [.ptr s []] w = some (.ok (.bool o.minimal) w) := by
  rw [call_fn hp prog_rfc5424_syslogMessage_minimal]
  cases h1 : o.prioritySet <;> cases h2 : Common.validPriority o.priority <;>
  simp [rfc5424_syslogMessage_minimal, h, out5Val, Rfc5424.Out.minimal, h1, h2, validPriority_call hp, validVersion_call hp]

/-- the variable `a` has the version -/
def HasVersion (w : W E) (a : Nat) (v : UInt16) : Prop := ∃ ty fs, w.heap a = .struct ty fs ∧ fs.lookup .Version = some (.int .u16 v.toNat)

/-- `SyslogMessage.Valid` (rfc5424/syslog_message.go:88-91) -/
theorem valid5_call (hp : X.prog = prog) (n : Nat) (a : Nat) (m : Rfc5424.SyslogMessage) (w : W E) (h : HasBase w a m.toBase) (hv : HasVersion w a m.version) :
    call X (n + 4) .rfc5424_SyslogMessage_Valid [.ptr a []] w = some (.ok (.bool m.valid) w) := by
  obtain ⟨ty, fs, h1, h2⟩ := hv
  rw [call_fn hp prog_rfc5424_SyslogMessage_Valid]
  cases h3 : m.toBase.valid <;>
  simp [rfc5424_SyslogMessage_Valid, baseValid_call hp _ a m.toBase w h, h1, h2, validVersion_call hp, Rfc5424.SyslogMessage.valid, h3]

theorem zero5_base (w : W E) (a : Nat) (h : w.heap a = Zero.rfc5424_SyslogMessage) (ha : a < w.next) : HasBase w a {} :=
  ⟨_, _, h, ha, ⟨.nil, rfl, rfl⟩, ⟨.nil, rfl, rfl⟩, ⟨.nil, rfl, rfl⟩, ⟨.nil, rfl, rfl⟩, ⟨.nil, rfl, rfl⟩, ⟨.nil, rfl, rfl⟩, ⟨.nil, rfl, rfl⟩, ⟨.nil, rfl, rfl⟩, ⟨.nil, rfl, rfl⟩⟩

theorem zero3_base (w : W E) (a : Nat) (h : w.heap a = Zero.rfc3164_SyslogMessage) (ha : a < w.next) : HasBase w a {} :=
  ⟨_, _, h, ha, ⟨.nil, rfl, rfl⟩, ⟨.nil, rfl, rfl⟩, ⟨.nil, rfl, rfl⟩, ⟨.nil, rfl, rfl⟩, ⟨.nil, rfl, rfl⟩, ⟨.nil, rfl, rfl⟩, ⟨.nil, rfl, rfl⟩, ⟨.nil, rfl, rfl⟩, ⟨.nil, rfl, rfl⟩⟩

/-- `v` is a map with the parameters `ps` (nil for an empty one) -/
def ParamMap (w : W E) (own : Nat) (v : Val) (ps : SMap Bytes) : Prop :=
  (v = .nil ∧ ps = []) ∨ ∃ c, v = .map c ∧ c < w.next ∧ c ≠ own ∧ w.heap c = .entries (ps.map fun e => (e.1, .str e.2))

/-- the entries of a map of elements -/
def ElemEntries (w : W E) (own : Nat) : List (Bytes × Val) → Rfc5424.SD → Prop
  | [], [] => True
  | e :: m, x :: sd => e.1 = x.1 ∧ ParamMap w own e.2 x.2 ∧ ElemEntries w own m sd
  | _, _ => False

/-- `v` is a map with the elements `sd` (nil for an empty one) -/
def ElemMap (w : W E) (own : Nat) (v : Val) (sd : Rfc5424.SD) : Prop :=
  (v = .nil ∧ sd = []) ∨ ∃ c m, v = .map c ∧ c < w.next ∧ c ≠ own ∧ w.heap c = .entries m ∧ ElemEntries w own m sd

/-- the struct in the variable `a` points to a map with the structured data -/
def HasSD (w : W E) (a : Nat) (sd : Option Rfc5424.SD) : Prop :=
  ∃ ty fs v, w.heap a = .struct ty fs ∧ fs.lookup .StructuredData = some v ∧
    match sd with
    | none => v = .nil
    | some sd => ∃ c p u, v = .ptr c p ∧ c < w.next ∧ c ≠ a ∧ (w.heap c).getPath p = some u ∧ ElemMap w a u sd

theorem ParamMap.keep {w w' : W E} {own : Nat} {v : Val} {ps : SMap Bytes} (h : ParamMap w own v ps) (hk : KeepsBut own w w') : ParamMap w' own v ps := by
  rcases h with h | ⟨c, h1, h2, h3, h4⟩
  · exact Or.inl h
  · exact Or.inr ⟨c, h1, by have := hk.2.1; omega, h3, by rw [hk.1 c h2 h3]; exact h4⟩

theorem ElemEntries.keep {w w' : W E} {own : Nat} (hk : KeepsBut own w w') : ∀ {m : List (Bytes × Val)} {sd : Rfc5424.SD}, ElemEntries w own m sd → ElemEntries w' own m sd
  | [], [], _ => trivial
  | _ :: _, _ :: _, h => ⟨h.1, h.2.1.keep hk, h.2.2.keep hk⟩

theorem ElemMap.keep {w w' : W E} {own : Nat} {v : Val} {sd : Rfc5424.SD} (h : ElemMap w own v sd) (hk : KeepsBut own w w') : ElemMap w' own v sd := by
  rcases h with h | ⟨c, m, h1, h2, h3, h4, h5⟩
  · exact Or.inl h
  · exact Or.inr ⟨c, m, h1, by have := hk.2.1; omega, h3, by rw [hk.1 c h2 h3]; exact h4, h5.keep hk⟩

theorem ParamMap.own {w : W E} {own own' : Nat} {v : Val} {ps : SMap Bytes} (h : ParamMap w own v ps) (ho : w.next ≤ own') : ParamMap w own' v ps := by
  rcases h with h | ⟨c, h1, h2, h3, h4⟩
  · exact Or.inl h
  · exact Or.inr ⟨c, h1, h2, by omega, h4⟩

theorem ElemEntries.own {w : W E} {own own' : Nat} (ho : w.next ≤ own') : ∀ {m : List (Bytes × Val)} {sd : Rfc5424.SD}, ElemEntries w own m sd → ElemEntries w own' m sd
  | [], [], _ => trivial
  | _ :: _, _ :: _, h => ⟨h.1, h.2.1.own ho, h.2.2.own ho⟩

theorem ElemMap.own {w : W E} {own own' : Nat} {v : Val} {sd : Rfc5424.SD} (h : ElemMap w own v sd) (ho : w.next ≤ own') : ElemMap w own' v sd := by
  rcases h with h | ⟨c, m, h1, h2, h3, h4, h5⟩
  · exact Or.inl h
  · exact Or.inr ⟨c, m, h1, h2, by omega, h4, h5.own ho⟩

/-- the struct in the variable `a` represents the message `m` -/
structure HasMsg5 (w : W E) (a : Nat) (m : Rfc5424.SyslogMessage) : Prop where
  base : HasBase w a m.toBase
  version : HasVersion w a m.version
  sd : HasSD w a m.structuredData

/-! ## RFC 3164 -/

/-- the struct `syslogMessage` (rfc3164/syslog_message.go:10-19) -/
def out3Val (o : Rfc3164.Out) : Val := .struct .rfc3164_syslogMessage [(.prioritySet, .bool o.prioritySet), (.timestampSet, .bool o.timestampSet),
  (.priority, byteVal o.priority), (.timestamp, timeVal o.timestamp), (.hostname, .str o.hostname), (.tag, .str o.tag), (.content, .str o.content), (.message, .str o.message)]

/-- `syslogMessage.minimal` (rfc3164/syslog_message.go:21-23) -/
theorem minimal3_call (hp : X.prog = prog) (n : Nat) (s : Nat) (o : Rfc3164.Out) (w : W E) (h : w.heap s = out3Val o) :
    call X (n + 3) .rfc3164_syslogMessage_minimal [.ptr s []] w = some (.ok (.bool o.minimal) w) := by
  rw [call_fn hp prog_rfc3164_syslogMessage_minimal]
  cases h1 : o.prioritySet <;>
  simp [rfc3164_syslogMessage_minimal, h, out3Val, Rfc3164.Out.minimal, h1, validPriority_call hp]

/-- `syslogMessage.export` (rfc3164/syslog_message.go:27-50): the result is a new struct; nothing else changes -/
theorem export3_call (hp : X.prog = prog) (n : Nat) (s : Nat) (o : Rfc3164.Out) (w : W E) (h : w.heap s = out3Val o) (hs : s < w.next) :
    ∃ w', call X (n + 2) .rfc3164_syslogMessage_export [.ptr s []] w = some (.ok (.ptr w.next []) w') ∧ Keeps w w' ∧ HasBase w' w.next o.export ∧
      ∃ ty fs, w'.heap w.next = .struct ty fs ∧ fs.lookup .StructuredData = none ∧ ∀ f x p, fs.lookup f = some (.ptr x p) → x = s ∨ w.next ≤ x := by
  obtain ⟨a, ha⟩ : ∃ a, a = w.next := ⟨_, rfl⟩
  rw [← ha]
  have hsa : s ≠ a := by omega
  obtain ⟨w1, hw1⟩ : ∃ w1 : W E, w1 = { w with heap := upd w.heap a Zero.rfc3164_SyslogMessage, next := a + 1 } := ⟨_, rfl⟩
  have k1 : Keeps w w1 := by rw [hw1, ha]; exact Keeps.alloc _ _
  obtain ⟨l, hl⟩ : ∃ l, l = (Loc.empty.set .sm (.ptr s [])).set .out (.ptr a []) := ⟨_, rfl⟩
  have l1 : l .out = .ptr a [] := by rw [hl]; simp
  have l2 : l .sm = .ptr s [] := by rw [hl]; simp
  have ha1 : w1.heap a = Zero.rfc3164_SyslogMessage := by rw [hw1]; simp
  have hb1 : HasBase w1 a {} := zero3_base w1 a ha1 (by rw [hw1]; simp)
  obtain ⟨w2, ty1, fs1', c, hcn, ec, hz, hz2, k2, ty, fs0, h0, hn0, hf0⟩ := computeFromPriority_call hp n a {} o.priority w1 hb1
  have hty : fs1'.lookup .StructuredData = none ∧ ∀ f x p, fs1'.lookup f ≠ some (.ptr x p) := by
    rw [ha1] at hz; simp only [Zero.rfc3164_SyslogMessage, Val.struct.injEq] at hz; obtain ⟨rfl, rfl⟩ := hz
    refine ⟨rfl, fun f x p hl => ?_⟩
    simp only [List.lookup_cons, List.lookup_nil] at hl
    repeat' split at hl
    all_goals cases hl
  obtain ⟨hsd0, hnp⟩ := hty
  have hfs : fs0 = setField (setField (setField fs1' .Priority (.ptr c [])) .Facility (.ptr (c + 1) [])) .Severity (.ptr (c + 2) []) := by
    rw [hz2] at h0; cases h0; rfl
  have hsd1 : fs0.lookup .StructuredData = none := by rw [hfs]; simp [lookup_setField, hsd0]
  have s2 : w2.heap s = out3Val o := by rw [k2.1 s (by have := k1.2.1; omega) hsa, k1.1 s hs, h]
  have e0 : exec X (call X (n + 1)) (.assign .out (.new (.lit Zero.rfc3164_SyslogMessage))) (Loc.empty.set .sm (.ptr s [])) w = some (.ok (.next, l) w1) := by
    rw [hl, hw1, ha]; simp
  have s1 : w1.heap s = out3Val o := by rw [k1.1 s hs, h]
  have e1 : exec X (call X (n + 1)) (.expr (.call .syslog_Base_ComputeFromPriority (.cons (.var .out) (.cons (.field (.var .sm) .priority) .unit)))) l w1 = some (.ok (.next, l) w2) := by
    have s1' := s1
    simp only [out3Val] at s1'
    simp [l1, l2, s1', ec]
  simp only [Base.computeFromPriority] at hf0
  simp only [out3Val] at s2
  -- the five conditional stores
  obtain ⟨fs1, e2, g1⟩ := store_if (X := X) (calls := call X (n + 1)) .Timestamp .timestamp (.field (.var .sm) .timestampSet) o.timestampSet l1 l2 h0 hf0.timestamp.nil (by simp [l2, s2])
  obtain ⟨w3, hw3⟩ : ∃ w3 : W E, w3 = { w2 with heap := upd w2.heap a (.struct ty fs1) } := ⟨_, rfl⟩
  rw [← hw3] at e2
  have s3 := s2; rw [show w2.heap s = w3.heap s by rw [hw3]; simp [upd_apply, hsa]] at s3
  have h1 : w3.heap a = .struct ty fs1 := by rw [hw3]; simp
  obtain ⟨fs2, e3, g2⟩ := store_if (X := X) (calls := call X (n + 1)) .Hostname .hostname _ _ l1 l2 h1 (u := .nil) (by rw [g1]; simpa using hf0.hostname.nil)
    (cond_opt l2 s3 (f := .hostname) (b := o.hostname) (by simp))
  obtain ⟨w4, hw4⟩ : ∃ w4 : W E, w4 = { w3 with heap := upd w3.heap a (.struct ty fs2) } := ⟨_, rfl⟩
  rw [← hw4] at e3
  have s4 := s3; rw [show w3.heap s = w4.heap s by rw [hw4]; simp [upd_apply, hsa]] at s4
  have h2 : w4.heap a = .struct ty fs2 := by rw [hw4]; simp
  obtain ⟨fs3, e4, g3⟩ := store_if (X := X) (calls := call X (n + 1)) .Appname .tag _ _ l1 l2 h2 (u := .nil) (by rw [g2, g1]; simpa using hf0.appname.nil)
    (cond_opt l2 s4 (f := .tag) (b := o.tag) (by simp))
  obtain ⟨w5, hw5⟩ : ∃ w5 : W E, w5 = { w4 with heap := upd w4.heap a (.struct ty fs3) } := ⟨_, rfl⟩
  rw [← hw5] at e4
  have s5 := s4; rw [show w4.heap s = w5.heap s by rw [hw5]; simp [upd_apply, hsa]] at s5
  have h3 : w5.heap a = .struct ty fs3 := by rw [hw5]; simp
  obtain ⟨fs4, e5, g4⟩ := store_if (X := X) (calls := call X (n + 1)) .ProcID .content _ _ l1 l2 h3 (u := .nil) (by rw [g3, g2, g1]; simpa using hf0.procID.nil)
    (cond_opt l2 s5 (f := .content) (b := o.content) (by simp))
  obtain ⟨w6, hw6⟩ : ∃ w6 : W E, w6 = { w5 with heap := upd w5.heap a (.struct ty fs4) } := ⟨_, rfl⟩
  rw [← hw6] at e5
  have s6 := s5; rw [show w5.heap s = w6.heap s by rw [hw6]; simp [upd_apply, hsa]] at s6
  have h4 : w6.heap a = .struct ty fs4 := by rw [hw6]; simp
  obtain ⟨fs5, e6, g5⟩ := store_if (X := X) (calls := call X (n + 1)) .Message .message _ _ l1 l2 h4 (u := .nil) (by rw [g4, g3, g2, g1]; simpa using hf0.message.nil)
    (cond_msg l2 s6 (b := o.message) (by simp))
  obtain ⟨w7, hw7⟩ : ∃ w7 : W E, w7 = { w6 with heap := upd w6.heap a (.struct ty fs5) } := ⟨_, rfl⟩
  rw [← hw7] at e6
  have s7 := s6; rw [show w6.heap s = w7.heap s by rw [hw7]; simp [upd_apply, hsa]] at s7
  have k : KeepsBut a w2 w7 := by
    rw [hw7, hw6, hw5, hw4, hw3]
    exact (KeepsBut.upd _ _ _).trans ((KeepsBut.upd _ _ _).trans ((KeepsBut.upd _ _ _).trans ((KeepsBut.upd _ _ _).trans (KeepsBut.upd _ _ _))))
  have hs7 : s < w7.next := by have := k.2.1; have := k2.2.1; have := k1.2.1; omega
  refine ⟨w7, ?_, ?_, ⟨ty, fs5, by rw [hw7]; simp, by have := k.2.1; omega, ?_⟩, ty, fs5, by rw [hw7]; simp, by rw [g5, g4, g3, g2, g1]; simp [hsd1], ?_⟩
  · rw [call_fn hp prog_rfc3164_syslogMessage_export]
    have hpar : params rfc3164_syslogMessage_export.params [.ptr s []] = some (Loc.empty.set .sm (.ptr s [])) := rfl
    rw [hpar, of_some]
    simp only [bind_apply, pure_apply, rfc3164_syslogMessage_export]
    rw [seq_next e0, seq_next e1, seq_next e2, seq_next e3, seq_next e4, seq_next e5, seq_next e6]
    simp [l1]
  · have := (k1.but a).trans (k2.trans k)
    exact ⟨fun c hc => this.1 c hc (by omega), this.2⟩
  · have hf := hf0.keep k
    exact ⟨hf.facility.congr (by rw [g5, g4, g3, g2, g1]; simp), hf.severity.congr (by rw [g5, g4, g3, g2, g1]; simp), hf.priority.congr (by rw [g5, g4, g3, g2, g1]; simp),
      ⟨_, by rw [g5, g4, g3, g2, g1]; simp, points_time s7 (by simp) hs7 hsa⟩, ⟨_, by rw [g5, g4, g3, g2, g1]; simp; rfl, points_opt s7 (by simp) hs7 hsa⟩,
      ⟨_, by rw [g5, g4, g3, g2, g1]; simp; rfl, points_opt s7 (by simp) hs7 hsa⟩, ⟨_, by rw [g5, g4, g3, g2, g1]; simp; rfl, points_opt s7 (by simp) hs7 hsa⟩,
      hf.msgID.congr (by rw [g5, g4, g3, g2, g1]; simp), ⟨_, by rw [g5, g4, g3, g2, g1]; simp, points_msg s7 (by simp) hs7 hsa⟩⟩
  · intro f x p hl
    have hc1 : w1.next = a + 1 := by rw [hw1]
    have hif : ∀ (b : Bool) (q : List Nm), (if b then Val.ptr s q else .nil) = .ptr x p → x = s := by
      intro b q hb
      cases b with
      | true => injection hb with hb _; exact hb.symm
      | false => cases hb
    have hlast : fs0.lookup f = some (.ptr x p) → x = s ∨ a ≤ x := by
      rw [hfs]
      simp only [lookup_setField]
      intro hl
      repeat' split at hl
      all_goals first
        | exact absurd hl (hnp f x p)
        | (simp only [Option.map_eq_some_iff, coerce_ptr] at hl
           obtain ⟨u, _, hl⟩ := hl
           injection hl with hl _
           exact Or.inr (by omega))
    rw [g5] at hl
    split at hl
    · exact Or.inl (hif _ _ (Option.some.inj hl))
    rw [g4] at hl
    split at hl
    · exact Or.inl (hif _ _ (Option.some.inj hl))
    rw [g3] at hl
    split at hl
    · exact Or.inl (hif _ _ (Option.some.inj hl))
    rw [g2] at hl
    split at hl
    · exact Or.inl (hif _ _ (Option.some.inj hl))
    rw [g1] at hl
    split at hl
    · exact Or.inl (hif _ _ (Option.some.inj hl))
    exact hlast hl

/-- `syslogMessage.export` (rfc5424/syslog_message.go:31-59): the result is a new struct that shares the variables of the internal message; nothing else changes -/
theorem export5_call (hp : X.prog = prog) (n : Nat) (s : Nat) (o : Rfc5424.Out) (sd : Val) (w : W E) (h : w.heap s = out5Val o sd) (hs : s < w.next)
    (hsd : ElemMap w s sd (o.structuredData.getD [])) :
    ∃ w', call X (n + 2) .rfc5424_syslogMessage_export [.ptr s []] w = some (.ok (.ptr w.next []) w') ∧ Keeps w w' ∧ HasMsg5 w' w.next o.export ∧
      ∃ ty fs, w'.heap w.next = .struct ty fs ∧ fs.lookup .StructuredData = some (if o.hasElements then .ptr s [.structuredData] else .nil) ∧
        ∀ f x p, fs.lookup f = some (.ptr x p) → x = s ∨ w.next ≤ x := by
  obtain ⟨a, ha⟩ : ∃ a, a = w.next := ⟨_, rfl⟩
  rw [← ha]
  have hsa : s ≠ a := by omega
  obtain ⟨w1, hw1⟩ : ∃ w1 : W E, w1 = { w with heap := upd w.heap a Zero.rfc5424_SyslogMessage, next := a + 1 } := ⟨_, rfl⟩
  have k1 : Keeps w w1 := by rw [hw1, ha]; exact Keeps.alloc _ _
  obtain ⟨l, hl⟩ : ∃ l, l = (Loc.empty.set .sm (.ptr s [])).set .out (.ptr a []) := ⟨_, rfl⟩
  have l1 : l .out = .ptr a [] := by rw [hl]; simp
  have l2 : l .sm = .ptr s [] := by rw [hl]; simp
  have ha1 : w1.heap a = Zero.rfc5424_SyslogMessage := by rw [hw1]; simp
  have hb1 : HasBase w1 a {} := zero5_base w1 a ha1 (by rw [hw1]; simp)
  obtain ⟨w2', ty1, fs1', c, hcn, ec, hz, hz2, k2', ty, fs0', h0', hn0, hf0'⟩ := computeFromPriority_call hp n a {} o.priority w1 hb1
  have hty : ty1 = .rfc5424_SyslogMessage ∧ fs1'.lookup .Version = some (.int .u16 0) ∧ fs1'.lookup .StructuredData = some .nil ∧ ∀ f x p, fs1'.lookup f ≠ some (.ptr x p) := by
    rw [ha1] at hz; simp only [Zero.rfc5424_SyslogMessage, Val.struct.injEq] at hz; obtain ⟨rfl, rfl⟩ := hz
    refine ⟨rfl, rfl, rfl, fun f x p hl => ?_⟩
    simp only [List.lookup_cons, List.lookup_nil] at hl
    repeat' split at hl
    all_goals cases hl
  obtain ⟨-, hv0, hsd0, hnp⟩ := hty
  have hfs : fs0' = setField (setField (setField fs1' .Priority (.ptr c [])) .Facility (.ptr (c + 1) [])) .Severity (.ptr (c + 2) []) := by
    rw [hz2] at h0'; cases h0'; rfl
  have hv1 : fs0'.lookup .Version = some (.int .u16 0) := by rw [hfs]; simp [lookup_setField, hv0]
  have hsd1 : fs0'.lookup .StructuredData = some .nil := by rw [hfs]; simp [lookup_setField, hsd0]
  have e0 : exec X (call X (n + 1)) (.assign .out (.new (.lit Zero.rfc5424_SyslogMessage))) (Loc.empty.set .sm (.ptr s [])) w = some (.ok (.next, l) w1) := by
    rw [hl, hw1, ha]; simp
  have s1 : w1.heap s = out5Val o sd := by rw [k1.1 s hs, h]
  have s2' : w2'.heap s = out5Val o sd := by rw [k2'.1 s (by have := k1.2.1; omega) hsa, s1]
  have e1 : exec X (call X (n + 1)) (.expr (.call .syslog_Base_ComputeFromPriority (.cons (.var .out) (.cons (.field (.var .sm) .priority) .unit)))) l w1 = some (.ok (.next, l) w2') := by
    have s1' := s1
    simp only [out5Val] at s1'
    simp [l1, l2, s1', ec]
  -- the version
  obtain ⟨fs0, hfs0⟩ : ∃ fs0, fs0 = setField fs0' .Version (.int .u16 o.version.toNat) := ⟨_, rfl⟩
  obtain ⟨w2, hw2⟩ : ∃ w2 : W E, w2 = { w2' with heap := upd w2'.heap a (.struct ty fs0) } := ⟨_, rfl⟩
  have ev : exec X (call X (n + 1)) (.store (.addr (.var .out) .Version) (.field (.var .sm) .version)) l w2' = some (.ok (.next, l) w2) := by
    have s2'' := s2'
    simp only [out5Val] at s2''
    rw [hw2, hfs0]
    simp [l1, l2, s2'', store_field h0' hv1]
  have g0 : ∀ g, fs0.lookup g = if g = .Version then some (.int .u16 o.version.toNat) else fs0'.lookup g := by
    intro g
    rw [hfs0, lookup_setField]
    split
    · rename_i hg; subst hg; rw [hv1]; simp
    · rfl
  have k2 : KeepsBut a w1 w2 := k2'.trans (by rw [hw2]; exact KeepsBut.upd _ _ _)
  have s2 : w2.heap s = out5Val o sd := by rw [hw2]; simp [upd_apply, hsa, s2']
  have h0 : w2.heap a = .struct ty fs0 := by rw [hw2]; simp
  simp only [Base.computeFromPriority] at hf0'
  have hf0 := (show FieldsBase w2 a fs0' _ from hf0'.keep (by rw [hw2]; exact KeepsBut.upd _ _ _))
  simp only [out5Val] at s2
  obtain ⟨fs1, e2, g1⟩ := store_if (X := X) (calls := call X (n + 1)) .Timestamp .timestamp (.field (.var .sm) .timestampSet) o.timestampSet l1 l2 h0 (u := .nil) (by rw [g0]; simpa using hf0.timestamp.nil) (by simp [l2, s2])
  obtain ⟨w3, hw3⟩ : ∃ w3 : W E, w3 = { w2 with heap := upd w2.heap a (.struct ty fs1) } := ⟨_, rfl⟩
  rw [← hw3] at e2
  have s3 := s2; rw [show w2.heap s = w3.heap s by rw [hw3]; simp [upd_apply, hsa]] at s3
  have h1 : w3.heap a = .struct ty fs1 := by rw [hw3]; simp
  obtain ⟨fs2, e3, g2⟩ := store_if (X := X) (calls := call X (n + 1)) .Hostname .hostname _ _ l1 l2 h1 (u := .nil) (by rw [g1, g0]; simpa using hf0.hostname.nil) (cond_opt l2 s3 (f := .hostname) (b := o.hostname) (by simp))
  obtain ⟨w4, hw4⟩ : ∃ w4 : W E, w4 = { w3 with heap := upd w3.heap a (.struct ty fs2) } := ⟨_, rfl⟩
  rw [← hw4] at e3
  have s4 := s3; rw [show w3.heap s = w4.heap s by rw [hw4]; simp [upd_apply, hsa]] at s4
  have h2 : w4.heap a = .struct ty fs2 := by rw [hw4]; simp
  obtain ⟨fs3, e4, g3⟩ := store_if (X := X) (calls := call X (n + 1)) .Appname .appname _ _ l1 l2 h2 (u := .nil) (by rw [g2, g1, g0]; simpa using hf0.appname.nil) (cond_opt l2 s4 (f := .appname) (b := o.appname) (by simp))
  obtain ⟨w5, hw5⟩ : ∃ w5 : W E, w5 = { w4 with heap := upd w4.heap a (.struct ty fs3) } := ⟨_, rfl⟩
  rw [← hw5] at e4
  have s5 := s4; rw [show w4.heap s = w5.heap s by rw [hw5]; simp [upd_apply, hsa]] at s5
  have h3 : w5.heap a = .struct ty fs3 := by rw [hw5]; simp
  obtain ⟨fs4, e5, g4⟩ := store_if (X := X) (calls := call X (n + 1)) .ProcID .procID _ _ l1 l2 h3 (u := .nil) (by rw [g3, g2, g1, g0]; simpa using hf0.procID.nil) (cond_opt l2 s5 (f := .procID) (b := o.procID) (by simp))
  obtain ⟨w6, hw6⟩ : ∃ w6 : W E, w6 = { w5 with heap := upd w5.heap a (.struct ty fs4) } := ⟨_, rfl⟩
  rw [← hw6] at e5
  have s6 := s5; rw [show w5.heap s = w6.heap s by rw [hw6]; simp [upd_apply, hsa]] at s6
  have h4 : w6.heap a = .struct ty fs4 := by rw [hw6]; simp
  obtain ⟨fs5, e6, g5⟩ := store_if (X := X) (calls := call X (n + 1)) .MsgID .msgID _ _ l1 l2 h4 (u := .nil) (by rw [g4, g3, g2, g1, g0]; simpa using hf0.msgID.nil) (cond_opt l2 s6 (f := .msgID) (b := o.msgID) (by simp))
  obtain ⟨w7, hw7⟩ : ∃ w7 : W E, w7 = { w6 with heap := upd w6.heap a (.struct ty fs5) } := ⟨_, rfl⟩
  rw [← hw7] at e6
  have s7 := s6; rw [show w6.heap s = w7.heap s by rw [hw7]; simp [upd_apply, hsa]] at s7
  have h5 : w7.heap a = .struct ty fs5 := by rw [hw7]; simp
  obtain ⟨fs6, e7, g6⟩ := store_if (X := X) (calls := call X (n + 1)) .StructuredData .structuredData (.field (.var .sm) .hasElements) o.hasElements l1 l2 h5 (u := .nil) (by rw [g5, g4, g3, g2, g1, g0]; simpa using hsd1) (by simp [l2, s7])
  obtain ⟨w8, hw8⟩ : ∃ w8 : W E, w8 = { w7 with heap := upd w7.heap a (.struct ty fs6) } := ⟨_, rfl⟩
  rw [← hw8] at e7
  have s8 := s7; rw [show w7.heap s = w8.heap s by rw [hw8]; simp [upd_apply, hsa]] at s8
  have h6 : w8.heap a = .struct ty fs6 := by rw [hw8]; simp
  obtain ⟨fs7, e8, g7⟩ := store_if (X := X) (calls := call X (n + 1)) .Message .message _ _ l1 l2 h6 (u := .nil) (by rw [g6, g5, g4, g3, g2, g1, g0]; simpa using hf0.message.nil) (cond_msg l2 s8 (b := o.message) (by simp))
  obtain ⟨w9, hw9⟩ : ∃ w9 : W E, w9 = { w8 with heap := upd w8.heap a (.struct ty fs7) } := ⟨_, rfl⟩
  rw [← hw9] at e8
  have s9 := s8; rw [show w8.heap s = w9.heap s by rw [hw9]; simp [upd_apply, hsa]] at s9
  have h7 : w9.heap a = .struct ty fs7 := by rw [hw9]; simp
  have k : KeepsBut a w2 w9 := by
    rw [hw9, hw8, hw7, hw6, hw5, hw4, hw3]
    exact (KeepsBut.upd _ _ _).trans ((KeepsBut.upd _ _ _).trans ((KeepsBut.upd _ _ _).trans ((KeepsBut.upd _ _ _).trans ((KeepsBut.upd _ _ _).trans ((KeepsBut.upd _ _ _).trans (KeepsBut.upd _ _ _))))))
  have hs9 : s < w9.next := by have := k.2.1; have := k2.2.1; have := k1.2.1; omega
  have hn9 : a < w9.next := by have := k.2.1; have := k2.2.1; have : w1.next = a + 1 := by (rw [hw1])
                               omega
  have kall := (k1.but a).trans (k2.trans k)
  refine ⟨w9, ?_, ⟨fun c hc => kall.1 c hc (by omega), kall.2⟩, ⟨⟨ty, fs7, h7, hn9, ?_⟩, ⟨ty, fs7, h7, ?_⟩, ⟨ty, fs7, if o.hasElements then .ptr s [.structuredData] else .nil, h7, ?_, ?_⟩⟩, ty, fs7, h7, ?_, ?_⟩
  · rw [call_fn hp prog_rfc5424_syslogMessage_export]
    have hpar : params rfc5424_syslogMessage_export.params [.ptr s []] = some (Loc.empty.set .sm (.ptr s [])) := rfl
    rw [hpar, of_some]
    simp only [bind_apply, pure_apply, rfc5424_syslogMessage_export]
    rw [seq_next e0, seq_next e1, seq_next ev, seq_next e2, seq_next e3, seq_next e4, seq_next e5, seq_next e6, seq_next e7, seq_next e8]
    simp [l1]
  · have hf := hf0.keep k
    exact ⟨hf.facility.congr (by rw [g7, g6, g5, g4, g3, g2, g1, g0]; simp), hf.severity.congr (by rw [g7, g6, g5, g4, g3, g2, g1, g0]; simp), hf.priority.congr (by rw [g7, g6, g5, g4, g3, g2, g1, g0]; simp),
      ⟨_, by rw [g7, g6, g5, g4, g3, g2, g1, g0]; simp, points_time s9 (by simp) hs9 hsa⟩, ⟨_, by rw [g7, g6, g5, g4, g3, g2, g1, g0]; simp; rfl, points_opt s9 (by simp) hs9 hsa⟩,
      ⟨_, by rw [g7, g6, g5, g4, g3, g2, g1, g0]; simp; rfl, points_opt s9 (by simp) hs9 hsa⟩, ⟨_, by rw [g7, g6, g5, g4, g3, g2, g1, g0]; simp; rfl, points_opt s9 (by simp) hs9 hsa⟩,
      ⟨_, by rw [g7, g6, g5, g4, g3, g2, g1, g0]; simp; rfl, points_opt s9 (by simp) hs9 hsa⟩, ⟨_, by rw [g7, g6, g5, g4, g3, g2, g1, g0]; simp, points_msg s9 (by simp) hs9 hsa⟩⟩
  · rw [g7, g6, g5, g4, g3, g2, g1, g0]; simp [Rfc5424.Out.export]
  · rw [g7, g6, g5, g4, g3, g2, g1, g0]; simp
  · have hsd9 : ElemMap w9 a sd (o.structuredData.getD []) := (hsd.own (own' := a) (by omega)).keep kall
    simp only [Rfc5424.Out.export]
    cases he : o.hasElements with
    | false => simp
    | true => exact ⟨s, [.structuredData], sd, by simp, hs9, hsa, by simp [s9, Val.getPath], hsd9⟩
  · rw [g7, g6, g5, g4, g3, g2, g1, g0]; simp
  · intro f x p hl
    have hc1 : w1.next = a + 1 := by rw [hw1]
    have hif : ∀ (b : Bool) (q : List Nm), (if b then Val.ptr s q else .nil) = .ptr x p → x = s := by
      intro b q hb
      cases b with
      | true => injection hb with hb _; exact hb.symm
      | false => cases hb
    have hlast : fs0'.lookup f = some (.ptr x p) → x = s ∨ a ≤ x := by
      rw [hfs]
      simp only [lookup_setField]
      intro hl
      repeat' split at hl
      all_goals first
        | exact absurd hl (hnp f x p)
        | (simp only [Option.map_eq_some_iff, coerce_ptr] at hl
           obtain ⟨u, _, hl⟩ := hl
           injection hl with hl _
           exact Or.inr (by omega))
    rw [g7] at hl
    split at hl
    · exact Or.inl (hif _ _ (Option.some.inj hl))
    rw [g6] at hl
    split at hl
    · exact Or.inl (hif _ _ (Option.some.inj hl))
    rw [g5] at hl
    split at hl
    · exact Or.inl (hif _ _ (Option.some.inj hl))
    rw [g4] at hl
    split at hl
    · exact Or.inl (hif _ _ (Option.some.inj hl))
    rw [g3] at hl
    split at hl
    · exact Or.inl (hif _ _ (Option.some.inj hl))
    rw [g2] at hl
    split at hl
    · exact Or.inl (hif _ _ (Option.some.inj hl))
    rw [g1] at hl
    split at hl
    · exact Or.inl (hif _ _ (Option.some.inj hl))
    rw [g0] at hl
    split at hl
    · cases hl
    exact hlast hl

end Verif.Mini
