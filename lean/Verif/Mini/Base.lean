import Verif.Mini.Common

/-!
# The methods of `syslog.Base` (`syslog.go`), run symbolically

A message is a struct in the heap whose fields are pointers; `HasBase w a b` says that the struct in the variable `a` represents the
message `b` of `Verif/Base.lean`.
-/

set_option linter.constructorNameAsVariable false
set_option linter.unusedSimpArgs false

namespace Verif.Mini
open Verif.Gen.Mini

variable {E : Type} {X : Env0 E}

instance : LawfulBEq Nm where
  eq_of_beq {a b} h := by simpa [BEq.beq] using h
  rfl {a} := by simp [BEq.beq]

@[simp] theorem lookup_nm (f g : Nm) (v : Val) (fs : List (Nm × Val)) : List.lookup g ((f, v) :: fs) = if g = f then some v else List.lookup g fs := by
  by_cases h : g = f
  · subst h; simp
  · have : (g == f) = false := by simpa using h
    simp [List.lookup_cons, this, h]

theorem lookup_setField (fs : List (Nm × Val)) (f g : Nm) (v : Val) :
    (setField fs f v).lookup g = if g = f then (fs.lookup g).map (·.coerce v) else fs.lookup g := by
  induction fs with
  | nil => simp [setField]
  | cons e fs ih =>
    obtain ⟨n, u⟩ := e
    unfold setField at ih ⊢
    simp only [List.map_cons]
    by_cases h : n = f
    · subst h
      by_cases h' : g = n
      · subst h'; simp
      · have : (g == n) = false := by simpa using h'
        simp [List.lookup_cons, this, ih, h']
    · simp only [if_neg h]
      by_cases h' : g = n
      · subst h'; simp [h]
      · have : (g == n) = false := by simpa using h'
        simp [List.lookup_cons, this, ih]

/-- `v` is a pointer (nil for none) to a variable that holds `x`, or to a field of one; not to the variable `own` -/
def Points {α : Type} (w : W E) (own : Nat) (v : Val) (enc : α → Val) : Option α → Prop
  | none => v = .nil
  | some x => ∃ a p, v = .ptr a p ∧ a < w.next ∧ a ≠ own ∧ (w.heap a).getPath p = some (enc x)

/-- the field `f` of a struct points to `x` -/
def FieldAt {α : Type} (w : W E) (own : Nat) (fs : List (Nm × Val)) (f : Nm) (enc : α → Val) (x : Option α) : Prop :=
  ∃ v, fs.lookup f = some v ∧ Points w own v enc x

def timeVal (t : GoTime.Time) : Val := .ext (.time t)

/-- the fields of `syslog.Base` (syslog.go:67-77) -/
structure FieldsBase (w : W E) (own : Nat) (fs : List (Nm × Val)) (b : Base) : Prop where
  facility : FieldAt w own fs .Facility byteVal b.facility
  severity : FieldAt w own fs .Severity byteVal b.severity
  priority : FieldAt w own fs .Priority byteVal b.priority
  timestamp : FieldAt w own fs .Timestamp timeVal b.timestamp
  hostname : FieldAt w own fs .Hostname .str b.hostname
  appname : FieldAt w own fs .Appname .str b.appname
  procID : FieldAt w own fs .ProcID .str b.procID
  msgID : FieldAt w own fs .MsgID .str b.msgID
  message : FieldAt w own fs .Message .str b.message

/-- the struct in the variable `a` represents the message `b` -/
def HasBase (w : W E) (a : Nat) (b : Base) : Prop := ∃ ty fs, w.heap a = .struct ty fs ∧ a < w.next ∧ FieldsBase w a fs b

/-- what was there is as before, except the variable `own` -/
def KeepsBut (own : Nat) (w w' : W E) : Prop := (∀ a, a < w.next → a ≠ own → w'.heap a = w.heap a) ∧ w.next ≤ w'.next ∧ w'.glob = w.glob ∧ w'.ext = w.ext

theorem Keeps.but {w w' : W E} (h : Keeps w w') (own : Nat) : KeepsBut own w w' := ⟨fun a ha _ => h.1 a ha, h.2⟩

theorem KeepsBut.trans {own : Nat} {w1 w2 w3 : W E} (h : KeepsBut own w1 w2) (h' : KeepsBut own w2 w3) : KeepsBut own w1 w3 :=
  ⟨fun a ha hn => (h'.1 a (by have := h.2.1; omega) hn).trans (h.1 a ha hn), Nat.le_trans h.2.1 h'.2.1, h'.2.2.1.trans h.2.2.1, h'.2.2.2.trans h.2.2.2⟩

theorem KeepsBut.upd (w : W E) (own : Nat) (v : Val) : KeepsBut own w { w with heap := upd w.heap own v } :=
  ⟨fun _ _ hn => upd_ne _ _ hn, Nat.le_refl _, rfl, rfl⟩

theorem FieldAt.keep {α : Type} {w w' : W E} {own : Nat} {fs : List (Nm × Val)} {f : Nm} {enc : α → Val} {x : Option α}
    (h : FieldAt w own fs f enc x) (hk : KeepsBut own w w') : FieldAt w' own fs f enc x := by
  obtain ⟨v, h1, h2⟩ := h
  refine ⟨v, h1, ?_⟩
  cases x with
  | none => exact h2
  | some x =>
    obtain ⟨a, p, e, h3, h4, h5⟩ := h2
    exact ⟨a, p, e, by have := hk.2.1; omega, h4, by rw [hk.1 a h3 h4]; exact h5⟩

/-- another field is replaced -/
theorem FieldAt.set {α : Type} {w : W E} {own : Nat} {fs : List (Nm × Val)} {f : Nm} {enc : α → Val} {x : Option α}
    (h : FieldAt w own fs f enc x) (g : Nm) (v : Val) (hg : f ≠ g) : FieldAt w own (setField fs g v) f enc x := by
  obtain ⟨u, h1, h2⟩ := h
  exact ⟨u, by rw [lookup_setField, if_neg hg]; exact h1, h2⟩

/-- the field is replaced by a pointer -/
theorem FieldAt.put {α : Type} {w : W E} {own : Nat} {fs : List (Nm × Val)} {f : Nm} {enc : α → Val} {x : Option α}
    (h : FieldAt w own fs f enc x) (y : α) (a : Nat) (p : List Nm) (ha : a < w.next) (hn : a ≠ own) (hy : (w.heap a).getPath p = some (enc y)) :
    FieldAt w own (setField fs f (.ptr a p)) f enc (some y) := by
  obtain ⟨u, h1, h2⟩ := h
  refine ⟨.ptr a p, ?_, a, p, rfl, ha, hn, hy⟩
  rw [lookup_setField, if_pos rfl, h1]
  show some (u.coerce (.ptr a p)) = _
  cases u <;> rfl

theorem FieldsBase.keep {w w' : W E} {own : Nat} {fs : List (Nm × Val)} {b : Base} (h : FieldsBase w own fs b) (hk : KeepsBut own w w') :
    FieldsBase w' own fs b :=
  ⟨h.1.keep hk, h.2.keep hk, h.3.keep hk, h.4.keep hk, h.5.keep hk, h.6.keep hk, h.7.keep hk, h.8.keep hk, h.9.keep hk⟩

/-- reading a pointer field -/
theorem field_ptr (calls : Nm → List Val → M E Val) (l : Loc) (w : W E) (x : Nm) (a : Nat) (ty : Nm) (fs : List (Nm × Val)) (f : Nm) (v : Val)
    (h1 : l x = .ptr a []) (h2 : w.heap a = .struct ty fs) (h3 : fs.lookup f = some v) :
    eval X calls l (.field (.var x) f) w = some (.ok v w) := by
  simp [h1, h2, h3]

theorem load_path {w : W E} {a : Nat} {p : List Nm} {v : Val} (h : (w.heap a).getPath p = some v) : (load (.ptr a p) : M E Val) w = some (.ok v w) := by
  rw [load_ptr_path, h]

/-- `Base.Valid` (syslog.go:83-86) -/
theorem baseValid_call (hp : X.prog = prog) (n : Nat) (a : Nat) (b : Base) (w : W E) (h : HasBase w a b) :
    call X (n + 3) .syslog_Base_Valid [.ptr a []] w = some (.ok (.bool b.valid) w) := by
  obtain ⟨ty, fs, h1, h2, h3⟩ := h
  obtain ⟨v, h4, h5⟩ := h3.priority
  rw [call_fn hp prog_syslog_Base_Valid]
  cases hb : b.priority with
  | none =>
    rw [hb] at h5
    have h5 : v = .nil := h5
    subst h5
    simp [syslog_Base_Valid, h1, h4, Base.valid, hb]
  | some q =>
    rw [hb] at h5
    obtain ⟨c, p, rfl, h6, h7, h8⟩ := h5
    simp [syslog_Base_Valid, h1, h4, Base.valid, hb, load_path h8, validPriority_call hp]

section
variable (u : Val)
@[simp] theorem coerce_ptr (a : Nat) (p : List Nm) : u.coerce (.ptr a p) = .ptr a p := by cases u <;> rfl
@[simp] theorem coerce_str (s : Bytes) : u.coerce (.str s) = .str s := by cases u <;> rfl
@[simp] theorem coerce_bool (b : Bool) : u.coerce (.bool b) = .bool b := by cases u <;> rfl
@[simp] theorem coerce_nil : u.coerce .nil = .nil := by cases u <;> rfl
@[simp] theorem coerce_ext (x : Mini.X) : u.coerce (.ext x) = .ext x := by cases u <;> rfl
@[simp] theorem coerce_map (a : Nat) : u.coerce (.map a) = .map a := by cases u <;> rfl
@[simp] theorem coerce_u8 (i : Int) : u.coerce (.int .u8 i) = .int .u8 i := by cases u <;> rfl
@[simp] theorem coerce_u16 (i : Int) : u.coerce (.int .u16 i) = .int .u16 i := by cases u <;> rfl
@[simp] theorem coerce_u64 (i : Int) : u.coerce (.int .u64 i) = .int .u64 i := by cases u <;> rfl
@[simp] theorem coerce_int (i : Int) : u.coerce (.int .int i) = .int .int i := by cases u <;> rfl
@[simp] theorem coerce_clo (f : Nm) (c : List Val) : u.coerce (.clo f c) = .clo f c := by cases u <;> rfl
@[simp] theorem coerce_struct (f : Nm) (c : List (Nm × Val)) : u.coerce (.struct f c) = .struct f c := by cases u <;> rfl
@[simp] theorem coerce_slice (a b c d : Nat) : u.coerce (.slice a b c d) = .slice a b c d := by cases u <;> rfl
@[simp] theorem coerce_err (f : Bytes) (c : List Val) : u.coerce (.err f c) = .err f c := by cases u <;> rfl
end

/-- `a.f = v` -/
theorem store_field {w : W E} {a : Nat} {ty : Nm} {fs : List (Nm × Val)} {f : Nm} {u : Val} (h : w.heap a = .struct ty fs) (hf : fs.lookup f = some u) (v : Val) :
    (storeAt (.ptr a [f]) v : M E Unit) w = some (.ok () { w with heap := upd w.heap a (.struct ty (setField fs f (u.coerce v))) }) := by
  show (match (w.heap a).putPath [f] v with
    | some x => some (Out.ok () { w with heap := upd w.heap a x })
    | none => none) = _
  simp [h, Val.putPath, hf]

/-- `*a = v` -/
theorem store_var {w : W E} {a : Nat} (v : Val) :
    (storeAt (.ptr a []) v : M E Unit) w = some (.ok () { w with heap := upd w.heap a ((w.heap a).coerce v) }) := rfl

theorem upd_apply (h : Nat → Val) (a b : Nat) (v : Val) : upd h a v b = if b = a then v else h b := rfl

theorem upd_upd (h : Nat → Val) (a : Nat) (v v' : Val) : upd (upd h a v) a v' = upd h a v' := by funext b; unfold upd; split <;> rfl

/-- `Base.ComputeFromPriority` (syslog.go:91-97) -/
theorem computeFromPriority_call (hp : X.prog = prog) (n : Nat) (a : Nat) (b : Base) (v : UInt8) (w : W E) (h : HasBase w a b) :
    ∃ w' ty fs c, w.next ≤ c ∧ call X (n + 1) .syslog_Base_ComputeFromPriority [.ptr a [], byteVal v] w = some (.ok (.tuple []) w') ∧
      w.heap a = .struct ty fs ∧
      w'.heap a = .struct ty (setField (setField (setField fs .Priority (.ptr c [])) .Facility (.ptr (c + 1) [])) .Severity (.ptr (c + 2) [])) ∧
      KeepsBut a w w' ∧ HasBase w' a (b.computeFromPriority v) := by
  obtain ⟨ty, fs, h1, h2, h3⟩ := h
  have hv := v.toNat_lt
  have d1 : Kind.wrap .u8 (Kind.wrap .u8 ((v.toNat : Int).tdiv 8)) = ((v / 8).toNat : Int) := by
    simp only [Kind.wrap, UInt8.toNat_div]
    rw [Int.tdiv_eq_ediv_of_nonneg (by omega)]
    have : (8 : UInt8).toNat = 8 := rfl
    rw [this]; omega
  have d2 : Kind.wrap .u8 (Kind.wrap .u8 ((v.toNat : Int).tmod 8)) = ((v % 8).toNat : Int) := by
    simp only [Kind.wrap, UInt8.toNat_mod]
    rw [Int.tmod_eq_emod_of_nonneg (by omega)]
    have : (8 : UInt8).toNat = 8 := rfl
    rw [this]; omega
  obtain ⟨v1, e1, -⟩ := h3.priority
  obtain ⟨v2, e2, -⟩ := h3.facility
  obtain ⟨v3, e3, -⟩ := h3.severity
  obtain ⟨fs', hfs⟩ : ∃ fs', fs' = setField (setField (setField fs .Priority (.ptr w.next [])) .Facility (.ptr (w.next + 1) [])) .Severity (.ptr (w.next + 2) []) := ⟨_, rfl⟩
  obtain ⟨w', hw⟩ : ∃ w' : W E, w' = { w with
      heap := upd (upd (upd (upd w.heap w.next (byteVal v)) (w.next + 1) (byteVal (v / 8))) (w.next + 2) (byteVal (v % 8))) a (.struct ty fs'), next := w.next + 3 } := ⟨_, rfl⟩
  have hk : KeepsBut a w w' := by
    rw [hw]
    refine ⟨fun c hc hn => ?_, by simp, rfl, rfl⟩
    simp only
    rw [upd_ne _ _ hn, upd_ne _ _ (by omega), upd_ne _ _ (by omega), upd_ne _ _ (by omega)]
  have g1 : w'.heap w.next = byteVal v := by rw [hw]; simp only; rw [upd_ne _ _ (by omega), upd_ne _ _ (by omega), upd_ne _ _ (by omega), upd_same]
  have g2 : w'.heap (w.next + 1) = byteVal (v / 8) := by rw [hw]; simp only; rw [upd_ne _ _ (by omega), upd_ne _ _ (by omega), upd_same]
  have g3 : w'.heap (w.next + 2) = byteVal (v % 8) := by rw [hw]; simp only; rw [upd_ne _ _ (by omega), upd_same]
  have hnx : w'.next = w.next + 3 := by rw [hw]
  refine ⟨w', ty, fs, w.next, Nat.le_refl _, ?_, h1, by rw [hw, ← hfs]; simp, hk, ty, fs', by rw [hw]; simp, by omega, ?_⟩
  · rw [call_fn hp prog_syslog_Base_ComputeFromPriority]
    have q1 : ∀ w0 : W E, w0.heap a = .struct ty fs → (storeAt (.ptr a [.Priority]) (.ptr w.next []) : M E Unit) w0 =
      some (.ok () { w0 with heap := upd w0.heap a (.struct ty (setField fs .Priority (.ptr w.next []))) }) := fun w0 h0 => by
        rw [store_field h0 e1]; simp
    have q2 : ∀ w0 : W E, w0.heap a = .struct ty (setField fs .Priority (.ptr w.next [])) → (storeAt (.ptr a [.Facility]) (.ptr (w.next + 1) []) : M E Unit) w0 =
      some (.ok () { w0 with heap := upd w0.heap a (.struct ty (setField (setField fs .Priority (.ptr w.next [])) .Facility (.ptr (w.next + 1) []))) }) := fun w0 h0 => by
        rw [store_field h0 (u := v2) (by rw [lookup_setField, if_neg (by decide)]; exact e2)]; simp
    have q3 : ∀ w0 : W E, w0.heap a = .struct ty (setField (setField fs .Priority (.ptr w.next [])) .Facility (.ptr (w.next + 1) [])) →
      (storeAt (.ptr a [.Severity]) (.ptr (w.next + 2) []) : M E Unit) w0 = some (.ok () { w0 with heap := upd w0.heap a (.struct ty fs') }) := fun w0 h0 => by
        rw [store_field h0 (u := v3) (by rw [lookup_setField, if_neg (by decide), lookup_setField, if_neg (by decide)]; exact e3), hfs]; simp
    have n0 : a ≠ w.next := by omega
    have n1 : w.next ≠ w.next + 1 := by omega
    have n2 : a ≠ w.next + 1 := by omega
    have n3 : a ≠ w.next + 2 := by omega
    simp only [syslog_Base_ComputeFromPriority]
    simp [byteVal, q1, q2, q3, d1, d2, upd_apply, h1, n0, n1, n2, n3, hw, Ne.symm n0, Ne.symm n2, Ne.symm n3]
    funext c
    simp only [upd_apply]
    repeat' split
    all_goals first
      | rfl
      | omega
      | (simp only [Kind.wrap, Val.int.injEq, true_and]; simp; omega)
  · rw [hfs]
    have k := h3.keep hk
    refine ⟨?_, ?_, ?_, ?_, ?_, ?_, ?_, ?_, ?_⟩
    · exact ((k.facility.set .Priority _ (by decide)).put (v / 8) (w.next + 1) [] (by omega) (by omega) (by rw [g2]; rfl)).set .Severity _ (by decide)
    · exact ((k.severity.set .Priority _ (by decide)).set .Facility _ (by decide)).put (v % 8) (w.next + 2) [] (by omega) (by omega) (by rw [g3]; rfl)
    · exact ((k.priority.put v w.next [] (by omega) (by omega) (by rw [g1]; rfl)).set .Facility _ (by decide)).set .Severity _ (by decide)
    all_goals first
      | exact ((k.timestamp.set .Priority _ (by decide)).set .Facility _ (by decide)).set .Severity _ (by decide)
      | exact ((k.hostname.set .Priority _ (by decide)).set .Facility _ (by decide)).set .Severity _ (by decide)
      | exact ((k.appname.set .Priority _ (by decide)).set .Facility _ (by decide)).set .Severity _ (by decide)
      | exact ((k.procID.set .Priority _ (by decide)).set .Facility _ (by decide)).set .Severity _ (by decide)
      | exact ((k.msgID.set .Priority _ (by decide)).set .Facility _ (by decide)).set .Severity _ (by decide)
      | exact ((k.message.set .Priority _ (by decide)).set .Facility _ (by decide)).set .Severity _ (by decide)

/-! ## Texts -/

theorem uint8_forall (P : UInt8 → Prop) (h : ∀ i : Fin 256, P (UInt8.ofNat i.val)) (v : UInt8) : P v := by
  have := h ⟨v.toNat, v.toNat_lt⟩
  simpa using this

/-- the call returns a pointer to a new variable with the text, or nil -/
def TextResult' (f : M E Val) (w w' : W E) : Option String → Prop
  | none => f w = some (.ok .nil w')
  | some t => ∃ c, f w = some (.ok (.ptr c []) w') ∧ w'.heap c = .str (ascii t) ∧ w.next ≤ c ∧ c < w'.next

/-- `TextResult'`, with one new variable -/
def TextResult (f : M E Val) (w : W E) : Option String → Prop
  | none => f w = some (.ok .nil w)
  | some t => f w = some (.ok (.ptr w.next []) { w with heap := upd w.heap w.next (.str (ascii t)), next := w.next + 1 })

theorem TextResult.to {f : M E Val} {w : W E} {t : Option String} (h : TextResult f w t) : ∃ w', TextResult' f w w' t ∧ Keeps w w' := by
  cases t with
  | none => exact ⟨w, h, Keeps.refl w⟩
  | some t => exact ⟨_, ⟨w.next, h, by simp, Nat.le_refl _, by simp⟩, Keeps.alloc _ _⟩

theorem facilityMessages_ok : ∀ v : UInt8, ((Table.Facility.lookup (v.toNat : Int)).getD []) = ascii (Verif.facilityMessages.getD v.toNat "") :=
  uint8_forall _ (by decide +kernel)

/-- `Base.FacilityMessage` (syslog.go:100-107) -/
theorem facilityMessage_call (hp : X.prog = prog) (n : Nat) (a : Nat) (b : Base) (w : W E) (h : HasBase w a b) :
    TextResult (call X (n + 1) .syslog_Base_FacilityMessage [.ptr a []]) w b.facilityMessage := by
  obtain ⟨ty, fs, h1, h2, h3⟩ := h
  obtain ⟨v, h4, h5⟩ := h3.facility
  rw [call_fn hp prog_syslog_Base_FacilityMessage]
  cases hb : b.facility with
  | none =>
    rw [hb] at h5
    have h5 : v = .nil := h5
    subst h5
    simp [TextResult, syslog_Base_FacilityMessage, h1, h4, Base.facilityMessage, hb]
  | some q =>
    rw [hb] at h5
    obtain ⟨c, p, rfl, h6, h7, h8⟩ := h5
    have ht := facilityMessages_ok q
    simp [TextResult, syslog_Base_FacilityMessage, h1, h4, Base.facilityMessage, hb, load_path h8, byteVal, ht]

theorem severityMessages_ok : ∀ v : UInt8, ((Table.SeverityMessages.lookup (v.toNat : Int)).getD []) = ascii (Verif.severityMessages.getD v.toNat "") :=
  uint8_forall _ (by decide +kernel)

/-- `Base.SeverityMessage` (syslog.go:125-132) -/
theorem severityMessage_call (hp : X.prog = prog) (n : Nat) (a : Nat) (b : Base) (w : W E) (h : HasBase w a b) :
    TextResult (call X (n + 1) .syslog_Base_SeverityMessage [.ptr a []]) w b.severityMessage := by
  obtain ⟨ty, fs, h1, h2, h3⟩ := h
  obtain ⟨v, h4, h5⟩ := h3.severity
  rw [call_fn hp prog_syslog_Base_SeverityMessage]
  cases hb : b.severity with
  | none =>
    rw [hb] at h5
    have h5 : v = .nil := h5
    subst h5
    simp [TextResult, syslog_Base_SeverityMessage, h1, h4, Base.severityMessage, hb]
  | some q =>
    rw [hb] at h5
    obtain ⟨c, p, rfl, h6, h7, h8⟩ := h5
    have ht := severityMessages_ok q
    simp [TextResult, syslog_Base_SeverityMessage, h1, h4, Base.severityMessage, hb, load_path h8, byteVal, ht]

theorem severityLevels_ok : ∀ v : UInt8, ((Table.SeverityLevels.lookup (v.toNat : Int)).getD []) = ascii (Verif.severityLevels.getD v.toNat "") :=
  uint8_forall _ (by decide +kernel)

/-- `Base.SeverityLevel` (syslog.go:135-142) -/
theorem severityLevel_call (hp : X.prog = prog) (n : Nat) (a : Nat) (b : Base) (w : W E) (h : HasBase w a b) :
    TextResult (call X (n + 1) .syslog_Base_SeverityLevel [.ptr a []]) w b.severityLevel := by
  obtain ⟨ty, fs, h1, h2, h3⟩ := h
  obtain ⟨v, h4, h5⟩ := h3.severity
  rw [call_fn hp prog_syslog_Base_SeverityLevel]
  cases hb : b.severity with
  | none =>
    rw [hb] at h5
    have h5 : v = .nil := h5
    subst h5
    simp [TextResult, syslog_Base_SeverityLevel, h1, h4, Base.severityLevel, hb]
  | some q =>
    rw [hb] at h5
    obtain ⟨c, p, rfl, h6, h7, h8⟩ := h5
    have ht := severityLevels_ok q
    simp [TextResult, syslog_Base_SeverityLevel, h1, h4, Base.severityLevel, hb, load_path h8, byteVal, ht]

theorem severityLevelsShort_ok : ∀ v : UInt8, ((Table.SeverityLevelsShort.lookup (v.toNat : Int)).getD []) = ascii (Verif.severityLevelsShort.getD v.toNat "") :=
  uint8_forall _ (by decide +kernel)

/-- `Base.SeverityShortLevel` (syslog.go:145-152) -/
theorem severityShortLevel_call (hp : X.prog = prog) (n : Nat) (a : Nat) (b : Base) (w : W E) (h : HasBase w a b) :
    TextResult (call X (n + 1) .syslog_Base_SeverityShortLevel [.ptr a []]) w b.severityShortLevel := by
  obtain ⟨ty, fs, h1, h2, h3⟩ := h
  obtain ⟨v, h4, h5⟩ := h3.severity
  rw [call_fn hp prog_syslog_Base_SeverityShortLevel]
  cases hb : b.severity with
  | none =>
    rw [hb] at h5
    have h5 : v = .nil := h5
    subst h5
    simp [TextResult, syslog_Base_SeverityShortLevel, h1, h4, Base.severityShortLevel, hb]
  | some q =>
    rw [hb] at h5
    obtain ⟨c, p, rfl, h6, h7, h8⟩ := h5
    have ht := severityLevelsShort_ok q
    simp [TextResult, syslog_Base_SeverityShortLevel, h1, h4, Base.severityShortLevel, hb, load_path h8, byteVal, ht]

theorem facilityKeywords_ok : ∀ v : UInt8, Table.FacilityKeywords.lookup (v.toNat : Int) = (Verif.facilityKeywords[v.toNat]?).map ascii :=
  uint8_forall _ (by decide +kernel)

/-- `Base.FacilityLevel` (syslog.go:110-122): the keyword, else the message -/
theorem facilityLevel_call (hp : X.prog = prog) (n : Nat) (a : Nat) (b : Base) (w : W E) (h : HasBase w a b) :
    ∃ w', TextResult' (call X (n + 1) .syslog_Base_FacilityLevel [.ptr a []]) w w' b.facilityLevel ∧ Keeps w w' := by
  obtain ⟨ty, fs, h1, h2, h3⟩ := h
  obtain ⟨v, h4, h5⟩ := h3.facility
  rw [call_fn hp prog_syslog_Base_FacilityLevel]
  cases hb : b.facility with
  | none =>
    rw [hb] at h5
    have h5 : v = .nil := h5
    subst h5
    refine ⟨w, ?_, Keeps.refl w⟩
    simp [TextResult', syslog_Base_FacilityLevel, h1, h4, Base.facilityLevel, hb]
  | some q =>
    rw [hb] at h5
    obtain ⟨c, p, rfl, h6, h7, h8⟩ := h5
    have ht := facilityKeywords_ok q
    have ht2 := facilityMessages_ok q
    have n0 : a ≠ w.next := by omega
    have n1 : c ≠ w.next := by omega
    cases hk : Verif.facilityKeywords[q.toNat]? with
    | some k =>
      rw [hk] at ht
      have hf : b.facilityLevel = some k := by simp [Base.facilityLevel, hb, hk]
      rw [hf]
      refine ⟨_, ?_, Keeps.alloc w (.str (ascii k))⟩
      refine ⟨w.next, ?_, by simp, by simp, by simp⟩
      · simp [syslog_Base_FacilityLevel, h1, h4, Base.facilityLevel, hb, load_path h8, byteVal, ht, hk, upd_apply, n0]
    | none =>
      rw [hk] at ht
      have g : ∀ v, ((upd w.heap w.next v) c).getPath p = some (byteVal q) := fun v => by rw [upd_ne _ _ n1]; exact h8
      have g' : ∀ v, (load (.ptr c p) : M E Val) { w with heap := upd w.heap w.next v, next := w.next + 1 } = some (.ok (byteVal q) { w with heap := upd w.heap w.next v, next := w.next + 1 }) :=
        fun v => load_path (g v)
      have hf : b.facilityLevel = some (Verif.facilityMessages.getD q.toNat "") := by simp [Base.facilityLevel, hb, hk]
      rw [hf]
      refine ⟨_, ?_, Keeps.trans (Keeps.alloc w (.str [])) (Keeps.alloc _ (.str (ascii (Verif.facilityMessages.getD q.toNat ""))))⟩
      refine ⟨w.next + 1, ?_, by simp, by simp, by simp⟩
      · simp [byteVal] at g'
        simp [syslog_Base_FacilityLevel, h1, h4, Base.facilityLevel, hb, load_path h8, byteVal, ht, hk, upd_apply, n0, g', ht2]

end Verif.Mini
