import Verif.Mini.Lines

/-! # The non-transparent framing package: `Parse`, the trailer types, the options, the constructor -/

set_option linter.constructorNameAsVariable false
set_option linter.unusedSimpArgs false

namespace Verif.Mini
open Verif.Gen.Mini
open Verif.NonTransparent (Machine TrailerType ReadErr Driver)

variable {extra : Nat → Nat} {order : List Bytes → List Bytes} {parse5 : List Val → M EN Val} {d : Driver}
variable {MR : NRel} {lo : Nat} {w : W EN} {a mi : Nat} {em : Bool} {pre : List (Val × Val)} {m m' : Machine}

local notation "NB" => ntBase extra order parse5
local notation "NX" => ntX extra order parse5 d

theorem nt_prog : (NX).prog = prog := rfl

theorem u8_ofInt (b : UInt8) : UInt8.ofInt (b.toNat : Int) = b := by
  apply UInt8.toNat_inj.mp
  have := b.toNat_lt
  simp [UInt8.ofInt]
  omega

/-- `machine.Parse` (nontransparent/parser.go:257-260) -/
theorem nparse_call (hP : NParses parse5 MR) (n : Nat) (h : RepN MR lo w a mi em pre m) (hag : Agrees m) (hb : m.candidate.length + w.ext.stream.length < 2 ^ 63) :
    ∃ m' w', m.parse d w.ext.stream w.ext.stop = some m' ∧ call NX (n + 2) .nontransparent_machine_Parse [.ptr a [], .ext (.obj 0)] w = some (.ok (.tuple []) w') ∧
      RepN MR lo w' a mi em pre m' ∧ StepN MR a mi w w' ∧ Same m m' ∧ m'.candidate.length ≤ m.candidate.length + w.ext.stream.length := by
  obtain ⟨c1, c2, c3⟩ := NonTransparent.chunks_spec m.trailer w.ext.stream
  have hlen : w.ext.stream.length = (NonTransparent.chunks m.trailer w.ext.stream).1.flatten.length + (NonTransparent.chunks m.trailer w.ext.stream).2.length := by
    conv => lhs; rw [c1]
    simp
  obtain ⟨m1, w1, q1, q2, q3, q4, q5, q6⟩ := drive_sim (extra := extra) (order := order) hP 3 d w.ext.stop (NonTransparent.chunks m.trailer w.ext.stream).2 (NonTransparent.chunks m.trailer w.ext.stream).1 1 (by omega) h hag c2 c3 (by omega)
  obtain ⟨m2, w2, r1, r2, r3, r4⟩ := onCompletion_call (extra := extra) (order := order) hP 2 q3 (by omega)
  obtain ⟨s1, s2⟩ := onCompletion_same r1
  refine ⟨m2, w2, by simp only [Machine.parse, q1, r1], ?_, r3, q4.trans r4, q5.trans s1, by omega⟩
  have e4 : call NX (n + 1) .ragel_Parse [.tuple [.tuple [.ext (.obj 0), byteVal m.trailer], .ptr a [], .tuple [.int .const 1]]] w = some (.ok (.tuple []) w2) := by
    rw [call_ext (X := NX) (p := prog) rfl prog_ragel_Parse]
    show (M.bind (driveM (call NB 5) d a w.ext.stop (NonTransparent.chunks (UInt8.ofInt (m.trailer.toNat : Int)) w.ext.stream).2 (NonTransparent.chunks (UInt8.ofInt (m.trailer.toNat : Int)) w.ext.stream).1 1) fun _ =>
      call NB 5 .nontransparent_machine_OnCompletion [.ptr a []]) w = _
    rw [u8_ofInt]
    simp only [bind_apply, q2, r2]
  have keep : ∀ f args, (NX).call f = xKeep → prog f = none → call NX (n + 1) f args w = some (.ok (.tuple args) w) := by
    intro f args h1 h2
    rw [call_ext (X := NX) (p := prog) rfl h2, h1]
    rfl
  have k1 := keep .ragel_ArbitraryReader [.ext (.obj 0), byteVal m.trailer] rfl rfl
  have k2 := keep .ragel_WithStart [.int .const 1] rfl rfl
  have k3 := keep .ragel_New [.tuple [.ext (.obj 0), byteVal m.trailer], .ptr a [], .tuple [.int .const 1]] rfl rfl
  obtain ⟨cv, lv, hh, hc, hl⟩ := h.struct
  rw [call_fn (X := NX) (p := prog) rfl prog_nontransparent_machine_Parse]
  simp [nontransparent_machine_Parse, hh, k1, k2, k3, e4]

/-! ## Trailer types -/

def unknownTrailer : Val := .err (ascii "unknown TrailerType") []

theorem errorf_call (n : Nat) (s : Bytes) : call NX (n + 1) .fmt_Errorf [.str s] w = some (.ok (.err s []) w) := by
  rw [call_ext (X := NX) (p := prog) rfl prog_fmt_Errorf]; rfl

/-- the two results of `Value` -/
def valueVals (t : TrailerType) : List Val := match NonTransparent.TrailerType.value t with
  | some b => [.int .int b.toNat, .nil]
  | none => [.int .const (-1), unknownTrailer]

theorem trailer_cases (t : TrailerType) : (t < 0 ∨ t > 1) ∨ t = 0 ∨ t = 1 := by simp only [TrailerType] at *; omega

/-- `TrailerType.Value` (nontransparent/trailer_type.go:30-36) -/
theorem value_call (n : Nat) (t : TrailerType) : call NX (n + 2) .nontransparent_TrailerType_Value [.int .int t] w = some (.ok (.tuple (valueVals t)) w) := by
  rw [call_fn (X := NX) (p := prog) rfl prog_nontransparent_TrailerType_Value]
  rcases trailer_cases t with h | rfl | rfl
  · have hv : valueVals t = [.int .const (-1), unknownTrailer] := by rw [valueVals, NonTransparent.TrailerType.value, if_pos (by exact h)]
    have he := errorf_call (extra := extra) (order := order) (parse5 := parse5) (d := d) (w := w) n (ascii "unknown TrailerType")
    rw [hv]
    rcases h with h | h
    · simp [nontransparent_TrailerType_Value, he, h, unknownTrailer]
    · have h0 : ¬ t < 0 := by simp only [TrailerType] at *; omega
      have h1 : (1 : Int) < t := h
      simp [nontransparent_TrailerType_Value, he, h0, h1, unknownTrailer]
  · rfl
  · rfl

/-- `TrailerType.String` (nontransparent/trailer_type.go:21-27) -/
theorem nstring_call (n : Nat) (t : TrailerType) : call NX (n + 1) .nontransparent_TrailerType_String [.int .int t] w = some (.ok (.str (NonTransparent.TrailerType.string t)) w) := by
  rw [call_fn (X := NX) (p := prog) rfl prog_nontransparent_TrailerType_String]
  rcases trailer_cases t with h | rfl | rfl
  · have hv : NonTransparent.TrailerType.string t = [] := by rw [NonTransparent.TrailerType.string, if_pos (by exact h)]
    rw [hv]
    rcases h with h | h
    · simp [nontransparent_TrailerType_String, h]
    · have h0 : ¬ t < 0 := by simp only [TrailerType] at *; omega
      have h1 : (1 : Int) < t := h
      simp [nontransparent_TrailerType_String, h0, h1]
  · rfl
  · rfl

/-- the two results of `MarshalText` -/
def marshalVals (t : TrailerType) : List Val := match NonTransparent.TrailerType.marshalText t with
  | some s => [.str s, .nil]
  | none => [.nil, unknownTrailer]

/-- `TrailerType.MarshalText` (nontransparent/trailer_type.go:70-76) -/
theorem marshal_call (n : Nat) (t : TrailerType) : call NX (n + 2) .nontransparent_TrailerType_MarshalText [.int .int t] w = some (.ok (.tuple (marshalVals t)) w) := by
  rw [call_fn (X := NX) (p := prog) rfl prog_nontransparent_TrailerType_MarshalText]
  have e1 := nstring_call (extra := extra) (order := order) (parse5 := parse5) (d := d) (w := w) n t
  have he := errorf_call (extra := extra) (order := order) (parse5 := parse5) (d := d) (w := w) n (ascii "unknown TrailerType")
  obtain ⟨s, hs⟩ : ∃ s, s = NonTransparent.TrailerType.string t := ⟨_, rfl⟩
  rw [← hs] at e1
  by_cases h : s = []
  · have hv : marshalVals t = [.nil, unknownTrailer] := by rw [marshalVals, NonTransparent.TrailerType.marshalText, if_neg (by rw [← hs, h]; simp)]
    rw [hv]
    simp [nontransparent_TrailerType_MarshalText, e1, he, h, unknownTrailer]
  · have hv : marshalVals t = [.str s, .nil] := by rw [marshalVals, NonTransparent.TrailerType.marshalText, if_pos (by rw [← hs]; exact h), ← hs]
    rw [hv]
    simp [nontransparent_TrailerType_MarshalText, e1, he, h]

/-- the results of `TrailerTypeFromString` -/
def fromVals (s : Bytes) : List Val :=
  [if (NonTransparent.trailerTypeFromString s).2 then .int .int (NonTransparent.trailerTypeFromString s).1 else .int .const (NonTransparent.trailerTypeFromString s).1,
    if (NonTransparent.trailerTypeFromString s).2 then .nil else unknownTrailer]

/-- `TrailerTypeFromString` (nontransparent/trailer_type.go:39-56) -/
theorem from_call (n : Nat) (s : Bytes) : call NX (n + 2) .nontransparent_TrailerTypeFromString [.str s] w = some (.ok (.tuple (fromVals s)) w) := by
  rw [call_fn (X := NX) (p := prog) rfl prog_nontransparent_TrailerTypeFromString]
  have e1 : call NX (n + 1) .strings_ToUpper [.str s] w = some (.ok (.str (NonTransparent.toUpper s)) w) := by
    rw [call_ext (X := NX) (p := prog) rfl prog_strings_ToUpper]; rfl
  have he := errorf_call (extra := extra) (order := order) (parse5 := parse5) (d := d) (w := w) n (ascii "unknown TrailerType")
  obtain ⟨u, hu⟩ : ∃ u, u = NonTransparent.toUpper s := ⟨_, rfl⟩
  rw [← hu] at e1
  have hf : ∀ r, NonTransparent.trailerTypeFromString s = r → fromVals s = [if r.2 then .int .int r.1 else .int .const r.1, if r.2 then .nil else unknownTrailer] := fun r h => by rw [fromVals, h]
  by_cases h1 : u = ascii "\"LF\""
  · rw [hf (NonTransparent.LF, true) (by rw [NonTransparent.trailerTypeFromString, ← hu, if_pos h1])]
    simp [nontransparent_TrailerTypeFromString, e1, h1]
    rfl
  by_cases h2 : u = ascii "'LF'"
  · rw [hf (NonTransparent.LF, true) (by rw [NonTransparent.trailerTypeFromString, ← hu, if_neg h1, if_pos h2])]
    simp [nontransparent_TrailerTypeFromString, e1, h1, h2]
    rfl
  by_cases h3 : u = ascii "LF"
  · rw [hf (NonTransparent.LF, true) (by rw [NonTransparent.trailerTypeFromString, ← hu, if_neg h1, if_neg h2, if_pos h3])]
    simp [nontransparent_TrailerTypeFromString, e1, h1, h2, h3]
    rfl
  by_cases h4 : u = ascii "\"NUL\""
  · rw [hf (NonTransparent.NUL, true) (by rw [NonTransparent.trailerTypeFromString, ← hu, if_neg h1, if_neg h2, if_neg h3, if_pos h4])]
    simp [nontransparent_TrailerTypeFromString, e1, h1, h2, h3, h4]
    rfl
  by_cases h5 : u = ascii "'NUL'"
  · rw [hf (NonTransparent.NUL, true) (by rw [NonTransparent.trailerTypeFromString, ← hu, if_neg h1, if_neg h2, if_neg h3, if_neg h4, if_pos h5])]
    simp [nontransparent_TrailerTypeFromString, e1, h1, h2, h3, h4, h5]
    rfl
  by_cases h6 : u = ascii "NUL"
  · rw [hf (NonTransparent.NUL, true) (by rw [NonTransparent.trailerTypeFromString, ← hu, if_neg h1, if_neg h2, if_neg h3, if_neg h4, if_neg h5, if_pos h6])]
    simp [nontransparent_TrailerTypeFromString, e1, h1, h2, h3, h4, h5, h6]
    rfl
  rw [hf (-1, false) (by simp [NonTransparent.trailerTypeFromString, ← hu, h1, h2, h3, h4, h5, h6])]
  simp [nontransparent_TrailerTypeFromString, e1, h1, h2, h3, h4, h5, h6, he, unknownTrailer]

/-- `UnmarshalText` (nontransparent/trailer_type.go:64-67) and `UnmarshalTOML` (nontransparent/trailer_type.go:59-61): the variable is set, in any case -/
theorem unmarshal_call (n : Nat) (s : Bytes) {v : TrailerType} {p : Nat} (hp : w.heap p = .int .int v) :
    call NX (n + 3) .nontransparent_TrailerType_UnmarshalText [.ptr p [], .str s] w =
      some (.ok (if (NonTransparent.trailerTypeFromString s).2 then .nil else unknownTrailer) { w with heap := upd w.heap p (.int .int (NonTransparent.trailerTypeFromString s).1) }) := by
  rw [call_fn (X := NX) (p := prog) rfl prog_nontransparent_TrailerType_UnmarshalText]
  have e1 := from_call (extra := extra) (order := order) (parse5 := parse5) (d := d) (w := w) n s
  have e2 : ∀ k i, (k = .int ∨ (k = .const ∧ i = -1)) → (storeAt (.ptr p []) (.int k i) : M EN Unit) w = some (.ok () { w with heap := upd w.heap p (.int .int i) }) := by
    intro k i hk
    show (match (w.heap p).putPath [] (.int k i) with
      | some x => some (Out.ok () { w with heap := upd w.heap p x })
      | none => none) = _
    rw [hp]
    rcases hk with rfl | ⟨rfl, rfl⟩ <;> rfl
  obtain ⟨r, hr⟩ : ∃ r, r = NonTransparent.trailerTypeFromString s := ⟨_, rfl⟩
  rw [← hr]
  simp only [fromVals, ← hr] at e1
  have hb : r.2 = false → r.1 = -1 := by
    rw [hr, NonTransparent.trailerTypeFromString]
    repeat' split
    all_goals simp
  obtain ⟨t, b⟩ := r
  cases b
  · have := e2 .const t (Or.inr ⟨rfl, hb rfl⟩)
    simp [nontransparent_TrailerType_UnmarshalText, e1, this, assignAll, bindOpt]
  · have := e2 .int t (Or.inl rfl)
    simp [nontransparent_TrailerType_UnmarshalText, e1, this, assignAll, bindOpt]

theorem unmarshalTOML_call (n : Nat) (s : Bytes) {v : TrailerType} {p : Nat} (hp : w.heap p = .int .int v) :
    call NX (n + 4) .nontransparent_TrailerType_UnmarshalTOML [.ptr p [], .str s] w =
      some (.ok (if (NonTransparent.trailerTypeFromString s).2 then .nil else unknownTrailer) { w with heap := upd w.heap p (.int .int (NonTransparent.trailerTypeFromString s).1) }) := by
  rw [call_fn (X := NX) (p := prog) rfl prog_nontransparent_TrailerType_UnmarshalTOML]
  have e1 := unmarshal_call (extra := extra) (order := order) (parse5 := parse5) (d := d) n s hp
  simp [nontransparent_TrailerType_UnmarshalTOML, e1]

/-! ## Options and the constructor -/

/-- the options -/
inductive NOpt where
  | listener
  | bestEffort
  | maxLength (n : Int)
  | trailer (t : TrailerType)

/-- the values that the option functions return -/
def NOpt.val : NOpt → Val
  | .listener => .clo .syslog_WithListener_fn [.ext .listener]
  | .bestEffort => .clo .syslog_WithBestEffort_fn []
  | .maxLength n => .clo .syslog_WithMaxMessageLength_fn [.int .int n]
  | .trailer t => .clo .nontransparent_WithTrailer_fn [.int .int t]

/-- the options that the model has -/
def NOpt.model : NOpt → Option NonTransparent.Opt
  | .listener => none
  | .bestEffort => some .bestEffort
  | .maxLength n => some (.maxMessageLength n)
  | .trailer t => some (.trailer t)

def NOpt.ap (m : Machine) (o : NOpt) : Machine := match o.model with
  | none => m
  | some o => NonTransparent.applyOpt m o

def NOpt.listens (b : Bool) : NOpt → Bool
  | .listener => true
  | _ => b

theorem NOpt.val_clo (o : NOpt) : ∃ f caps, o.val = .clo f caps := by cases o <;> exact ⟨_, _, rfl⟩

theorem nopt_call (n : Nat) {cv lv i : Val} (h : w.heap a = ntVal m cv lv (emitVal em) i) (o : NOpt) {f : Nm} {caps : List Val} (hc : o.val = .clo f caps) :
    call NX (n + 3) f (caps ++ [.ptr a []]) w = some (.ok (.ptr a []) { w with heap := upd w.heap a (ntVal (o.ap m) cv lv (emitVal (o.listens em)) i) }) := by
  obtain ⟨-, -, -, s1, s2, s3, s4, -⟩ := nt_store h
  have hs := h
  simp only [ntVal] at hs
  cases o with
  | listener =>
    injection hc with h1 h2; subst h1; subst h2
    refine (opt_call rfl rfl (n + 1) hs).1 _ .nontransparent_machine_WithListener (.tuple []) rfl ?_
    rw [call_fn (X := NX) (p := prog) rfl prog_nontransparent_machine_WithListener]
    have := s2 true
    simp only [emitVal] at this
    simp [nontransparent_machine_WithListener, this, NOpt.listens, NOpt.ap, NOpt.model, emitVal]
  | bestEffort =>
    injection hc with h1 h2; subst h1; subst h2
    refine (opt_call rfl rfl (n + 1) hs).2.1 .nontransparent_machine_WithBestEffort (.tuple []) rfl ?_
    rw [call_fn (X := NX) (p := prog) rfl prog_nontransparent_machine_WithBestEffort]
    simp [nontransparent_machine_WithBestEffort, s1, NOpt.listens, NOpt.ap, NOpt.model, NonTransparent.applyOpt]
  | maxLength k =>
    injection hc with h1 h2; subst h1; subst h2
    refine (opt_call rfl rfl (n + 1) hs).2.2.1 _ .nontransparent_machine_WithMaxMessageLength (.tuple []) rfl ?_
    rw [call_fn (X := NX) (p := prog) rfl prog_nontransparent_machine_WithMaxMessageLength]
    simp [nontransparent_machine_WithMaxMessageLength, NOpt.listens, NOpt.ap, NOpt.model, NonTransparent.applyOpt]
    rw [← h, Mini.upd_self]
  | trailer t =>
    injection hc with h1 h2; subst h1; subst h2
    rw [call_fn (X := NX) (p := prog) rfl prog_nontransparent_WithTrailer_fn]
    have ev := value_call (extra := extra) (order := order) (parse5 := parse5) (d := d) (w := w) n t
    cases hv : NonTransparent.TrailerType.value t with
    | none =>
      simp only [valueVals, hv] at ev
      simp [nontransparent_WithTrailer_fn, ev, assignAll, bindOpt, unknownTrailer, NOpt.listens, NOpt.ap, NOpt.model, NonTransparent.applyOpt, hv]
      rw [← h, Mini.upd_self]
    | some b =>
      simp only [valueVals, hv] at ev
      have s3' := s3 b
      simp only [byteVal] at s3'
      have hw : Kind.wrap .u8 (b.toNat : Int) = b.toNat := by have := b.toNat_lt; simp only [Kind.wrap]; omega
      have s4' := (nt_store (w := { w with heap := upd w.heap a (ntVal { m with trailer := b } cv lv (emitVal em) i) }) (a := a) (m := { m with trailer := b }) (cv := cv) (lv := lv) (e := emitVal em) (i := i) (by simp)).2.2.2.2.2.2.1 t
      simp [nontransparent_WithTrailer_fn, ev, assignAll, bindOpt, NOpt.listens, NOpt.ap, NOpt.model, NonTransparent.applyOpt, hv, hw, s3', s4', Mini.upd_upd]

theorem fold_ap (os : List NOpt) (m : Machine) : os.foldl NOpt.ap m = (os.filterMap NOpt.model).foldl NonTransparent.applyOpt m := by
  induction os generalizing m with
  | nil => rfl
  | cons o os ih => cases o <;> exact ih _

theorem fold_listens (os : List NOpt) (b : Bool) : os.foldl NOpt.listens b = (b || os.any fun o => match o with | .listener => true | _ => false) := by
  induction os generalizing b with
  | nil => simp
  | cons o os ih =>
    simp only [List.foldl_cons, ih, List.any_cons]
    cases o <;> simp [NOpt.listens]

/-- what the options leave alone, and the trailer type -/
theorem fold_kept (os : List NonTransparent.Opt) (m : Machine) (h : NonTransparent.TrailerType.value m.trailertyp ≠ none) :
    (os.foldl NonTransparent.applyOpt m).candidate = m.candidate ∧ (os.foldl NonTransparent.applyOpt m).lastChunk = m.lastChunk ∧ (os.foldl NonTransparent.applyOpt m).out = m.out ∧
      NonTransparent.TrailerType.value (os.foldl NonTransparent.applyOpt m).trailertyp ≠ none := by
  induction os generalizing m with
  | nil => exact ⟨rfl, rfl, rfl, h⟩
  | cons o os ih =>
    rw [List.foldl_cons]
    cases o with
    | bestEffort => exact ih { m with bestEffort := true } h
    | maxMessageLength k => exact ih m h
    | trailer t =>
      simp only [NonTransparent.applyOpt]
      cases hv : NonTransparent.TrailerType.value t with
      | none => exact ih m h
      | some b => exact ih { m with trailer := b, trailertyp := t } (by simp [hv])

theorem agrees_value {m : Machine} {b : UInt8} (h : NonTransparent.TrailerType.value m.trailertyp = some b) (hb : m.trailer = b) : Agrees m := by
  rcases trailer_cases m.trailertyp with h1 | h1 | h1
  · rw [NonTransparent.TrailerType.value, if_pos (by exact h1)] at h; cases h
  · rw [h1] at h; left; exact ⟨h1, by rw [hb]; injection h with h; exact h.symm⟩
  · rw [h1] at h; right; exact ⟨h1, by rw [hb]; injection h with h; exact h.symm⟩

def hasListener (os : List NOpt) : Bool := os.any fun o => match o with | .listener => true | _ => false

/-- `NewParser` (nontransparent/parser.go:198-219) -/
theorem nnewParser_call (n : Nat) {s : Val} {os : List NOpt} (hs : IsSlice w s (os.map NOpt.val)) :
    ∃ w' mi, call NX (n + 5) .nontransparent_NewParser [s] w = some (.ok (.ptr w.next []) w') ∧
      RepN MR w'.next w' w.next mi (hasListener os) w.ext.out (NonTransparent.newParser (os.filterMap NOpt.model)) ∧ w.next < mi ∧ w'.ext = w.ext ∧ Keeps w w' ∧
      Agrees (NonTransparent.newParser (os.filterMap NOpt.model)) ∧ (NonTransparent.newParser (os.filterMap NOpt.model)).candidate = [] ∧ (NonTransparent.newParser (os.filterMap NOpt.model)).out = [] := by
  rw [call_fn (X := NX) (p := prog) rfl prog_nontransparent_NewParser]
  obtain ⟨pv, hpv⟩ : ∃ pv : Machine → Bool → Val, pv = fun m b => ntVal m .nil .nil (emitVal b) .nil := ⟨_, rfl⟩
  obtain ⟨w1, hw1⟩ : ∃ w1 : W EN, w1 = { w with heap := upd w.heap w.next (pv {} false), next := w.next + 1 } := ⟨_, rfl⟩
  have hs1 : IsSlice w1 s (os.map NOpt.val) := hs.upd (by rw [hw1]; exact Nat.le_succ _) (fun c hc => by rw [hw1]; simp [upd_apply, show c ≠ w.next by omega])
  obtain ⟨l2, w2, e, done, rest, h1, h2, h3, h4⟩ := range_exec (X := NX) (calls := call NX (n + 4)) (x := some .opt) (e := .var .options) (body := .assign .m (.callVal (.var .opt) (.cons (.var .m) .unit)))
    (l := (Loc.empty.set .options s).set .m (.ptr w.next [])) (w := w1) (s := s) (vs := os.map NOpt.val)
    (fun vs l w' => ∃ done rest, os = done ++ rest ∧ vs = rest.map NOpt.val ∧ l .m = .ptr w.next [] ∧
      w' = { w with heap := upd w.heap w.next (pv (done.foldl NOpt.ap {}) (done.foldl NOpt.listens false)), next := w.next + 1 }) (by simp) hs1
    ⟨[], os, rfl, rfl, by simp, by rw [hw1]; rfl⟩
    (by
      rintro v rest l w' ⟨done, rest', h1, h2, h3, h4⟩
      cases rest' with
      | nil => simp at h2
      | cons o rest' =>
        simp only [List.map_cons, List.cons.injEq] at h2
        obtain ⟨rfl, rfl⟩ := h2
        have hh : w'.heap w.next = pv (done.foldl NOpt.ap {}) (done.foldl NOpt.listens false) := by rw [h4]; simp
        obtain ⟨f, caps, hc⟩ := o.val_clo
        rw [hpv] at hh
        have := nopt_call (extra := extra) (order := order) (parse5 := parse5) (d := d) (n + 1) hh o hc
        refine ⟨(l.set .opt o.val).set .m (.ptr w.next []), { w with heap := upd w.heap w.next (pv ((done ++ [o]).foldl NOpt.ap {}) ((done ++ [o]).foldl NOpt.listens false)), next := w.next + 1 }, ?_, done ++ [o], rest', by simp [h1], rfl, by simp, rfl⟩
        simp [bindOpt, h3, hc, this]
        rw [h4]
        simp [upd_upd, hpv])
  obtain rfl : rest = [] := by cases rest with
    | nil => rfl
    | cons _ _ => simp at h2
  rw [List.append_nil] at h1
  subst h1
  rw [fold_listens, fold_ap, Bool.false_or] at h4
  obtain ⟨P, hP⟩ : ∃ P : Machine, P = (os.filterMap NOpt.model).foldl NonTransparent.applyOpt {} := ⟨_, rfl⟩
  obtain ⟨kc, kl, ko, kt⟩ := fold_kept (os.filterMap NOpt.model) {} (by decide)
  rw [← hP] at h4 kc kl ko kt
  obtain ⟨tb, htb⟩ := Option.ne_none_iff_exists'.mp kt
  have hnew : NonTransparent.newParser (os.filterMap NOpt.model) = { P with trailer := tb, internal := Rfc5424.newMachine { bestEffort := P.bestEffort } } := by
    rw [NonTransparent.newParser, ← hP]; simp only [htb, Option.getD_some]
  rw [hnew]
  have hagr : Agrees { P with trailer := tb, internal := Rfc5424.newMachine { bestEffort := P.bestEffort } } := agrees_value (b := tb) htb rfl
  obtain ⟨L, hL⟩ : ∃ L : Bool, L = hasListener os := ⟨_, rfl⟩
  have hL' : (os.any fun o => match o with | .listener => true | _ => false) = L := hL.symm
  rw [hL'] at h4
  rw [← hL]
  have hw2 : w2.heap w.next = ntVal P .nil .nil (emitVal L) .nil := by rw [h4, hpv]; simp
  have hnext : w2.next = w.next + 1 := by rw [h4]
  have hext : w2.ext = w.ext := by rw [h4]
  have hglob : w2.glob = w.glob := by rw [h4]
  have hold : ∀ c, c < w.next → w2.heap c = w.heap c := fun c hc => by rw [h4]; simp [upd_apply, show c ≠ w.next by omega]
  -- the trailer
  have ev := value_call (extra := extra) (order := order) (parse5 := parse5) (d := d) (w := w2) (n + 2) P.trailertyp
  simp only [valueVals, htb] at ev
  have hwr : Kind.wrap .u8 (tb.toNat : Int) = tb.toNat := by have := tb.toNat_lt; simp only [Kind.wrap]; omega
  have s3 := (nt_store (w := w2) hw2).2.2.2.2.2.1 tb
  simp only [byteVal] at s3
  obtain ⟨w3, hw3⟩ : ∃ w3 : W EN, w3 = { w2 with heap := upd w2.heap w.next (ntVal { P with trailer := tb } .nil .nil (emitVal L) .nil) } := ⟨_, rfl⟩
  rw [← hw3] at s3
  obtain ⟨l3, hl3⟩ : ∃ l3 : Loc, l3 = l2.set .trailer (.int .int tb.toNat) := ⟨_, rfl⟩
  have hl3m : l3 .m = .ptr w.next [] := by rw [hl3]; simp [h3]
  have e2 : exec NX (call NX (n + 4)) (.multi [some .trailer, none] (.call .nontransparent_TrailerType_Value (.cons (.field (.var .m) .trailertyp) .unit))) l2 w2 = some (.ok (.next, l3) w2) := by
    simp only [ntVal] at hw2
    rw [hl3]
    simp [h3, hw2, ev, assignAll, bindOpt]
  have e3 : exec NX (call NX (n + 4)) (.store (.addr (.var .m) .trailer) (.conv .u8 (.var .trailer))) l3 w2 = some (.ok (.next, l3) w3) := by
    have : l3 .trailer = .int .int tb.toNat := by rw [hl3]; simp
    simp [hl3m, this, hwr, s3]
  have hw3a : w3.heap w.next = ntVal { P with trailer := tb } .nil .nil (emitVal L) .nil := by rw [hw3]; simp
  have n3 : w3.next = w.next + 1 := by rw [hw3]; exact hnext
  have x3 : w3.ext = w.ext := by rw [hw3]; exact hext
  have g3' : w3.glob = w.glob := by rw [hw3]; exact hglob
  have o3 : ∀ c, c < w.next → w3.heap c = w.heap c := fun c hc => by rw [← hold c hc, hw3]; simp [upd_apply, show c ≠ w.next by omega]
  -- the end, for a machine in the variable `mi`
  have fin : ∀ (w4 : W EN) (mi : Nat), w4.heap w.next = w3.heap w.next → w4.heap mi = machVal P.bestEffort false → w.next < mi → mi < w4.next → w4.ext = w.ext → w4.glob = w.glob →
      (∀ c, c < w.next → w4.heap c = w.heap c) →
      ∃ w', (storeAt (.ptr w.next [.internal]) (.ptr mi []) : M EN Unit) w4 = some (.ok () w') ∧
        RepN MR w'.next w' w.next mi L w.ext.out { P with trailer := tb, internal := Rfc5424.newMachine { bestEffort := P.bestEffort } } ∧ w.next < mi ∧ w'.ext = w.ext ∧ Keeps w w' := by
    intro w4 mi g1 g2 g3 g4 g5 g7 g6
    rw [hw3a] at g1
    refine ⟨_, (nt_store (w := w4) g1).2.2.2.2.2.2.2 mi, ⟨⟨.nil, .nil, ?_, ?_, ?_⟩, ?_, by omega, ?_, g4, ?_, g4, ?_⟩, g3, g5, ?_, ?_, g7, g5⟩
    · simp [ntVal]
    · simp [bytesOf, kc]
    · simp [bytesOf, kl]
    · exact isMach_new5 (by simp [upd_apply, show mi ≠ w.next by omega, g2, Rfc5424.newMachine])
    · show w.next < w4.next; omega
    · show w.next < w4.next; omega
    · refine ⟨[], ?_, Nat.le_refl _, fun _ => rfl, fun _ => ?_⟩
      · show w4.ext.out = _
        rw [g5, List.append_nil]
      · simp only [ko]
        exact Nat.le_refl w4.next
    · intro c hc
      show upd w4.heap _ _ c = _
      rw [upd_ne _ _ (by omega)]
      exact g6 c hc
    · show w.next ≤ w4.next; omega
  obtain ⟨w4, mi, e4, g⟩ : ∃ w4 mi, exec NX (call NX (n + 4)) (.ifs (.field (.var .m) .bestEffort) (.store (.addr (.var .m) .internal) (.call .rfc5424_NewMachine (.cons (.sliceLit (.cons (.call .rfc5424_WithBestEffort .unit) .unit)) .unit))) (.store (.addr (.var .m) .internal) (.call .rfc5424_NewMachine (.cons (.sliceLit .unit) .unit)))) l3 w3 = some (.ok (.next, l3) w4) ∧
      RepN MR w4.next w4 w.next mi L w.ext.out { P with trailer := tb, internal := Rfc5424.newMachine { bestEffort := P.bestEffort } } ∧ w.next < mi ∧ w4.ext = w.ext ∧ Keeps w w4 := by
    cases hb : P.bestEffort with
    | true =>
      have ew : call NX (n + 4) .rfc5424_WithBestEffort [] w3 = some (.ok (.clo .rfc5424_WithBestEffort_fn []) w3) := by
        rw [call_fn (X := NX) (p := prog) rfl prog_rfc5424_WithBestEffort]
        simp [rfc5424_WithBestEffort]
      obtain ⟨w5, hw5⟩ : ∃ w5 : W EN, w5 = { w3 with heap := upd w3.heap w3.next (.arr [.clo .rfc5424_WithBestEffort_fn []]), next := w3.next + 1 } := ⟨_, rfl⟩
      have sl : IsSlice w5 (.slice w3.next 0 1 1) ([true].map opt5Val) := Or.inr ⟨_, 0, 1, 1, [.clo .rfc5424_WithBestEffort_fn []], rfl, by rw [hw5]; simp, by rw [hw5]; exact Nat.lt_succ_self _, by simp, by simp, rfl⟩
      have em := newMachine_call (X := NX) rfl rfl (n + 1) w5 sl
      obtain ⟨w6, hw6⟩ : ∃ w6 : W EN, w6 = { w5 with heap := upd w5.heap w5.next (machVal ([true].contains true) ([true].contains false)), next := w5.next + 1 } := ⟨_, rfl⟩
      rw [← hw6] at em
      have n5 : w5.next = w.next + 2 := by rw [hw5]; simp [n3]
      obtain ⟨w', e', g⟩ := fin w6 w5.next (by rw [hw6, hw5]; simp [upd_apply, n3]; intro; omega) (by rw [hw6, hb]; simp) (by omega) (by rw [hw6]; simp) (by rw [hw6, hw5]; exact x3) (by rw [hw6, hw5]; exact g3')
        (fun c hc => by rw [← o3 c hc, hw6, hw5]; simp [upd_apply, n3, show c ≠ w.next + 1 by omega, show c ≠ w.next + 2 by omega])
      rw [hw5] at em e'
      rw [hb] at g
      have hh := hw3a
      simp only [ntVal, hb] at hh
      exact ⟨w', w5.next, by simp [hl3m, hh, ew, em, e'], g⟩
    | false =>
      have sl : IsSlice w3 .nil (([] : List Bool).map opt5Val) := Or.inl ⟨rfl, rfl⟩
      have em := newMachine_call (X := NX) rfl rfl (n + 1) w3 sl
      obtain ⟨w6, hw6⟩ : ∃ w6 : W EN, w6 = { w3 with heap := upd w3.heap w3.next (machVal (([] : List Bool).contains true) (([] : List Bool).contains false)), next := w3.next + 1 } := ⟨_, rfl⟩
      rw [← hw6] at em
      obtain ⟨w', e', g⟩ := fin w6 w3.next (by rw [hw6]; simp [upd_apply, n3]) (by rw [hw6, hb]; simp) (by omega) (by rw [hw6]; simp) (by rw [hw6]; exact x3) (by rw [hw6]; exact g3')
        (fun c hc => by rw [← o3 c hc, hw6]; simp [upd_apply, n3, show c ≠ w.next + 1 by omega])
      rw [hb] at g
      have hh := hw3a
      simp only [ntVal, hb] at hh
      exact ⟨w', w3.next, by simp [hl3m, hh, em, e'], g⟩
  refine ⟨w4, mi, ?_, g.1, g.2.1, g.2.2.1, g.2.2.2, hagr, kc, ko⟩
  have ep : putAll Zero.nontransparent_machine [.emit] [.clo .nontransparent_NewParser_fn []] = some (pv {} false) := by rw [hpv]; rfl
  rw [hw1] at e
  have e1 : exec NX (call NX (n + 4)) (.assign .m (.new (.mk Zero.nontransparent_machine [.emit] (.cons (.clo .nontransparent_NewParser_fn .unit) .unit)))) (Loc.empty.set .options s) w =
      some (.ok (.next, (Loc.empty.set .options s).set .m (.ptr w.next [])) { w with heap := upd w.heap w.next (pv {} false), next := w.next + 1 }) := by
    simp only [bind_apply, pure_apply, exec_assign, eval_new, eval_mk, eval_cons, eval_clo, eval_lit, eval_unit, argsOf_tuple, of_some, ep, alloc_apply]
  have : exec NX (call NX (n + 4)) nontransparent_NewParser.body (Loc.empty.set .options s) w = some (.ok (.ret (.ptr w.next []), l3) w4) :=
    (seq_next e1).trans ((seq_next e).trans ((seq_next e2).trans ((seq_next e3).trans ((seq_next e4).trans (by simp [hl3m])))))
  have hbody : nontransparent_NewParser.params = [.options] := rfl
  simp only [hbody, params_cons, params_nil, Option.map_some, of_some, bind_apply, pure_apply, this]

/-- `HasBestEffort` (nontransparent/parser.go:225-227) -/
theorem nhasBestEffort_call (n : Nat) (h : RepN MR lo w a mi em pre m) : call NX (n + 1) .nontransparent_machine_HasBestEffort [.ptr a []] w = some (.ok (.bool m.bestEffort) w) := by
  obtain ⟨cv, lv, hh, hc, hl⟩ := h.struct
  rw [call_fn (X := NX) (p := prog) rfl prog_nontransparent_machine_HasBestEffort]
  simp [nontransparent_machine_HasBestEffort, hh]

/-! ## Messages as values -/

/-- what is returned is the message itself -/
def valRelN : NRel := ⟨fun _ _ _ v m => v = msgVal m, False, fun h _ _ _ => h, fun h _ => h⟩

theorem nparses_values (hP : ParseOk kit5 (NB)) : NParses parse5 valRelN := by
  intro w mi o input hm _
  obtain ⟨msg, e, w', h1, h2, h3, h4, h5, h6⟩ := hP w mi o input hm
  have hr := Rfc5424.parse1_eq o input
  simp only [kit5, hr, Option.map_some, Option.some.injEq, Prod.mk.injEq] at h1
  obtain ⟨rfl, rfl⟩ := h1
  exact ⟨_, _, w', hr, h2, h3, h4, h5, h6, nofun, rfl⟩

theorem OutL.values {hi : Nat} : ∀ {vs : List (Val × Val)} {rs : List NonTransparent.Result} {lo : Nat}, OutL valRelN hi w lo vs rs → vs = rs.map nresVal
  | [], [], _, _ => rfl
  | (v, e) :: vs, r :: rs, _, ⟨_, _, h1, h2, h3⟩ => by
    have h1 : v = msgVal r.msg := h1
    have h2 : e = nerrVal r.err := h2
    rw [h1, h2, h3.values]; rfl
  | [], _ :: _, _, h => h.elim
  | _ :: _, [], _, h => h.elim

theorem Got.values {hi : Nat} {rs : List NonTransparent.Result} (h : Got valRelN lo hi w em pre rs) : w.ext.out = pre ++ if em then rs.map nresVal else [] := by
  obtain ⟨vs, h1, _, h2, h3⟩ := h
  rw [h1]
  cases em with
  | false => rw [h2 rfl]; rfl
  | true => rw [(h3 rfl).values]; rfl

end Verif.Mini
