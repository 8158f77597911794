import Verif.Mini.Export

/-!
# Functional options, run symbolically

`for _, opt := range options { p = opt(p) }` and the methods that the options call through an interface.
-/

set_option linter.constructorNameAsVariable false
set_option linter.unusedSimpArgs false

namespace Verif.Mini
open Verif.Gen.Mini

variable {E : Type}

@[simp] theorem typeOf_ptr {w : W E} {a : Nat} {ty : Nm} {fs : List (Nm × Val)} (h : w.heap a = .struct ty fs) : (typeOf (.ptr a []) : M E Nm) w = some (.ok ty w) := by
  show (M.bind (load (.ptr a [])) fun u => match u with
    | .struct ty _ => M.pure ty
    | _ => M.stuck) w = _
  simp [h]

/-- rounds that keep an invariant -/
theorem range_inv {x : Option Nm} {body : Loc → M E (Ctl × Loc)} (P : List Val → Loc → W E → Prop) :
    ∀ (es : List (Val × Val)) (l : Loc) (w : W E), P (es.map Prod.snd) l w →
      (∀ v rest l w, P (v :: rest) l w → ∃ l' w', body (bindOpt l x v) w = some (.ok (.next, l') w') ∧ P rest l' w') →
      ∃ l' w', rangeLoop none x body es l w = some (.ok (.next, l') w') ∧ P [] l' w' := by
  intro es
  induction es with
  | nil => intro l w h _; exact ⟨l, w, rfl, h⟩
  | cons e es ih =>
    intro l w h hb
    obtain ⟨l1, w1, e1, h1⟩ := hb e.2 _ l w h
    obtain ⟨l2, w2, e2, h2⟩ := ih l1 w1 h1 hb
    refine ⟨l2, w2, ?_, h2⟩
    simp only [rangeLoop, bind_apply]
    rw [show bindOpt l none e.1 = l from rfl, e1]
    exact e2

theorem items_snd (vs : List Val) : (items vs).map Prod.snd = vs := by
  simp [items, List.map_snd_zip]

/-- `for _, x := range s { body }` over the slice `s` -/
theorem range_exec {X : Env0 E} {calls : Nm → List Val → M E Val} {x : Option Nm} {e : Expr} {body : Stmt} {l : Loc} {w : W E} {s : Val} {vs : List Val}
    (P : List Val → Loc → W E → Prop) (he : eval X calls l e w = some (.ok s w)) (hs : IsSlice w s vs) (h0 : P vs l w)
    (hb : ∀ v rest l w, P (v :: rest) l w → ∃ l' w', exec X calls body (bindOpt l x v) w = some (.ok (.next, l') w') ∧ P rest l' w') :
    ∃ l' w', exec X calls (.range none x e body) l w = some (.ok (.next, l') w') ∧ P [] l' w' := by
  obtain ⟨l', w', e1, h1⟩ := range_inv P (items vs) l w (by rw [items_snd]; exact h0) hb
  refine ⟨l', w', ?_, h1⟩
  rw [exec_range]
  simp only [bind_apply, he, hs.items]
  rw [← List.range_eq_range']
  exact e1

/-! ## The options of package `syslog` (options.go:4-27) -/

/-- an option of package `syslog` for the type `ty` calls the method `g` -/
theorem opt_call {X : Env0 E} (hp : X.prog = prog) (hm : X.meth = meth) (n : Nat) {w w' : W E} {a : Nat} {ty : Nm} {fs : List (Nm × Val)} (ha : w.heap a = .struct ty fs) :
    (∀ f g r, meth ty .WithListener = some g → call X (n + 1) g [.ptr a [], f] w = some (.ok r w') →
      call X (n + 2) .syslog_WithListener_fn [f, .ptr a []] w = some (.ok (.ptr a []) w')) ∧
    (∀ g r, meth ty .WithBestEffort = some g → call X (n + 1) g [.ptr a []] w = some (.ok r w') →
      call X (n + 2) .syslog_WithBestEffort_fn [.ptr a []] w = some (.ok (.ptr a []) w')) ∧
    (∀ m g r, meth ty .WithMaxMessageLength = some g → call X (n + 1) g [.ptr a [], m] w = some (.ok r w') →
      call X (n + 2) .syslog_WithMaxMessageLength_fn [m, .ptr a []] w = some (.ok (.ptr a []) w')) ∧
    (∀ g r, meth ty .WithBestEffort = some g → call X (n + 1) g [.ptr a []] w = some (.ok r w') →
      call X (n + 2) .rfc5424_WithBestEffort_fn [.ptr a []] w = some (.ok (.ptr a []) w')) := by
  refine ⟨fun f g r hg e => ?_, fun g r hg e => ?_, fun m g r hg e => ?_, fun g r hg e => ?_⟩
  · rw [call_fn hp prog_syslog_WithListener_fn]
    simp [syslog_WithListener_fn, typeOf_ptr ha, hm, hg, e]
  · rw [call_fn hp prog_syslog_WithBestEffort_fn]
    simp [syslog_WithBestEffort_fn, typeOf_ptr ha, hm, hg, e]
  · rw [call_fn hp prog_syslog_WithMaxMessageLength_fn]
    simp [syslog_WithMaxMessageLength_fn, typeOf_ptr ha, hm, hg, e]
  · rw [call_fn hp prog_rfc5424_WithBestEffort_fn]
    simp [rfc5424_WithBestEffort_fn, typeOf_ptr ha, hm, hg, e]

/-! ## `rfc5424.NewMachine` (rfc5424/machine.go:71-79) -/

/-- a new machine with these options -/
def machVal (be co : Bool) : Val :=
  .struct .rfc5424_machine [(.data, .nil), (.cs, .int .int 0), (.p, .int .int 0), (.pe, .int .int 0), (.eof, .int .int 0), (.pb, .int .int 0), (.err, .nil), (.currentelem, .str []), (.currentparam, .str []), (.msgat, .int .int 0), (.backslashat, .nil), (.bestEffort, .bool be), (.compliantMsg, .bool co)]

/-- the options of package `rfc5424`: `WithBestEffort()` or `WithCompliantMsg()` -/
def opt5Val : Bool → Val
  | true => .clo .rfc5424_WithBestEffort_fn []
  | false => .clo .rfc5424_WithCompliantMsg_fn []

theorem IsSlice.upd {w : W E} {v : Val} {vs : List Val} (h : IsSlice w v vs) {w' : W E} (hn : w.next ≤ w'.next) (hh : ∀ c, c < w.next → w'.heap c = w.heap c) : IsSlice w' v vs := by
  rcases h with h | ⟨a, off, len, cap, arr, rfl, h1, h2, h3, h4, rfl⟩
  · exact Or.inl h
  · exact Or.inr ⟨a, off, len, cap, arr, rfl, by rw [hh a h2, h1], by omega, h3, h4, rfl⟩

theorem mach_store {w : W E} {a : Nat} {be co : Bool} (h : w.heap a = machVal be co) (b : Bool) :
    (storeAt (.ptr a [.bestEffort]) (.bool b) : M E Unit) w = some (.ok () { w with heap := Mini.upd w.heap a (machVal b co) }) ∧
    (storeAt (.ptr a [.compliantMsg]) (.bool b) : M E Unit) w = some (.ok () { w with heap := Mini.upd w.heap a (machVal be b) }) := by
  constructor
  · show (match (w.heap a).putPath [.bestEffort] (.bool b) with
      | some x => some (Out.ok () { w with heap := Mini.upd w.heap a x })
      | none => none) = _
    simp [h, machVal, Val.putPath, setField]
  · show (match (w.heap a).putPath [.compliantMsg] (.bool b) with
      | some x => some (Out.ok () { w with heap := Mini.upd w.heap a x })
      | none => none) = _
    simp [h, machVal, Val.putPath, setField]

theorem opt5_call {X : Env0 E} (hp : X.prog = prog) (hm : X.meth = meth) (n : Nat) {w : W E} {a : Nat} {be co : Bool} (h : w.heap a = machVal be co) (o : Bool) :
    eval X (call X (n + 2)) l (.callVal (.lit (opt5Val o)) (.cons (.lit (.ptr a [])) .unit)) w = some (.ok (.ptr a []) { w with heap := Mini.upd w.heap a (machVal (be || o) (co || !o)) }) := by
  cases o with
  | true =>
    have e1 : call X (n + 1) .rfc5424_machine_WithBestEffort [.ptr a []] w = some (.ok (.tuple []) { w with heap := Mini.upd w.heap a (machVal true co) }) := by
      rw [call_fn hp prog_rfc5424_machine_WithBestEffort]
      simp [rfc5424_machine_WithBestEffort, (mach_store h true).1]
    have := (opt_call hp hm n h).2.2.2 _ _ rfl e1
    simp [opt5Val, this]
  | false =>
    have : call X (n + 2) .rfc5424_WithCompliantMsg_fn [.ptr a []] w = some (.ok (.ptr a []) { w with heap := Mini.upd w.heap a (machVal be true) }) := by
      rw [call_fn hp prog_rfc5424_WithCompliantMsg_fn]
      simp [rfc5424_WithCompliantMsg_fn, (mach_store h true).2]
    simp [opt5Val, this]

/-- `NewMachine` (rfc5424/machine.go:71-79) -/
theorem newMachine_call {X : Env0 E} (hp : X.prog = prog) (hm : X.meth = meth) (n : Nat) (w : W E) {s : Val} {os : List Bool} (hs : IsSlice w s (os.map opt5Val)) :
    call X (n + 3) .rfc5424_NewMachine [s] w = some (.ok (.ptr w.next [])
      { w with heap := Mini.upd w.heap w.next (machVal (os.contains true) (os.contains false)), next := w.next + 1 }) := by
  rw [call_fn hp prog_rfc5424_NewMachine]
  obtain ⟨w1, hw1⟩ : ∃ w1 : W E, w1 = { w with heap := Mini.upd w.heap w.next Zero.rfc5424_machine, next := w.next + 1 } := ⟨_, rfl⟩
  have hs1 : IsSlice w1 s (os.map opt5Val) := hs.upd (by rw [hw1]; exact Nat.le_succ _) (fun c hc => by rw [hw1]; simp [Mini.upd, show c ≠ w.next by omega])
  obtain ⟨l', w', e, done, rest, h1, h2, h3, h4⟩ := range_exec (X := X) (calls := call X (n + 2)) (x := some .opt) (e := .var .options) (body := .expr (.callVal (.var .opt) (.cons (.var .m) .unit)))
    (l := (Loc.empty.set .options s).set .m (.ptr w.next [])) (w := w1) (s := s) (vs := os.map opt5Val)
    (fun vs l w' => ∃ done rest, os = done ++ rest ∧ vs = rest.map opt5Val ∧ l .m = .ptr w.next [] ∧
      w' = { w with heap := Mini.upd w.heap w.next (machVal (done.contains true) (done.contains false)), next := w.next + 1 }) (by simp) hs1
    ⟨[], os, rfl, rfl, by simp, by rw [hw1]; rfl⟩
    (by
      rintro v rest l w' ⟨done, rest', h1, h2, h3, h4⟩
      cases rest' with
      | nil => simp at h2
      | cons o rest' =>
        simp only [List.map_cons, List.cons.injEq] at h2
        obtain ⟨rfl, rfl⟩ := h2
        have hh : w'.heap w.next = machVal (done.contains true) (done.contains false) := by rw [h4]; simp
        have := opt5_call (l := l) hp hm n hh o
        refine ⟨l.set .opt (opt5Val o), { w with heap := Mini.upd w.heap w.next (machVal ((done ++ [o]).contains true) ((done ++ [o]).contains false)), next := w.next + 1 }, ?_, done ++ [o], rest', by simp [h1], rfl, by simp [h3], rfl⟩
        simp only [eval_callVal, eval_lit, eval_cons, eval_unit, bind_apply, of_some, argsOf_tuple, pure_apply] at this
        simp only [exec_expr, eval_callVal, eval_var, eval_cons, eval_unit, bind_apply, of_some, argsOf_tuple, pure_apply, bindOpt, set_apply, h3, if_true, show (Nm.m = Nm.opt) = False by simp, if_false, this]
        rw [h4]
        simp only [upd_upd]
        have e1 : (done ++ [o]).contains true = (done.contains true || o) := by cases o <;> simp
        have e2 : (done ++ [o]).contains false = (done.contains false || !o) := by cases o <;> simp
        rw [e1, e2])
  obtain rfl : rest = [] := by cases rest with
    | nil => rfl
    | cons _ _ => simp at h2
  rw [List.append_nil] at h1
  subst h1
  rw [hw1] at e
  simp [rfc5424_NewMachine, e, h3, h4]

end Verif.Mini
