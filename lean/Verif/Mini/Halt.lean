import Verif.Mini.Cut

/-!
# Functions of other packages that panic

A call is compared with the same call where functions of other packages behave in another way, for any way to compare that goes through the statements. With it: an
execution in which functions of other packages may panic is the execution in which they do not, up to the panic; and no panic is swallowed.
-/

set_option linter.constructorNameAsVariable false

namespace Verif.Mini
open Verif.Gen.Mini

variable {E R α β : Type}

/-- a panic comes after it, in any case -/
def panicAfter (m : M E α) : M E α := fun w => (m w).map fun o => .panic o.world

/-- a way to compare executions that goes through the statements -/
structure Closed (Rel : ∀ {α : Type}, M E α → M E α → Prop) : Prop where
  quiet : ∀ {α : Type} {m : M E α}, Quiet m → Rel m m
  bind : ∀ {α β : Type} {m m' : M E α} {f f' : α → M E β}, Rel m m' → (∀ a, Rel (f a) (f' a)) → Rel (M.bind m f) (M.bind m' f')
  loop : ∀ {step step' : Loc → M E (Ctl × Loc × Bool)}, (∀ l, Rel (step l) (step' l)) → ∀ l, Rel (fun w => forLoop step l w) (fun w => forLoop step' l w)

/-- it goes through a deferred `Unlock` -/
def Defers (Rel : ∀ {α : Type}, M E α → M E α → Prop) (X X' : Env0 E) (calls calls' : Nm → List Val → M E Val) : Prop :=
  ∀ e rest l, unlocks e = true → Rel (exec X calls rest l) (exec X' calls' rest l) → Rel (exec X calls (.deferd e rest) l) (exec X' calls' (.deferd e rest) l)

section
variable {Rel : ∀ {α : Type}, M E α → M E α → Prop} (C : Closed (fun {α} => @Rel α))
include C

theorem bind_rel' {m : M E α} {f f' : α → M E β} (h : Quiet m) (hf : ∀ a, Rel (f a) (f' a)) : Rel (M.bind m f) (M.bind m f') := C.bind (C.quiet h) hf

theorem bool_rel {m m' n n' : M E α} (h1 : Rel m m') (h2 : Rel n n') (t : Bool) : Rel (if t then n else m) (if t then n' else m') := by
  cases t
  · exact h1
  · exact h2

/-- the environments differ only in that functions of other packages may panic in the second -/
structure RelEnv (Rel : ∀ {α : Type}, M E α → M E α → Prop) (X X' : Env0 E) : Prop where
  extra : X'.extra = X.extra
  order : X'.order = X.order
  meth : X'.meth = X.meth
  prog : X'.prog = X.prog
  call : ∀ f args, Rel (X.call f args) (X'.call f args)

section
variable {X X' : Env0 E} (hX : RelEnv Rel X X') {calls calls' : Nm → List Val → M E Val} (hc : ∀ f args, Rel (calls f args) (calls' f args))
include hX hc

theorem eval_rel (l : Loc) (e : Expr) : Rel (eval X calls l e) (eval X' calls' l e) := by
  induction e with
  | lit v => exact (C.quiet (pure_quiet _))
  | var x => exact (C.quiet (pure_quiet _))
  | glob x => exact C.quiet fun _ _ h => here h rfl
  | field e f ih => exact C.bind ih fun v => (C.quiet (field_quiet f v))
  | deref e ih => exact C.bind ih fun _ => (C.quiet (load_quiet _))
  | addr e f ih =>
    refine C.bind ih fun v => C.quiet ?_
    split
    · exact pure_quiet _
    · exact panic_quiet
    · exact stuck_quiet
  | new e ih => exact C.bind ih fun _ => (C.quiet (bind_quiet (alloc_quiet _) fun _ => pure_quiet _))
  | mk z fs args ih => exact C.bind ih fun _ => (C.quiet (bind_quiet (of_quiet _) fun _ => of_quiet _))
  | index e i ih1 ih2 => exact C.bind ih1 fun _ => C.bind ih2 fun _ => (C.quiet (indexVal_quiet _ _))
  | indexOk e i ih1 ih2 => exact C.bind ih1 fun _ => C.bind ih2 fun _ => (C.quiet (indexOkVal_quiet _ _))
  | sub e lo hi ih1 ih2 ih3 => exact C.bind ih1 fun _ => C.bind ih2 fun _ => C.bind ih3 fun _ => (C.quiet (subVal_quiet _ _ _))
  | len e ih => exact C.bind ih fun _ => (C.quiet (lenVal_quiet _))
  | bin o a b ih1 ih2 => exact C.bind ih1 fun _ => C.bind ih2 fun _ => (C.quiet (of_quiet _))
  | and a b ih1 ih2 => exact C.bind ih1 fun _ => bind_rel' C (truth_quiet _) (bool_rel C (C.quiet (pure_quiet _)) ih2)
  | or a b ih1 ih2 => exact C.bind ih1 fun _ => bind_rel' C (truth_quiet _) (bool_rel C ih2 (C.quiet (pure_quiet _)))
  | not a ih => exact C.bind ih fun _ => (C.quiet (bind_quiet (truth_quiet _) fun _ => pure_quiet _))
  | conv k e ih => exact C.bind ih fun _ => (C.quiet (convVal_quiet _ _))
  | toStr e ih => exact C.bind ih fun _ => (C.quiet (toStrVal_quiet _))
  | toBytes e ih => exact C.bind ih fun _ => (C.quiet (toStrVal_quiet _))
  | byteLit args ih => exact C.bind ih fun _ => (C.quiet (bind_quiet (of_quiet _) fun _ => bind_quiet (of_quiet _) fun _ => pure_quiet _))
  | sliceLit args ih =>
    refine C.bind ih fun _ => (C.quiet (bind_quiet (of_quiet _) fun _ => ?_))
    split
    · exact pure_quiet _
    · exact bind_quiet (alloc_quiet _) fun _ => pure_quiet _
  | makeBytes n ih =>
    refine C.bind ih fun v => C.quiet ?_
    split
    · split
      · exact panic_quiet
      · exact bind_quiet (alloc_quiet _) fun _ => pure_quiet _
    · exact stuck_quiet
  | append a b ih1 ih2 => exact C.bind ih1 fun _ => C.bind ih2 fun _ => by rw [hX.extra]; exact (C.quiet (appendVals_quiet _ _ _))
  | appendAll a b ih1 ih2 => exact C.bind ih1 fun _ => C.bind ih2 fun _ => by rw [hX.extra]; exact (C.quiet (bind_quiet (elems_quiet _) fun _ => appendVals_quiet _ _ _))
  | unit => exact (C.quiet (pure_quiet _))
  | cons a b ih1 ih2 => exact C.bind ih1 fun _ => C.bind ih2 fun _ => (C.quiet (bind_quiet (of_quiet _) fun _ => pure_quiet _))
  | call f args ih => exact C.bind ih fun _ => bind_rel' C (of_quiet _) fun vs => hc f vs
  | dyn e f args ih1 ih2 => exact C.bind ih1 fun r => C.bind ih2 fun _ => bind_rel' C (of_quiet _) fun vs => bind_rel' C (typeOf_quiet _) fun ty => by rw [hX.meth]; exact bind_rel' C (of_quiet _) fun g => hc g (r :: vs)
  | callVal e args ih1 ih2 =>
    refine C.bind ih1 fun c => C.bind ih2 fun _ => bind_rel' C (of_quiet _) fun vs => ?_
    cases c with
    | clo f caps => exact hc f _
    | ext x => cases x with
      | listener => exact hc _ _
      | _ => exact (C.quiet stuck_quiet)
    | nil => exact (C.quiet panic_quiet)
    | _ => exact (C.quiet stuck_quiet)
  | clo f caps ih => exact C.bind ih fun _ => (C.quiet (bind_quiet (of_quiet _) fun _ => pure_quiet _))

omit hX hc in
theorem rangeLoop_rel {i v : Option Nm} {body body' : Loc → M E (Ctl × Loc)} (h : ∀ l, Rel (body l) (body' l)) : ∀ (es : List (Val × Val)) (l : Loc), Rel (rangeLoop i v body es l) (rangeLoop i v body' es l)
  | [], _ => (C.quiet (pure_quiet _))
  | e :: es, l => by
    refine C.bind (h _) fun r => ?_
    obtain ⟨c, l'⟩ := r
    cases c with
    | next => exact rangeLoop_rel h es l'
    | brk => exact (C.quiet (pure_quiet _))
    | ret x => exact (C.quiet (pure_quiet _))

end

section
variable {X X' : Env0 E} (hX : RelEnv Rel X X') {calls calls' : Nm → List Val → M E Val} (hc : ∀ f args, Rel (calls f args) (calls' f args))
  (hd : Defers (fun {α} => @Rel α) X X' calls calls')
include hX hc hd

theorem exec_rel (s : Stmt) : Plain s = true → ∀ l, Rel (exec X calls s l) (exec X' calls' s l) := by
  have he := fun l e => eval_rel C hX hc l e
  induction s with
  | skip => exact fun _ l => (C.quiet (pure_quiet _))
  | seq a b ih1 ih2 =>
    intro hp l
    rw [Plain, Bool.and_eq_true] at hp
    refine C.bind (ih1 hp.1 l) fun r => ?_
    obtain ⟨c, l'⟩ := r
    cases c with
    | next => exact ih2 hp.2 l'
    | brk => exact (C.quiet (pure_quiet _))
    | ret x => exact (C.quiet (pure_quiet _))
  | assign x e => exact fun _ l => C.bind (he l e) fun _ => (C.quiet (pure_quiet _))
  | store p e => exact fun _ l => C.bind (he l p) fun _ => C.bind (he l e) fun _ => (C.quiet (bind_quiet (storeAt_quiet _ _) fun _ => pure_quiet _))
  | setGlob x e => exact fun _ l => C.bind (he l e) fun _ => C.quiet fun _ _ h => here h rfl
  | setIdx a i e =>
    refine fun _ l => C.bind (he l a) fun _ => C.bind (he l i) fun _ => C.bind (he l e) fun _ => C.quiet ?_
    split
    · split
      · exact bind_quiet (writeArr_quiet _ _ _) fun _ => pure_quiet _
      · exact panic_quiet
    · exact stuck_quiet
  | multi xs e => exact fun _ l => C.bind (he l e) fun _ => (C.quiet (bind_quiet (of_quiet _) fun _ => bind_quiet (of_quiet _) fun _ => pure_quiet _))
  | expr e => exact fun _ l => C.bind (he l e) fun _ => (C.quiet (pure_quiet _))
  | ifs c a b ih1 ih2 =>
    intro hp l
    rw [Plain, Bool.and_eq_true] at hp
    exact C.bind (he l c) fun _ => bind_rel' C (truth_quiet _) (bool_rel C (ih2 hp.2 l) (ih1 hp.1 l))
  | forc c post body ih1 ih2 =>
    intro hp l
    rw [Plain, Bool.and_eq_true] at hp
    refine C.loop (fun l => C.bind (he l c) fun _ => bind_rel' C (truth_quiet _) fun t => ?_) l
    cases t with
    | false => exact (C.quiet (pure_quiet _))
    | true =>
      refine C.bind (ih2 hp.2 l) fun r => ?_
      obtain ⟨c, l'⟩ := r
      cases c with
      | next => exact C.bind (ih1 hp.1 l') fun _ => (C.quiet (pure_quiet _))
      | brk => exact (C.quiet (pure_quiet _))
      | ret x => exact (C.quiet (pure_quiet _))
  | range i v e body ih => exact fun hp l => C.bind (he l e) fun _ => by rw [hX.order]; exact bind_rel' C (rangeItems_quiet _ _) fun es => rangeLoop_rel C (ih hp) es l
  | brk => exact fun _ l => (C.quiet (pure_quiet _))
  | ret e => exact fun _ l => C.bind (he l e) fun _ => (C.quiet (pure_quiet _))
  | deferd e rest ih =>
    intro hp l
    rw [Plain, Bool.and_eq_true] at hp
    exact hd e rest l hp.1 (ih hp.2 l)

end

/-- calls of the program -/
theorem call_rel {X X' : Env0 E} (hX : RelEnv Rel X X') (hp : ∀ f fn, X.prog f = some fn → Plain fn.body = true)
    (hd : ∀ n, (∀ f args, Rel (call X n f args) (call X' n f args)) → Defers (fun {α} => @Rel α) X X' (call X n) (call X' n)) : ∀ (n : Nat) (f : Nm) (args : List Val), Rel (call X n f args) (call X' n f args)
  | 0, _, _ => (C.quiet stuck_quiet)
  | n + 1, f, args => by
    have hc : ∀ (X : Env0 E) (n : Nat) f args, call X (n + 1) f args = match X.prog f with
      | none => X.call f args
      | some fn => M.bind (M.of (params fn.params args)) fun l => M.bind (exec X (call X n) fn.body l) fun r =>
        match r.1 with
        | .ret v => M.pure v
        | .next => M.pure (.tuple [])
        | .brk => M.stuck := fun _ _ _ _ => rfl
    rw [hc, hc, hX.prog]
    cases hf : X.prog f with
    | none => exact hX.call f args
    | some fn =>
      refine bind_rel' C (of_quiet _) fun l => C.bind (exec_rel C hX (fun f args => call_rel hX hp hd n f args) (hd n fun f args => call_rel hX hp hd n f args) fn.body (hp f fn hf) l) fun r => C.quiet ?_
      obtain ⟨c, l'⟩ := r
      cases c with
      | next => exact pure_quiet _
      | brk => exact stuck_quiet
      | ret x => exact pure_quiet _

end

/-! ## A panic in between -/

section
variable (out : E → List R)

/-- `m'` is `m`, but may end with a panic; what is passed on until then comes first of what `m` passes on -/
def Halts (m m' : M E α) : Prop := ∀ w o, m w = some o → ∃ es, out o.world.ext = out w.ext ++ es ∧
  (m' w = some o ∨ ∃ g w', g <+: es ∧ m' w = some (.panic w') ∧ out w'.ext = out w.ext ++ g)

variable {out}

theorem Quiet.halts {m : M E α} (h : Quiet m) : Halts out m m := fun w o e => ⟨[], by rw [h w o e, List.append_nil], Or.inl e⟩

theorem bind_halts {m m' : M E α} {f f' : α → M E β} (h : Halts out m m') (hf : ∀ a, Halts out (f a) (f' a)) : Halts out (M.bind m f) (M.bind m' f') := by
  intro w o ho
  rw [M.bind] at ho
  cases hm : m w with
  | none => rw [hm] at ho; cases ho
  | some o1 =>
    rw [hm] at ho
    obtain ⟨es, h1, h2⟩ := h w o1 hm
    cases o1 with
    | panic w1 =>
      injection ho with ho
      subst ho
      refine ⟨es, h1, ?_⟩
      rcases h2 with h2 | ⟨g, w', e1, e2, e3⟩
      · left; rw [M.bind, h2]
      · exact Or.inr ⟨g, w', e1, by rw [M.bind, e2], e3⟩
    | ok a w1 =>
      obtain ⟨es2, h3, h4⟩ := hf a w1 o ho
      have h1' : out w1.ext = out w.ext ++ es := h1
      refine ⟨es ++ es2, by rw [h3, h1', List.append_assoc], ?_⟩
      rcases h2 with h2 | ⟨g, w', e1, e2, e3⟩
      · rcases h4 with h4 | ⟨g, w', e1, e2, e3⟩
        · left; rw [M.bind, h2]; exact h4
        · exact Or.inr ⟨es ++ g, w', (List.prefix_append_right_inj es).mpr e1, by rw [M.bind, h2]; exact e2, by rw [e3, h1', List.append_assoc]⟩
      · exact Or.inr ⟨g, w', e1.trans (List.prefix_append es es2), by rw [M.bind, e2], e3⟩

theorem forLoop_halts {step step' : Loc → M E (Ctl × Loc × Bool)} (h : ∀ l, Halts out (step l) (step' l)) (l : Loc) : Halts out (fun w => forLoop step l w) (fun w => forLoop step' l w) := by
  intro w r hr
  refine forLoop.partial_correctness (step := step) (motive := fun l w r => ∃ es, out r.world.ext = out w.ext ++ es ∧
    (forLoop step' l w = some r ∨ ∃ g w', g <+: es ∧ forLoop step' l w = some (.panic w') ∧ out w'.ext = out w.ext ++ g)) ?_ l w r hr
  intro rec hrec l w r hr
  cases hs : step l w with
  | none => rw [hs] at hr; cases hr
  | some o =>
    rw [hs] at hr
    obtain ⟨es, h1, h2⟩ := h l w o hs
    have last : ∀ r : Out E (Ctl × Loc), out r.world.ext = out w.ext ++ es → (step' l w = some o → forLoop step' l w = some r) → ∃ es, out r.world.ext = out w.ext ++ es ∧
        (forLoop step' l w = some r ∨ ∃ g w', g <+: es ∧ forLoop step' l w = some (.panic w') ∧ out w'.ext = out w.ext ++ g) := by
      intro r k1 k2
      refine ⟨es, k1, ?_⟩
      rcases h2 with h2 | ⟨g, w', e1, e2, e3⟩
      · exact Or.inl (k2 h2)
      · exact Or.inr ⟨g, w', e1, by rw [forLoop, e2], e3⟩
    cases o with
    | panic w1 =>
      injection hr with hr
      subst hr
      exact last _ h1 fun hg => by rw [forLoop, hg]
    | ok a w1 =>
      obtain ⟨c, l', b⟩ := a
      cases b with
      | false =>
        injection hr with hr
        subst hr
        exact last _ h1 fun hg => by rw [forLoop, hg]
      | true =>
        obtain ⟨es2, h3, h4⟩ := hrec l' w1 r hr
        have h1' : out w1.ext = out w.ext ++ es := h1
        refine ⟨es ++ es2, by rw [h3, h1', List.append_assoc], ?_⟩
        rcases h2 with h2 | ⟨g, w', e1, e2, e3⟩
        · have hf : forLoop step' l w = forLoop step' l' w1 := by rw [forLoop, h2]
          rcases h4 with h4 | ⟨g, w', e1, e2, e3⟩
          · exact Or.inl (hf.trans h4)
          · exact Or.inr ⟨es ++ g, w', (List.prefix_append_right_inj es).mpr e1, hf.trans e2, by rw [e3, h1', List.append_assoc]⟩
        · exact Or.inr ⟨g, w', e1.trans (List.prefix_append es es2), by rw [forLoop, e2], e3⟩

theorem after_halts {m m' : M E α} (h : Halts out m m') : Halts out (panicAfter m) (panicAfter m') := by
  intro w o e
  rw [panicAfter, Option.map_eq_some_iff] at e
  obtain ⟨o1, hm, rfl⟩ := e
  obtain ⟨es, h1, h2⟩ := h w o1 hm
  refine ⟨es, h1, ?_⟩
  rcases h2 with h2 | ⟨g, w', e1, e2, e3⟩
  · exact Or.inl (by rw [panicAfter, h2]; rfl)
  · exact Or.inr ⟨g, w', e1, by rw [panicAfter, e2]; rfl, e3⟩

theorem halts_closed : Closed (fun {α} => @Halts E R α out) where
  quiet h := h.halts
  bind := bind_halts
  loop := forLoop_halts

theorem fail_halts {m m' : M E α} (h : ∀ w, m w = none) : Halts out m m' := fun w o e => by rw [h w] at e; cases e

theorem halts_defers {X X' : Env0 E} {calls calls' : Nm → List Val → M E Val} (hun : ∀ args w, calls .sync_Unlock args w = none) :
    Defers (fun {α} => @Halts E R α out) X X' calls calls' := by
  intro e rest l hu h
  have hd : ∀ (X : Env0 E) (calls : Nm → List Val → M E Val), exec X calls (.deferd e rest) l = fun w => match exec X calls rest l w with
    | none => none
    | some (.ok r w1) => M.bind (eval X calls l e) (fun _ => M.pure r) w1
    | some (.panic w1) => M.bind (eval X calls l e) (fun _ => M.panic) w1 := fun _ _ => rfl
  obtain ⟨x, f, rfl⟩ := unlocks_eq hu
  rw [hd, hd]
  by_cases hlx : l x = .nil
  · have hpan : ∀ (X : Env0 E) (calls : Nm → List Val → M E Val) (k : Val → M E (Ctl × Loc)) w1, M.bind (eval X calls l (.call .sync_Unlock (.cons (.addr (.var x) f) .unit))) k w1 = some (.panic w1) := by
      intro X calls k w1
      simp [eval, M.bind, M.pure, M.panic, hlx]
    have hpa : ∀ (X : Env0 E) (calls : Nm → List Val → M E Val), (fun w => match exec X calls rest l w with
        | none => none
        | some (.ok r w1) => M.bind (eval X calls l (.call .sync_Unlock (.cons (.addr (.var x) f) .unit))) (fun _ => M.pure r) w1
        | some (.panic w1) => M.bind (eval X calls l (.call .sync_Unlock (.cons (.addr (.var x) f) .unit))) (fun _ => M.panic) w1) = panicAfter (exec X calls rest l) := by
      intro X calls
      funext w
      cases h2 : exec X calls rest l w with
      | none => simp [panicAfter, h2]
      | some o =>
        cases o with
        | ok r w1 => exact (hpan X calls (fun _ => M.pure r) w1).trans (by simp [panicAfter, h2, Out.world])
        | panic w1 => exact (hpan X calls (fun _ => M.panic) w1).trans (by simp [panicAfter, h2, Out.world])
    rw [hpa, hpa]
    exact after_halts h
  · have hn : ∀ (k : Val → M E (Ctl × Loc)) w1, M.bind (eval X calls l (.call .sync_Unlock (.cons (.addr (.var x) f) .unit))) k w1 = none := by
      cases hl : l x with
      | nil => exact absurd hl hlx
      | ptr a path =>
        intro k w1
        simp [eval, M.bind, M.pure, M.of, argsOf, hl, hun]
      | _ => intro k w1; simp [eval, M.bind, M.pure, M.stuck, hl]
    refine (fail_halts fun w => ?_)
    show (match exec X calls rest l w with
      | none => none
      | some (.ok r w1) => M.bind (eval X calls l (.call .sync_Unlock (.cons (.addr (.var x) f) .unit))) (fun _ => M.pure r) w1
      | some (.panic w1) => M.bind (eval X calls l (.call .sync_Unlock (.cons (.addr (.var x) f) .unit))) (fun _ => M.panic) w1 : Option (Out E (Ctl × Loc))) = none
    cases h2 : exec X calls rest l w with
    | none => rfl
    | some o => cases o <;> exact hn _ _

end

/-! ## No panic is swallowed -/

/-- when the first returns, so does the second, with the same result -/
def Alike (m m' : M E α) : Prop := ∀ w a w1, m w = some (.ok a w1) → m' w = some (.ok a w1)

/-- what panics is not there any more -/
def calm (m : M E α) : M E α := fun w => match m w with
  | some (.panic _) => none
  | r => r

theorem calm_alike (m : M E α) : Alike m (calm m) := fun w a w1 h => by rw [calm, h]

theorem bind_alike {m m' : M E α} {f f' : α → M E β} (h : Alike m m') (hf : ∀ a, Alike (f a) (f' a)) : Alike (M.bind m f) (M.bind m' f') := by
  intro w b w2 ho
  rw [M.bind] at ho
  cases hm : m w with
  | none => rw [hm] at ho; cases ho
  | some o1 =>
    rw [hm] at ho
    cases o1 with
    | panic w1 => injection ho with ho; cases ho
    | ok a w1 => rw [M.bind, h w a w1 hm]; exact hf a w1 b w2 ho

theorem forLoop_alike {step step' : Loc → M E (Ctl × Loc × Bool)} (h : ∀ l, Alike (step l) (step' l)) (l : Loc) : Alike (fun w => forLoop step l w) (fun w => forLoop step' l w) := by
  intro w a w1 hr
  refine forLoop.partial_correctness (step := step) (motive := fun l w r => ∀ a w1, r = .ok a w1 → forLoop step' l w = some r) ?_ l w _ hr a w1 rfl
  intro rec hrec l w r hr a w1 hok
  cases hs : step l w with
  | none => rw [hs] at hr; cases hr
  | some o =>
    rw [hs] at hr
    cases o with
    | panic w1 => injection hr with hr; subst hr; cases hok
    | ok b w2 =>
      obtain ⟨c, l', t⟩ := b
      have hs' := h l w _ w2 hs
      cases t with
      | false => injection hr with hr; subst hr; rw [forLoop, hs']
      | true => rw [forLoop, hs']; exact hrec l' w2 r hr a w1 hok

theorem alike_closed : Closed (fun {α} => @Alike E α) where
  quiet _ := fun _ _ _ e => e
  bind := bind_alike
  loop := forLoop_alike

theorem alike_defers {X X' : Env0 E} (hX : RelEnv (fun {α} => @Alike E α) X X') {calls calls' : Nm → List Val → M E Val} (hc : ∀ f args, Alike (calls f args) (calls' f args)) :
    Defers (fun {α} => @Alike E α) X X' calls calls' := by
  intro e rest l _ h
  have hd : ∀ (X : Env0 E) (calls : Nm → List Val → M E Val) w, exec X calls (.deferd e rest) l w = match exec X calls rest l w with
    | none => none
    | some (.ok r w1) => M.bind (eval X calls l e) (fun _ => M.pure r) w1
    | some (.panic w1) => M.bind (eval X calls l e) (fun _ => M.panic) w1 := fun _ _ _ => rfl
  intro w a w1 hr
  rw [hd] at hr ⊢
  cases hs : exec X calls rest l w with
  | none => rw [hs] at hr; cases hr
  | some o =>
    rw [hs] at hr
    cases o with
    | ok b w2 =>
      rw [h w b w2 hs]
      exact bind_alike (eval_rel alike_closed hX hc l e) (fun _ => fun _ _ _ e => e) w2 a w1 hr
    | panic w2 =>
      have hr : M.bind (eval X calls l e) (fun _ => M.panic) w2 = some (.ok a w1) := hr
      rw [M.bind] at hr
      cases he : eval X calls l e w2 with
      | none => rw [he] at hr; cases hr
      | some o2 => rw [he] at hr; cases o2 <;> (injection hr with hr; cases hr)

end Verif.Mini
