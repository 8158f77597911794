import Verif.Mini.Lemmas

/-!
# A richer environment changes nothing

The functions of other packages are given per package (`Env0.call`), those that a package does not use are not modelled there. What a program does with few
of them it does with more of them: where an execution is defined, it is the same.
-/

set_option linter.constructorNameAsVariable false

namespace Verif.Mini
open Verif.Gen.Mini

variable {E α β : Type}

/-- where `m` is defined, `m'` is the same -/
def Le (m m' : M E α) : Prop := ∀ w r, m w = some r → m' w = some r

theorem Le.refl (m : M E α) : Le m m := fun _ _ h => h

theorem bind_le {m m' : M E α} {f f' : α → M E β} (h : Le m m') (hf : ∀ a, Le (f a) (f' a)) : Le (M.bind m f) (M.bind m' f') := by
  intro w r hr
  rw [M.bind] at hr ⊢
  cases hm : m w with
  | none => rw [hm] at hr; cases hr
  | some o =>
    rw [hm] at hr
    rw [h w o hm]
    cases o with
    | ok a w' => exact hf a w' r hr
    | panic w' => exact hr

theorem bind_le' {m : M E α} {f f' : α → M E β} (hf : ∀ a, Le (f a) (f' a)) : Le (M.bind m f) (M.bind m f') := bind_le (.refl m) hf

theorem bool_le {m m' n n' : M E α} (h1 : Le m m') (h2 : Le n n') (t : Bool) : Le (if t then n else m) (if t then n' else m') := by
  cases t
  · exact h1
  · exact h2

/-- the environments differ only in functions of other packages that the first does not have -/
structure Below (X X' : Env0 E) : Prop where
  extra : X'.extra = X.extra
  order : X'.order = X.order
  meth : X'.meth = X.meth
  prog : X'.prog = X.prog
  call : ∀ f args, Le (X.call f args) (X'.call f args)

section
variable {X X' : Env0 E} (hX : Below X X') {calls calls' : Nm → List Val → M E Val} (hc : ∀ f args, Le (calls f args) (calls' f args))
include hX hc

theorem eval_le (l : Loc) (e : Expr) : Le (eval X calls l e) (eval X' calls' l e) := by
  induction e with
  | lit v => exact .refl _
  | var x => exact .refl _
  | glob x => exact .refl _
  | field e f ih => exact bind_le ih fun _ => .refl _
  | deref e ih => exact bind_le ih fun _ => .refl _
  | addr e f ih => exact bind_le ih fun _ => .refl _
  | new e ih => exact bind_le ih fun _ => .refl _
  | mk z fs args ih => exact bind_le ih fun _ => .refl _
  | index e i ih1 ih2 => exact bind_le ih1 fun _ => bind_le ih2 fun _ => .refl _
  | indexOk e i ih1 ih2 => exact bind_le ih1 fun _ => bind_le ih2 fun _ => .refl _
  | sub e lo hi ih1 ih2 ih3 => exact bind_le ih1 fun _ => bind_le ih2 fun _ => bind_le ih3 fun _ => .refl _
  | len e ih => exact bind_le ih fun _ => .refl _
  | bin o a b ih1 ih2 => exact bind_le ih1 fun _ => bind_le ih2 fun _ => .refl _
  | and a b ih1 ih2 => exact bind_le ih1 fun _ => bind_le' (bool_le (.refl _) (ih2))
  | or a b ih1 ih2 => exact bind_le ih1 fun _ => bind_le' (bool_le (ih2) (.refl _))
  | not a ih => exact bind_le ih fun _ => .refl _
  | conv k e ih => exact bind_le ih fun _ => .refl _
  | toStr e ih => exact bind_le ih fun _ => .refl _
  | toBytes e ih => exact bind_le ih fun _ => .refl _
  | byteLit args ih => exact bind_le ih fun _ => .refl _
  | sliceLit args ih => exact bind_le ih fun _ => .refl _
  | makeBytes n ih => exact bind_le ih fun _ => .refl _
  | append a b ih1 ih2 => exact bind_le ih1 fun _ => bind_le ih2 fun _ => by rw [hX.extra]; exact .refl _
  | appendAll a b ih1 ih2 => exact bind_le ih1 fun _ => bind_le ih2 fun _ => by rw [hX.extra]; exact .refl _
  | unit => exact .refl _
  | cons a b ih1 ih2 => exact bind_le ih1 fun _ => bind_le ih2 fun _ => .refl _
  | call f args ih => exact bind_le ih fun _ => bind_le' fun vs => hc f vs
  | dyn e f args ih1 ih2 => exact bind_le ih1 fun r => bind_le ih2 fun _ => bind_le' fun vs => bind_le' fun ty => by rw [hX.meth]; exact bind_le' fun g => hc g (r :: vs)
  | callVal e args ih1 ih2 =>
    refine bind_le ih1 fun c => bind_le ih2 fun _ => bind_le' fun vs => ?_
    cases c with
    | clo f caps => exact hc f _
    | ext x => cases x with
      | listener => exact hc _ _
      | _ => exact .refl _
    | _ => exact .refl _
  | clo f caps ih => exact bind_le ih fun _ => .refl _

omit hX hc in
theorem forLoop_le {step step' : Loc → M E (Ctl × Loc × Bool)} (h : ∀ l, Le (step l) (step' l)) (l : Loc) : Le (fun w => forLoop step l w) (fun w => forLoop step' l w) := by
  intro w r hr
  refine forLoop.partial_correctness (step := step) (motive := fun l w r => forLoop step' l w = some r) ?_ l w r hr
  intro rec hrec l w r hr
  rw [forLoop]
  cases hs : step l w with
  | none => rw [hs] at hr; cases hr
  | some o =>
    rw [hs] at hr
    rw [h l w o hs]
    cases o with
    | panic w' => exact hr
    | ok a w' =>
      obtain ⟨c, l', b⟩ := a
      cases b with
      | false => exact hr
      | true => exact hrec l' w' r hr

omit hX hc in
theorem rangeLoop_le {i v : Option Nm} {body body' : Loc → M E (Ctl × Loc)} (h : ∀ l, Le (body l) (body' l)) : ∀ (es : List (Val × Val)) (l : Loc), Le (rangeLoop i v body es l) (rangeLoop i v body' es l)
  | [], _ => .refl _
  | e :: es, l => by
    refine bind_le (h _) fun r => ?_
    obtain ⟨c, l'⟩ := r
    cases c with
    | next => exact rangeLoop_le h es l'
    | brk => exact .refl _
    | ret x => exact .refl _

theorem exec_le (s : Stmt) : ∀ l, Le (exec X calls s l) (exec X' calls' s l) := by
  have he := fun l e => eval_le hX hc l e
  induction s with
  | skip => exact fun l => .refl _
  | seq a b ih1 ih2 =>
    intro l
    refine bind_le (ih1 l) fun r => ?_
    obtain ⟨c, l'⟩ := r
    cases c with
    | next => exact ih2 l'
    | brk => exact .refl _
    | ret x => exact .refl _
  | assign x e => exact fun l => bind_le (he l e) fun _ => .refl _
  | store p e => exact fun l => bind_le (he l p) fun _ => bind_le (he l e) fun _ => .refl _
  | setGlob x e => exact fun l => bind_le (he l e) fun _ => .refl _
  | setIdx a i e => exact fun l => bind_le (he l a) fun _ => bind_le (he l i) fun _ => bind_le (he l e) fun _ => .refl _
  | multi xs e => exact fun l => bind_le (he l e) fun _ => .refl _
  | expr e => exact fun l => bind_le (he l e) fun _ => .refl _
  | ifs c a b ih1 ih2 => exact fun l => bind_le (he l c) fun _ => bind_le' (bool_le (ih2 l) (ih1 l))
  | forc c post body ih1 ih2 =>
    intro l
    refine forLoop_le (fun l => bind_le (he l c) fun _ => bind_le' fun t => ?_) l
    cases t with
    | false => exact .refl _
    | true =>
      refine bind_le (ih2 l) fun r => ?_
      obtain ⟨c, l'⟩ := r
      cases c with
      | next => exact bind_le (ih1 l') fun _ => .refl _
      | brk => exact .refl _
      | ret x => exact .refl _
  | range i v e body ih => exact fun l => bind_le (he l e) fun _ => by rw [hX.order]; exact bind_le' fun es => rangeLoop_le ih es l
  | brk => exact fun l => .refl _
  | ret e => exact fun l => bind_le (he l e) fun _ => .refl _
  | deferd e rest ih =>
    intro l w r hr
    have hd : ∀ (X : Env0 E) (calls : Nm → List Val → M E Val), exec X calls (.deferd e rest) l w = match exec X calls rest l w with
      | none => none
      | some (.ok r w1) => M.bind (eval X calls l e) (fun _ => M.pure r) w1
      | some (.panic w1) => M.bind (eval X calls l e) (fun _ => M.panic) w1 := fun _ _ => rfl
    rw [hd] at hr ⊢
    cases hs : exec X calls rest l w with
    | none => rw [hs] at hr; cases hr
    | some o =>
      rw [hs] at hr
      rw [ih l w o hs]
      cases o with
      | ok a w1 => exact bind_le (he l e) (fun _ => .refl _) w1 r hr
      | panic w1 => exact bind_le (he l e) (fun _ => .refl _) w1 r hr

end

/-- **A call that is defined is the same with more functions of other packages, and with more room for nested calls.** -/
theorem call_le {X X' : Env0 E} (hX : Below X X') : ∀ (n k : Nat) (f : Nm) (args : List Val), Le (call X n f args) (call X' (n + k) f args)
  | 0, _, _, _ => fun _ _ h => by cases h
  | n + 1, k, f, args => by
    rw [show n + 1 + k = (n + k) + 1 by omega]
    have hd : ∀ (X : Env0 E) (n : Nat), call X (n + 1) f args = match X.prog f with
      | none => X.call f args
      | some fn => M.bind (M.of (params fn.params args)) fun l => M.bind (exec X (call X n) fn.body l) fun r =>
        match r.1 with
        | .ret v => M.pure v
        | .next => M.pure (.tuple [])
        | .brk => M.stuck := fun _ _ => rfl
    rw [hd, hd, hX.prog]
    cases X.prog f with
    | none => exact hX.call f args
    | some fn => exact bind_le' fun l => bind_le (exec_le hX (fun f args => call_le hX n k f args) fn.body l) fun _ => .refl _

theorem Below.refl (X : Env0 E) : Below X X := ⟨rfl, rfl, rfl, rfl, fun _ _ => .refl _⟩

end Verif.Mini
