import Verif.Mini.Lemmas

/-!
# A listener that panics

An execution with a listener that panics at one of the results is the execution with a listener that does not, up to that result.
-/

set_option linter.constructorNameAsVariable false

namespace Verif.Mini
open Verif.Gen.Mini

variable {E R α β : Type}

/-- what is heard of `es`, after `pre`, until `stop` says that the listener panics -/
def cutAt (stop : List R → Bool) : List R → List R → Option (List R)
  | _, [] => none
  | pre, r :: es => if stop (pre ++ [r]) then some [r] else (cutAt stop (pre ++ [r]) es).map (r :: ·)

theorem cutAt_append (stop : List R → Bool) : ∀ (a pre b : List R), cutAt stop pre (a ++ b) = match cutAt stop pre a with
    | some g => some g
    | none => (cutAt stop (pre ++ a) b).map (a ++ ·)
  | [], pre, b => by cases h : cutAt stop pre b <;> simp [cutAt, h]
  | r :: a, pre, b => by
    rw [List.cons_append, cutAt, cutAt]
    by_cases h : stop (pre ++ [r]) = true
    · rw [if_pos h, if_pos h]
    · rw [if_neg h, if_neg h, cutAt_append stop a]
      cases cutAt stop (pre ++ [r]) a with
      | some g => rfl
      | none =>
        rw [List.append_assoc, List.singleton_append]
        cases cutAt stop (pre ++ r :: a) b <;> rfl

theorem cutAt_none (stop : List R → Bool) : ∀ (es pre : List R), cutAt stop pre es = none ↔ ∀ a r b, es = a ++ r :: b → stop (pre ++ a ++ [r]) = false
  | [], pre => by simp [cutAt]
  | r :: es, pre => by
    rw [cutAt]
    by_cases h : stop (pre ++ [r]) = true
    · rw [if_pos h]
      refine ⟨nofun, fun hn => ?_⟩
      have := hn [] r es rfl
      simp [h] at this
    · rw [if_neg h, Option.map_eq_none_iff, cutAt_none stop es]
      constructor
      · intro hn a q b e
        cases a with
        | nil => injection e with e1 _; subst e1; simpa using h
        | cons x a =>
          injection e with e1 e2
          subst e1
          have := hn a q b e2
          simpa using this
      · intro hn a q b e
        have := hn (r :: a) q b (by rw [e]; rfl)
        simpa using this

theorem cutAt_some (stop : List R → Bool) : ∀ (es pre g : List R), cutAt stop pre es = some g ↔
    ∃ a r b, es = a ++ r :: b ∧ g = a ++ [r] ∧ (∀ a' r' b', a = a' ++ r' :: b' → stop (pre ++ a' ++ [r']) = false) ∧ stop (pre ++ a ++ [r]) = true
  | [], pre, g => by simp [cutAt]
  | r :: es, pre, g => by
    rw [cutAt]
    by_cases h : stop (pre ++ [r]) = true
    · rw [if_pos h]
      constructor
      · intro e
        injection e with e
        exact ⟨[], r, es, rfl, e.symm, by simp, by simpa using h⟩
      · rintro ⟨a, q, b, e1, e2, e3, e4⟩
        cases a with
        | nil => injection e1 with e1 _; subst e1; rw [e2]; rfl
        | cons x a =>
          injection e1 with e1 _
          subst e1
          have := e3 [] r a rfl
          simp [h] at this
    · rw [if_neg h, Option.map_eq_some_iff]
      constructor
      · rintro ⟨g', e, rfl⟩
        obtain ⟨a, q, b, e1, e2, e3, e4⟩ := (cutAt_some stop es _ _).mp e
        refine ⟨r :: a, q, b, by rw [e1]; rfl, by rw [e2]; rfl, ?_, by simpa using e4⟩
        intro a' r' b' e'
        cases a' with
        | nil => injection e' with e' _; subst e'; simpa using h
        | cons x a' =>
          injection e' with e5 e6
          subst e5
          have := e3 a' r' b' e6
          simpa using this
      · rintro ⟨a, q, b, e1, e2, e3, e4⟩
        cases a with
        | nil => injection e1 with e1 _; subst e1; simp at e4; exact absurd e4 h
        | cons x a =>
          injection e1 with e1 e5
          subst e1
          refine ⟨a ++ [q], (cutAt_some stop es _ _).mpr ⟨a, q, b, e5, rfl, ?_, by simpa using e4⟩, by rw [e2]; rfl⟩
          intro a' r' b' e'
          have := e3 (r :: a') r' b' (by rw [e']; rfl)
          simpa using this

def Out.world : Out E α → W E
  | .ok _ w => w
  | .panic w => w

variable (out : E → List R) (stop : List R → Bool) (Q : W E → Prop)

/-- `m'` is `m`, but ends with a panic after the first result at which `stop` says so, in a state `Q` -/
def Cut (m m' : M E α) : Prop := ∀ w o, m w = some o → ∃ es, out o.world.ext = out w.ext ++ es ∧
  match cutAt stop (out w.ext) es with
  | none => m' w = some o
  | some g => ∃ w', m' w = some (.panic w') ∧ out w'.ext = out w.ext ++ g ∧ Q w'

/-- nothing happens outside the program -/
def Quiet (m : M E α) : Prop := ∀ w o, m w = some o → o.world.ext = w.ext

variable {out stop Q}

theorem Quiet.cut {m : M E α} (h : Quiet m) : Cut out stop Q m m := fun w o e => ⟨[], by rw [h w o e, List.append_nil], e⟩

theorem bind_cut {m m' : M E α} {f f' : α → M E β} (h : Cut out stop Q m m') (hf : ∀ a, Cut out stop Q (f a) (f' a)) : Cut out stop Q (M.bind m f) (M.bind m' f') := by
  intro w o ho
  rw [M.bind] at ho
  cases hm : m w with
  | none => rw [hm] at ho; cases ho
  | some o1 =>
    rw [hm] at ho
    obtain ⟨es, h1, h2⟩ := h w o1 hm
    cases o1 with
    | panic w1 =>
      injection ho with ho
      subst ho
      refine ⟨es, h1, ?_⟩
      cases hc : cutAt stop (out w.ext) es with
      | none => rw [hc] at h2; show M.bind m' f' w = _; rw [M.bind, h2]
      | some g => rw [hc] at h2; obtain ⟨w', e1, e2⟩ := h2; exact ⟨w', by rw [M.bind, e1], e2⟩
    | ok a w1 =>
      obtain ⟨es2, h3, h4⟩ := hf a w1 o ho
      have h1' : out w1.ext = out w.ext ++ es := h1
      refine ⟨es ++ es2, by rw [h3, h1', List.append_assoc], ?_⟩
      rw [cutAt_append]
      cases hc : cutAt stop (out w.ext) es with
      | none =>
        rw [hc] at h2
        rw [← h1']
        have h2' : m' w = some (.ok a w1) := h2
        cases hc2 : cutAt stop (out w1.ext) es2 with
        | none => rw [hc2] at h4; show M.bind m' f' w = _; rw [M.bind, h2']; exact h4
        | some g =>
          rw [hc2] at h4
          obtain ⟨w', e1, e2⟩ := h4
          exact ⟨w', by rw [M.bind, h2']; exact e1, by rw [e2.1, h1', List.append_assoc], e2.2⟩
      | some g =>
        rw [hc] at h2
        obtain ⟨w', e1, e2⟩ := h2
        exact ⟨w', by rw [M.bind, e1], e2⟩

/-! ## Steps without results -/

theorem pure_quiet (a : α) : Quiet (M.pure a : M E α) := fun _ _ h => by injection h with h; subst h; rfl
theorem stuck_quiet : Quiet (M.stuck : M E α) := fun _ _ h => by cases h
theorem panic_quiet : Quiet (M.panic : M E α) := fun _ _ h => by injection h with h; subst h; rfl
theorem of_quiet (a : Option α) : Quiet (M.of a : M E α) := by
  cases a with
  | none => exact stuck_quiet
  | some a => exact pure_quiet a
theorem bind_quiet {m : M E α} {f : α → M E β} (h : Quiet m) (hf : ∀ a, Quiet (f a)) : Quiet (M.bind m f) := by
  intro w o ho
  rw [M.bind] at ho
  cases hm : m w with
  | none => rw [hm] at ho; cases ho
  | some o1 =>
    rw [hm] at ho
    have h1 := h w o1 hm
    cases o1 with
    | panic w1 => injection ho with ho; subst ho; exact h1
    | ok a w1 => exact (hf a w1 o ho).trans h1

theorem here {a : α} {w w' : W E} {o : Out E α} (h : some (Out.ok a w') = some o) (hw : w'.ext = w.ext) : o.world.ext = w.ext := by
  injection h with h; subst h; exact hw

theorem alloc_quiet (v : Val) : Quiet (alloc v : M E Nat) := fun _ _ h => here h rfl
theorem load_quiet (v : Val) : Quiet (load v : M E Val) := by
  cases v with
  | ptr a path =>
    intro w o h
    have h' : (match (w.heap a).getPath path with
      | some v => some (Out.ok v w)
      | none => none) = some o := h
    cases hg : (w.heap a).getPath path with
    | none => rw [hg] at h'; cases h'
    | some v => rw [hg] at h'; exact here h' rfl
  | nil => exact panic_quiet
  | _ => exact stuck_quiet
theorem storeAt_quiet (p v : Val) : Quiet (storeAt p v : M E Unit) := by
  cases p with
  | ptr a path =>
    intro w o h
    have h' : (match (w.heap a).putPath path v with
      | some x => some (Out.ok () { w with heap := upd w.heap a x })
      | none => none) = some o := h
    cases hg : (w.heap a).putPath path v with
    | none => rw [hg] at h'; cases h'
    | some v => rw [hg] at h'; exact here h' rfl
  | nil => exact panic_quiet
  | _ => exact stuck_quiet
theorem elems_quiet (v : Val) : Quiet (elems v : M E (List Val)) := by
  cases v with
  | nil => exact pure_quiet _
  | arr vs => exact pure_quiet _
  | slice a off len cap =>
    intro w o h
    have h' : (match w.heap a with
      | .arr vs => some (Out.ok ((vs.drop off).take len) w)
      | _ => if len = 0 then some (Out.ok [] w) else none) = some o := h
    have other : (if len = 0 then some (Out.ok ([] : List Val) w) else none) = some o → o.world.ext = w.ext := by
      intro h
      by_cases hl : len = 0
      · rw [if_pos hl] at h; exact here h rfl
      · rw [if_neg hl] at h; cases h
    cases hg : w.heap a with
    | arr vs => rw [hg] at h'; exact here h' rfl
    | _ => rw [hg] at h'; exact other h'
  | _ => exact stuck_quiet
theorem nth_quiet (vs : List Val) (i : Int) : Quiet (nth vs i : M E Val) := by
  unfold nth; split
  · split
    · exact pure_quiet _
    · exact panic_quiet
  · exact panic_quiet
theorem mapGet_quiet (a : Nat) (k : Bytes) (f : Option Val → Val) : Quiet (fun w => match w.heap a with
    | .entries m => match SMap.find k m with
      | some v => some (.ok (f (some v)) w)
      | none => some (.ok (f none) w)
    | _ => none : M E Val) := by
  intro w o h
  have h' : (match w.heap a with
    | .entries m => match SMap.find k m with
      | some v => some (Out.ok (f (some v)) w)
      | none => some (Out.ok (f none) w)
    | _ => none) = some o := h
  cases hg : w.heap a with
  | entries m =>
    rw [hg] at h'
    cases hf : SMap.find k m with
    | some v => simp only [hf] at h'; exact here h' rfl
    | none => simp only [hf] at h'; exact here h' rfl
  | _ => rw [hg] at h'; cases h'
theorem elemsNth_quiet (v : Val) (i : Int) : Quiet (M.bind (elems v) fun vs => nth vs i : M E Val) := bind_quiet (elems_quiet v) fun vs => nth_quiet vs i
theorem elemsItems_quiet (v : Val) : Quiet (M.bind (elems v) fun vs => M.pure (items vs) : M E (List (Val × Val))) := bind_quiet (elems_quiet v) fun _ => pure_quiet _
theorem indexVal_quiet (v i : Val) : Quiet (indexVal v i : M E Val) := by
  cases i with
  | int k i =>
    cases v with
    | str s => exact nth_quiet _ _
    | tbl t => exact pure_quiet _
    | nil => exact elemsNth_quiet .nil i
    | bool b' => exact elemsNth_quiet (.bool b') i
    | int k' i' => exact elemsNth_quiet (.int k' i') i
    | ptr a' p' => exact elemsNth_quiet (.ptr a' p') i
    | slice a' o' l' c' => exact elemsNth_quiet (.slice a' o' l' c') i
    | struct ty' fs' => exact elemsNth_quiet (.struct ty' fs') i
    | arr vs' => exact elemsNth_quiet (.arr vs') i
    | map a' => exact elemsNth_quiet (.map a') i
    | entries m' => exact elemsNth_quiet (.entries m') i
    | tuple vs' => exact elemsNth_quiet (.tuple vs') i
    | clo f' cs' => exact elemsNth_quiet (.clo f' cs') i
    | err f' as' => exact elemsNth_quiet (.err f' as') i
    | ext x' => exact elemsNth_quiet (.ext x') i
  | str k => cases v <;> first | exact stuck_quiet | exact pure_quiet _ | exact mapGet_quiet _ k fun o => o.getD .nil
  | _ => cases v <;> exact stuck_quiet
theorem indexOkVal_quiet (v i : Val) : Quiet (indexOkVal v i : M E Val) := by
  cases i with
  | int k i => cases v <;> first | exact pure_quiet _ | exact stuck_quiet
  | str k => cases v <;> first | exact stuck_quiet | exact pure_quiet _ | exact mapGet_quiet _ k fun o => .tuple [o.getD .nil, .bool o.isSome]
  | _ => cases v <;> exact stuck_quiet
theorem subVal_quiet (v lo hi : Val) : Quiet (subVal v lo hi : M E Val) := by
  unfold subVal
  split
  · split
    · split
      · exact pure_quiet _
      · exact panic_quiet
    · exact stuck_quiet
  · split
    · split
      · exact pure_quiet _
      · exact panic_quiet
    · exact stuck_quiet
  · split
    · split
      · exact pure_quiet _
      · exact panic_quiet
    · exact stuck_quiet
  · exact stuck_quiet
theorem lenVal_quiet (v : Val) : Quiet (lenVal v : M E Val) := by
  cases v with
  | str s => exact pure_quiet _
  | slice _ _ len _ => exact pure_quiet _
  | arr vs => exact pure_quiet _
  | nil => exact pure_quiet _
  | _ => exact stuck_quiet
theorem writeArr_quiet (a i : Nat) (vs : List Val) : Quiet (writeArr a i vs : M E Unit) := by
  intro w o h
  simp only [writeArr] at h
  split at h
  · exact here h rfl
  · split at h
    · exact here h rfl
    · cases h
theorem appendVals_quiet (extra : Nat → Nat) (s : Val) (vs : List Val) : Quiet (appendVals extra s vs : M E Val) := by
  unfold appendVals
  refine bind_quiet (elems_quiet _) fun old => ?_
  split
  · split
    · exact bind_quiet (writeArr_quiet _ _ _) fun _ => pure_quiet _
    · exact bind_quiet (alloc_quiet _) fun _ => pure_quiet _
  · split
    · exact pure_quiet _
    · exact bind_quiet (alloc_quiet _) fun _ => pure_quiet _
  · exact stuck_quiet
theorem toStrVal_quiet (v : Val) : Quiet (toStrVal v : M E Val) := by
  unfold toStrVal
  split
  · exact pure_quiet _
  · exact pure_quiet _
  · split
    · exact pure_quiet _
    · exact stuck_quiet
  · exact stuck_quiet
theorem convVal_quiet (k : Kind) (v : Val) : Quiet (convVal k v : M E Val) := by
  unfold convVal
  split
  · exact pure_quiet _
  · exact stuck_quiet
theorem truth_quiet (v : Val) : Quiet (truth v : M E Bool) := by
  unfold truth
  split
  · exact pure_quiet _
  · exact stuck_quiet
theorem typeOf_quiet (v : Val) : Quiet (typeOf v : M E Nm) := by
  unfold typeOf
  split
  · exact pure_quiet _
  · refine bind_quiet (load_quiet _) fun u => ?_
    split
    · exact pure_quiet _
    · exact stuck_quiet
  · exact panic_quiet
  · exact stuck_quiet
theorem rangeItems_quiet (order : List Bytes → List Bytes) (v : Val) : Quiet (rangeItems order v : M E (List (Val × Val))) := by
  cases v with
  | str s => exact pure_quiet _
  | map a =>
    intro w o h
    have h' : (match w.heap a with
      | .entries m => some (Out.ok ((order (m.map Prod.fst)).map fun k => (Val.str k, Val.nil)) w)
      | _ => none) = some o := h
    cases hg : w.heap a with
    | entries m => rw [hg] at h'; exact here h' rfl
    | _ => rw [hg] at h'; cases h'
  | nil => exact elemsItems_quiet .nil
  | bool b' => exact elemsItems_quiet (.bool b')
  | int k' i' => exact elemsItems_quiet (.int k' i')
  | ptr a' p' => exact elemsItems_quiet (.ptr a' p')
  | slice a' o' l' c' => exact elemsItems_quiet (.slice a' o' l' c')
  | struct ty' fs' => exact elemsItems_quiet (.struct ty' fs')
  | arr vs' => exact elemsItems_quiet (.arr vs')
  | entries m' => exact elemsItems_quiet (.entries m')
  | tuple vs' => exact elemsItems_quiet (.tuple vs')
  | clo f' cs' => exact elemsItems_quiet (.clo f' cs')
  | err f' as' => exact elemsItems_quiet (.err f' as')
  | ext x' => exact elemsItems_quiet (.ext x')
  | tbl t' => exact elemsItems_quiet (.tbl t')
theorem field_quiet (f : Nm) (v : Val) : Quiet (match v with
    | .struct _ _ => M.of (v.get f)
    | _ => M.bind (load v) fun u => M.of (u.get f) : M E Val) := by
  split
  · exact of_quiet _
  · exact bind_quiet (load_quiet _) fun _ => of_quiet _

/-! ## Programs -/

theorem bind_cut' {m : M E α} {f f' : α → M E β} (h : Quiet m) (hf : ∀ a, Cut out stop Q (f a) (f' a)) : Cut out stop Q (M.bind m f) (M.bind m f') := bind_cut h.cut hf

theorem bool_cut {m m' n n' : M E α} (h1 : Cut out stop Q m m') (h2 : Cut out stop Q n n') (t : Bool) : Cut out stop Q (if t then n else m) (if t then n' else m') := by
  cases t
  · exact h1
  · exact h2

/-- the environments differ only in that the listener of the second panics -/
structure CutEnv (out : E → List R) (stop : List R → Bool) (Q : W E → Prop) (X X' : Env0 E) : Prop where
  extra : X'.extra = X.extra
  order : X'.order = X.order
  meth : X'.meth = X.meth
  prog : X'.prog = X.prog
  call : ∀ f args, Cut out stop Q (X.call f args) (X'.call f args)

section
variable {X X' : Env0 E} (hX : CutEnv out stop Q X X') {calls calls' : Nm → List Val → M E Val} (hc : ∀ f args, Cut out stop Q (calls f args) (calls' f args))
include hX hc

theorem eval_cut (l : Loc) (e : Expr) : Cut out stop Q (eval X calls l e) (eval X' calls' l e) := by
  induction e with
  | lit v => exact (pure_quiet _).cut
  | var x => exact (pure_quiet _).cut
  | glob x => exact Quiet.cut fun _ _ h => here h rfl
  | field e f ih => exact bind_cut ih fun v => (field_quiet f v).cut
  | deref e ih => exact bind_cut ih fun _ => (load_quiet _).cut
  | addr e f ih =>
    refine bind_cut ih fun v => Quiet.cut ?_
    split
    · exact pure_quiet _
    · exact panic_quiet
    · exact stuck_quiet
  | new e ih => exact bind_cut ih fun _ => (bind_quiet (alloc_quiet _) fun _ => pure_quiet _).cut
  | mk z fs args ih => exact bind_cut ih fun _ => (bind_quiet (of_quiet _) fun _ => of_quiet _).cut
  | index e i ih1 ih2 => exact bind_cut ih1 fun _ => bind_cut ih2 fun _ => (indexVal_quiet _ _).cut
  | indexOk e i ih1 ih2 => exact bind_cut ih1 fun _ => bind_cut ih2 fun _ => (indexOkVal_quiet _ _).cut
  | sub e lo hi ih1 ih2 ih3 => exact bind_cut ih1 fun _ => bind_cut ih2 fun _ => bind_cut ih3 fun _ => (subVal_quiet _ _ _).cut
  | len e ih => exact bind_cut ih fun _ => (lenVal_quiet _).cut
  | bin o a b ih1 ih2 => exact bind_cut ih1 fun _ => bind_cut ih2 fun _ => (of_quiet _).cut
  | and a b ih1 ih2 => exact bind_cut ih1 fun _ => bind_cut' (truth_quiet _) (bool_cut (pure_quiet _).cut ih2)
  | or a b ih1 ih2 => exact bind_cut ih1 fun _ => bind_cut' (truth_quiet _) (bool_cut ih2 (pure_quiet _).cut)
  | not a ih => exact bind_cut ih fun _ => (bind_quiet (truth_quiet _) fun _ => pure_quiet _).cut
  | conv k e ih => exact bind_cut ih fun _ => (convVal_quiet _ _).cut
  | toStr e ih => exact bind_cut ih fun _ => (toStrVal_quiet _).cut
  | toBytes e ih => exact bind_cut ih fun _ => (toStrVal_quiet _).cut
  | byteLit args ih => exact bind_cut ih fun _ => (bind_quiet (of_quiet _) fun _ => bind_quiet (of_quiet _) fun _ => pure_quiet _).cut
  | sliceLit args ih =>
    refine bind_cut ih fun _ => (bind_quiet (of_quiet _) fun _ => ?_).cut
    split
    · exact pure_quiet _
    · exact bind_quiet (alloc_quiet _) fun _ => pure_quiet _
  | makeBytes n ih =>
    refine bind_cut ih fun v => Quiet.cut ?_
    split
    · split
      · exact panic_quiet
      · exact bind_quiet (alloc_quiet _) fun _ => pure_quiet _
    · exact stuck_quiet
  | append a b ih1 ih2 => exact bind_cut ih1 fun _ => bind_cut ih2 fun _ => by rw [hX.extra]; exact (appendVals_quiet _ _ _).cut
  | appendAll a b ih1 ih2 => exact bind_cut ih1 fun _ => bind_cut ih2 fun _ => by rw [hX.extra]; exact (bind_quiet (elems_quiet _) fun _ => appendVals_quiet _ _ _).cut
  | unit => exact (pure_quiet _).cut
  | cons a b ih1 ih2 => exact bind_cut ih1 fun _ => bind_cut ih2 fun _ => (bind_quiet (of_quiet _) fun _ => pure_quiet _).cut
  | call f args ih => exact bind_cut ih fun _ => bind_cut' (of_quiet _) fun vs => hc f vs
  | dyn e f args ih1 ih2 => exact bind_cut ih1 fun r => bind_cut ih2 fun _ => bind_cut' (of_quiet _) fun vs => bind_cut' (typeOf_quiet _) fun ty => by rw [hX.meth]; exact bind_cut' (of_quiet _) fun g => hc g (r :: vs)
  | callVal e args ih1 ih2 =>
    refine bind_cut ih1 fun c => bind_cut ih2 fun _ => bind_cut' (of_quiet _) fun vs => ?_
    cases c with
    | clo f caps => exact hc f _
    | ext x => cases x with
      | listener => exact hc _ _
      | _ => exact stuck_quiet.cut
    | nil => exact panic_quiet.cut
    | _ => exact stuck_quiet.cut
  | clo f caps ih => exact bind_cut ih fun _ => (bind_quiet (of_quiet _) fun _ => pure_quiet _).cut

omit hX hc in
theorem forLoop_cut {step step' : Loc → M E (Ctl × Loc × Bool)} (h : ∀ l, Cut out stop Q (step l) (step' l)) (l : Loc) : Cut out stop Q (fun w => forLoop step l w) (fun w => forLoop step' l w) := by
  intro w r hr
  refine forLoop.partial_correctness (step := step) (motive := fun l w r => ∃ es, out r.world.ext = out w.ext ++ es ∧
    match cutAt stop (out w.ext) es with
    | none => forLoop step' l w = some r
    | some g => ∃ w', forLoop step' l w = some (.panic w') ∧ out w'.ext = out w.ext ++ g ∧ Q w') ?_ l w r hr
  intro rec hrec l w r hr
  cases hs : step l w with
  | none => rw [hs] at hr; cases hr
  | some o =>
    rw [hs] at hr
    obtain ⟨es, h1, h2⟩ := h l w o hs
    have stopped : ∀ g, cutAt stop (out w.ext) es = some g → ∃ w', forLoop step' l w = some (.panic w') ∧ out w'.ext = out w.ext ++ g ∧ Q w' := by
      intro g hg
      rw [hg] at h2
      obtain ⟨w', e1, e2⟩ := h2
      exact ⟨w', by rw [forLoop, e1], e2⟩
    have going : cutAt stop (out w.ext) es = none → step' l w = some o := fun hg => by rw [hg] at h2; exact h2
    have last : ∀ r : Out E (Ctl × Loc), out r.world.ext = out w.ext ++ es → (cutAt stop (out w.ext) es = none → forLoop step' l w = some r) → ∃ es, out r.world.ext = out w.ext ++ es ∧
        match cutAt stop (out w.ext) es with
        | none => forLoop step' l w = some r
        | some g => ∃ w', forLoop step' l w = some (.panic w') ∧ out w'.ext = out w.ext ++ g ∧ Q w' := by
      intro r k1 k2
      refine ⟨es, k1, ?_⟩
      cases hg : cutAt stop (out w.ext) es with
      | none => exact k2 hg
      | some g => exact stopped g hg
    cases o with
    | panic w1 =>
      injection hr with hr
      subst hr
      exact last _ h1 fun hg => by rw [forLoop, going hg]
    | ok a w1 =>
      obtain ⟨c, l', b⟩ := a
      cases b with
      | false =>
        injection hr with hr
        subst hr
        exact last _ h1 fun hg => by rw [forLoop, going hg]
      | true =>
        obtain ⟨es2, h3, h4⟩ := hrec l' w1 r hr
        have h1' : out w1.ext = out w.ext ++ es := h1
        refine ⟨es ++ es2, by rw [h3, h1', List.append_assoc], ?_⟩
        rw [cutAt_append]
        cases hg : cutAt stop (out w.ext) es with
        | some g => exact stopped g hg
        | none =>
          rw [← h1']
          have hf : forLoop step' l w = forLoop step' l' w1 := by rw [forLoop, going hg]
          cases hg2 : cutAt stop (out w1.ext) es2 with
          | none => rw [hg2] at h4; exact hf.trans h4
          | some g =>
            rw [hg2] at h4
            obtain ⟨w', e1, e2⟩ := h4
            exact ⟨w', hf.trans e1, by rw [e2.1, h1', List.append_assoc], e2.2⟩

omit hX hc in
theorem rangeLoop_cut {i v : Option Nm} {body body' : Loc → M E (Ctl × Loc)} (h : ∀ l, Cut out stop Q (body l) (body' l)) : ∀ (es : List (Val × Val)) (l : Loc), Cut out stop Q (rangeLoop i v body es l) (rangeLoop i v body' es l)
  | [], _ => (pure_quiet _).cut
  | e :: es, l => by
    refine bind_cut (h _) fun r => ?_
    obtain ⟨c, l'⟩ := r
    cases c with
    | next => exact rangeLoop_cut h es l'
    | brk => exact (pure_quiet _).cut
    | ret x => exact (pure_quiet _).cut

end

/-- `x.f.Unlock()` -/
def unlocks : Expr → Bool
  | .call .sync_Unlock (.cons (.addr (.var _) _) .unit) => true
  | _ => false

theorem unlocks_eq {e : Expr} (h : unlocks e = true) : ∃ x f, e = .call .sync_Unlock (.cons (.addr (.var x) f) .unit) := by
  unfold unlocks at h
  split at h
  · exact ⟨_, _, rfl⟩
  · cases h

/-- the only thing that is deferred is the unlocking of a mutex -/
def Plain : Stmt → Bool
  | .seq a b => Plain a && Plain b
  | .ifs _ a b => Plain a && Plain b
  | .forc _ post body => Plain post && Plain body
  | .range _ _ _ body => Plain body
  | .deferd e rest => unlocks e && Plain rest
  | _ => true

section
variable {X X' : Env0 E} (hX : CutEnv out stop Q X X') {calls calls' : Nm → List Val → M E Val} (hc : ∀ f args, Cut out stop Q (calls f args) (calls' f args))
  (hu : ∀ args w, calls .sync_Unlock args w = none)
include hX hc hu

theorem exec_cut (s : Stmt) : Plain s = true → ∀ l, Cut out stop Q (exec X calls s l) (exec X' calls' s l) := by
  have he := fun l e => eval_cut hX hc l e
  induction s with
  | skip => exact fun _ l => (pure_quiet _).cut
  | seq a b ih1 ih2 =>
    intro hp l
    rw [Plain, Bool.and_eq_true] at hp
    refine bind_cut (ih1 hp.1 l) fun r => ?_
    obtain ⟨c, l'⟩ := r
    cases c with
    | next => exact ih2 hp.2 l'
    | brk => exact (pure_quiet _).cut
    | ret x => exact (pure_quiet _).cut
  | assign x e => exact fun _ l => bind_cut (he l e) fun _ => (pure_quiet _).cut
  | store p e => exact fun _ l => bind_cut (he l p) fun _ => bind_cut (he l e) fun _ => (bind_quiet (storeAt_quiet _ _) fun _ => pure_quiet _).cut
  | setGlob x e => exact fun _ l => bind_cut (he l e) fun _ => Quiet.cut fun _ _ h => here h rfl
  | setIdx a i e =>
    refine fun _ l => bind_cut (he l a) fun _ => bind_cut (he l i) fun _ => bind_cut (he l e) fun _ => Quiet.cut ?_
    split
    · split
      · exact bind_quiet (writeArr_quiet _ _ _) fun _ => pure_quiet _
      · exact panic_quiet
    · exact stuck_quiet
  | multi xs e => exact fun _ l => bind_cut (he l e) fun _ => (bind_quiet (of_quiet _) fun _ => bind_quiet (of_quiet _) fun _ => pure_quiet _).cut
  | expr e => exact fun _ l => bind_cut (he l e) fun _ => (pure_quiet _).cut
  | ifs c a b ih1 ih2 =>
    intro hp l
    rw [Plain, Bool.and_eq_true] at hp
    exact bind_cut (he l c) fun _ => bind_cut' (truth_quiet _) (bool_cut (ih2 hp.2 l) (ih1 hp.1 l))
  | forc c post body ih1 ih2 =>
    intro hp l
    rw [Plain, Bool.and_eq_true] at hp
    refine forLoop_cut (fun l => bind_cut (he l c) fun _ => bind_cut' (truth_quiet _) fun t => ?_) l
    cases t with
    | false => exact (pure_quiet _).cut
    | true =>
      refine bind_cut (ih2 hp.2 l) fun r => ?_
      obtain ⟨c, l'⟩ := r
      cases c with
      | next => exact bind_cut (ih1 hp.1 l') fun _ => (pure_quiet _).cut
      | brk => exact (pure_quiet _).cut
      | ret x => exact (pure_quiet _).cut
  | range i v e body ih => exact fun hp l => bind_cut (he l e) fun _ => by rw [hX.order]; exact bind_cut' (rangeItems_quiet _ _) fun es => rangeLoop_cut (ih hp) es l
  | brk => exact fun _ l => (pure_quiet _).cut
  | ret e => exact fun _ l => bind_cut (he l e) fun _ => (pure_quiet _).cut
  | deferd e rest ih =>
    intro hp l w r hr
    have hd : ∀ (X : Env0 E) (calls : Nm → List Val → M E Val), exec X calls (.deferd e rest) l w = match exec X calls rest l w with
      | none => none
      | some (.ok r w1) => M.bind (eval X calls l e) (fun _ => M.pure r) w1
      | some (.panic w1) => M.bind (eval X calls l e) (fun _ => M.panic) w1 := fun _ _ => rfl
    rw [Plain, Bool.and_eq_true] at hp
    obtain ⟨x, f, rfl⟩ := unlocks_eq hp.1
    have hp := hp.2
    -- either the pointer is nil, or the deferred call is not modelled
    have hn : l x = .nil ∨ ∀ (k : Val → M E (Ctl × Loc)) w1, M.bind (eval X calls l (.call .sync_Unlock (.cons (.addr (.var x) f) .unit))) k w1 = none := by
      cases hlx : l x with
      | nil => exact Or.inl rfl
      | ptr a path =>
        right
        intro k w1
        simp [eval, M.bind, M.pure, M.of, argsOf, hlx, hu]
      | _ => right; intro k w1; simp [eval, M.bind, M.pure, M.stuck, hlx]
    have hpan : l x = .nil → ∀ (X : Env0 E) (calls : Nm → List Val → M E Val) (k : Val → M E (Ctl × Loc)) w1, M.bind (eval X calls l (.call .sync_Unlock (.cons (.addr (.var x) f) .unit))) k w1 = some (.panic w1) := by
      intro hlx X calls k w1
      simp [eval, M.bind, M.pure, M.panic, hlx]
    rw [hd] at hr
    cases hs : exec X calls rest l w with
    | none => rw [hs] at hr; cases hr
    | some o =>
      rw [hs] at hr
      have hlx : l x = .nil := by
        rcases hn with hn | hn
        · exact hn
        · cases o with
          | ok a w1 =>
            have h2 : M.bind (eval X calls l (.call .sync_Unlock (.cons (.addr (.var x) f) .unit))) (fun _ => M.pure a) w1 = some r := hr
            rw [hn] at h2; cases h2
          | panic w1 =>
            have h2 : M.bind (eval X calls l (.call .sync_Unlock (.cons (.addr (.var x) f) .unit))) (fun _ => M.panic) w1 = some r := hr
            rw [hn] at h2; cases h2
      have hr' : r = .panic o.world := by
        cases o with
        | ok a w1 =>
          have h2 : M.bind (eval X calls l (.call .sync_Unlock (.cons (.addr (.var x) f) .unit))) (fun _ => M.pure a) w1 = some r := hr
          rw [hpan hlx] at h2; injection h2 with h2; exact h2.symm
        | panic w1 =>
          have h2 : M.bind (eval X calls l (.call .sync_Unlock (.cons (.addr (.var x) f) .unit))) (fun _ => M.panic) w1 = some r := hr
          rw [hpan hlx] at h2; injection h2 with h2; exact h2.symm
      obtain ⟨es, h1, h2⟩ := ih hp l w o hs
      refine ⟨es, by rw [hr']; exact h1, ?_⟩
      cases hg : cutAt stop (out w.ext) es with
      | none =>
        rw [hg] at h2
        show exec X' calls' _ l w = _
        rw [hd, h2, hr']
        cases o <;> exact hpan hlx _ _ _ _
      | some g =>
        rw [hg] at h2
        obtain ⟨w', e1, e2⟩ := h2
        exact ⟨w', by rw [hd, e1]; exact hpan hlx _ _ _ _, e2⟩

end

/-- **A call with a listener that panics is the call with a listener that does not, up to the panic.** -/
theorem call_cut {X X' : Env0 E} (hX : CutEnv out stop Q X X') (hp : ∀ f fn, X.prog f = some fn → Plain fn.body = true)
    (hu : X.prog .sync_Unlock = none ∧ ∀ args w, X.call .sync_Unlock args w = none) : ∀ (n : Nat) (f : Nm) (args : List Val), Cut out stop Q (call X n f args) (call X' n f args)
  | 0, _, _ => stuck_quiet.cut
  | n + 1, f, args => by
    have hd : ∀ (X : Env0 E) (n : Nat) f args, call X (n + 1) f args = match X.prog f with
      | none => X.call f args
      | some fn => M.bind (M.of (params fn.params args)) fun l => M.bind (exec X (call X n) fn.body l) fun r =>
        match r.1 with
        | .ret v => M.pure v
        | .next => M.pure (.tuple [])
        | .brk => M.stuck := fun _ _ _ _ => rfl
    have hun : ∀ args w, call X n .sync_Unlock args w = none := by
      intro args w
      cases n with
      | zero => rfl
      | succ n => rw [hd, hu.1]; exact hu.2 args w
    rw [hd, hd, hX.prog]
    cases hf : X.prog f with
    | none => exact hX.call f args
    | some fn =>
      refine bind_cut' (of_quiet _) fun l => bind_cut (exec_cut hX (fun f args => call_cut hX hp hu n f args) hun fn.body (hp f fn hf) l) fun r => Quiet.cut ?_
      obtain ⟨c, l'⟩ := r
      cases c with
      | next => exact pure_quiet _
      | brk => exact stuck_quiet
      | ret x => exact pure_quiet _

end Verif.Mini
