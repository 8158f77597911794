import Verif.Mini.Lang
import Verif.Texts

/-!
# `fmt.Sprintf` and `fmt.Errorf` (Go standard library, not in the repository), for the formats at hand
-/

set_option linter.constructorNameAsVariable false

namespace Verif.Mini

/-- `fmt.Sprintf(format, args...)`; `vb` gives the text of a verb (the byte after the `%`) for an argument -/
def sprintf (vb : UInt8 → Val → Option Bytes) : Bytes → List Val → Option Bytes
  | [], [] => some []
  | [], _ :: _ => none
  | 37 :: c :: f, v :: args => match vb c v, sprintf vb f args with
    | some s, some t => some (s ++ t)
    | _, _ => none
  | c :: f, args => if c = 37 then none else (sprintf vb f args).map (c :: ·)

theorem sprintf_lit (vb : UInt8 → Val → Option Bytes) (pre f : Bytes) (args : List Val) (h : 37 ∉ pre) :
    sprintf vb (pre ++ f) args = (sprintf vb f args).map (pre ++ ·) := by
  induction pre with
  | nil => simp
  | cons c pre ih =>
    have hc : c ≠ 37 := fun e => h (by simp [e])
    have : ∀ g, sprintf vb (c :: g) args = (sprintf vb g args).map (c :: ·) := by
      intro g
      rw [sprintf.eq_def]
      split
      · rename_i e; cases e
      · rename_i e; cases e
      · rename_i e; injection e with e1 e2; exact absurd e1 hc
      · rename_i e _; injection e with e1 e2; subst e1; subst e2
        rw [if_neg hc]
    rw [List.cons_append, this, ih (fun m => h (by simp [m]))]
    cases sprintf vb f args <;> simp

theorem sprintf_verb {vb : UInt8 → Val → Option Bytes} {c : UInt8} {v : Val} {s : Bytes} (h : vb c v = some s) (f : Bytes) (args : List Val) :
    sprintf vb (37 :: c :: f) (v :: args) = (sprintf vb f args).map (s ++ ·) := by
  rw [sprintf, h]
  cases sprintf vb f args <;> rfl

theorem sprintf_nil (vb : UInt8 → Val → Option Bytes) : sprintf vb [] [] = some [] := rfl

/-- `%s` of a string, `%d` of a number -/
def verb0 (c : UInt8) (v : Val) : Option Bytes :=
  if c = 115 then
    match v with
    | .str s => some s
    | _ => none
  else if c = 100 then
    match v with
    | .int _ i => some (Texts.intString i)
    | _ => none
  else none

theorem verb0_str (s : Bytes) : verb0 115 (.str s) = some s := rfl
theorem verb0_int (k : Kind) (i : Int) : verb0 100 (.int k i) = some (Texts.intString i) := rfl

end Verif.Mini
