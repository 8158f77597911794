import Verif.Base

/-!
# A small part of Go: the `goto` programs that Ragel writes

The function bodies of `rfc5424/machine.go` (`Parse`), `rfc3164/machine.go` (`Parse`), `rfc5424/builder.go` (`set`) and
`nontransparent/parser.go` (`Exec`) use simple statements, `if`, `switch` without fallthrough, `goto`, labels, nested blocks and `return`.
This file has a syntax for them and its meaning. The programs themselves are in `Verif/Gen/Go*.lean`, transcribed line by line by
`tools/goast.py`.

Simple statements and conditions about the position, the state number, the current byte and Ragel's `_widec` are the same in all programs
and are built in; all others are parameters of a program (`A`: statements, `C`: conditions, `R`: `return` statements).
-/

namespace Verif.Go

/-- Labels. `entry` is the first statement of the function. -/
inductive Lbl where
  | entry
  /-- `stN:` -/
  | st (n : Nat)
  /-- `stCaseN:` -/
  | stCase (n : Nat)
  /-- `trN:` -/
  | tr (n : Nat)
  /-- `_testEofN:` -/
  | testEofN (n : Nat)
  /-- `stOut:` -/
  | stOut
  /-- `_testEof:` -/
  | testEof
  /-- `_out:` -/
  | out
  deriving DecidableEq, Repr

/-- Operands of comparisons: `data[p]`, `_widec`, a number. -/
inductive Opd where
  | byte | widec
  | lit (n : Nat)
  deriving DecidableEq, Repr

inductive Cmp where
  | lt | le | eq | ge | gt
  deriving DecidableEq, Repr

/-- Conditions. -/
inductive Cond (C : Type) where
  | cmp (o : Cmp) (a b : Opd)
  /-- `a && b` -/
  | and (a b : Cond C)
  /-- `p == pe` -/
  | pEqPe
  /-- `p == eof` -/
  | pEqEof
  /-- one of the alternatives `case n1, n2, ...:` of `switch cs` -/
  | csIn (ns : List Nat)
  /-- `cs < ff || cs == ef` -/
  | csFailed (ff ef : Nat)
  | prim (c : C)
  deriving DecidableEq, Repr

/-- Simple statements. -/
inductive Stmt (A : Type) where
  /-- `p++` -/
  | incP
  /-- `p--` -/
  | decP
  /-- `p = 0` -/
  | pZero
  /-- `data = input` -/
  | dataInput
  /-- `pe = len(input)` -/
  | peLen
  /-- `eof = len(input)` -/
  | eofLen
  /-- `cs = n` -/
  | setCs (n : Nat)
  /-- `var _widec int16` -/
  | widecZero
  /-- `_widec = int16(data[p])` -/
  | widecByte
  /-- `_widec = n + (int16(data[p]) - z)` -/
  | widecBase (n z : Nat)
  /-- `_widec += n` -/
  | widecAdd (n : Nat)
  | prim (a : A)
  deriving DecidableEq, Repr

/-- A sequence of statements. -/
inductive Code (A C R : Type) where
  /-- the end of the sequence -/
  | done
  | stmt (a : Stmt A) (k : Code A C R)
  /-- `goto l`; what follows (`k`) is not executed -/
  | goto (l : Lbl) (k : Code A C R)
  /-- `if c { t } else { e }`; also the alternatives of a `switch` -/
  | ifElse (c : Cond C) (t e k : Code A C R)
  /-- `switch cs { case n: goto l ... }` -/
  | jumpCs (tbl : List (Nat × Lbl)) (k : Code A C R)
  | ret (r : R) (k : Code A C R)
  deriving DecidableEq, Repr

/-- The variables of a function: the argument, the variables of the automaton, and the others (`X`). `int` is unbounded (an input has fewer
than 2^63 bytes); `_widec` is a natural number (the values assigned are between 0 and 1279). -/
structure GS (X : Type) where
  input : Bytes := []
  data : Bytes := []
  p : Int := 0
  pe : Int := 0
  eof : Int := 0
  cs : Nat := 0
  widec : Nat := 0
  x : X

variable {A C R X : Type}

/-- `data[p]`; `none` is the panic "index out of range" -/
def GS.byte (g : GS X) : Option UInt8 := if 0 ≤ g.p then g.data[g.p.toNat]? else none

/-- The meaning of the statements and conditions of a program; `none` is a panic. -/
structure Sem (A C X : Type) where
  stmt : A → GS X → Option (GS X)
  cond : C → GS X → Option Bool

def Cmp.holds : Cmp → Nat → Nat → Bool
  | .lt, a, b => a < b
  | .le, a, b => a ≤ b
  | .eq, a, b => a = b
  | .ge, a, b => b ≤ a
  | .gt, a, b => b < a

def GS.opd (g : GS X) : Opd → Option Nat
  | .byte => g.byte.map (·.toNat)
  | .widec => some g.widec
  | .lit n => some n

def Sem.test (S : Sem A C X) (g : GS X) : Cond C → Option Bool
  | .cmp o a b => (g.opd a).bind fun x => (g.opd b).map fun y => o.holds x y
  | .and a b => match S.test g a with
    | some true => S.test g b
    | some false => some false
    | none => none
  | .pEqPe => some (g.p = g.pe)
  | .pEqEof => some (g.p = g.eof)
  | .csIn ns => some (ns.contains g.cs)
  | .csFailed ff ef => some (g.cs < ff || g.cs = ef)
  | .prim c => S.cond c g

def Sem.simple (S : Sem A C X) (g : GS X) : Stmt A → Option (GS X)
  | .incP => some { g with p := g.p + 1 }
  | .decP => some { g with p := g.p - 1 }
  | .pZero => some { g with p := 0 }
  | .dataInput => some { g with data := g.input }
  | .peLen => some { g with pe := g.input.length }
  | .eofLen => some { g with eof := g.input.length }
  | .setCs n => some { g with cs := n }
  | .widecZero => some { g with widec := 0 }
  | .widecByte => g.byte.map fun b => { g with widec := b.toNat }
  | .widecBase n z => g.byte.map fun b => { g with widec := n + (b.toNat - z) }
  | .widecAdd n => some { g with widec := g.widec + n }
  | .prim a => S.stmt a g

/-- How the execution of a sequence of statements ends. -/
inductive End (R X : Type) where
  /-- at its end -/
  | fall (g : GS X)
  | goto (l : Lbl) (g : GS X)
  | ret (r : R) (g : GS X)
  | panic

/-- Execution of a sequence of statements. -/
def Sem.exec (S : Sem A C X) : Code A C R → GS X → End R X
  | .done, g => .fall g
  | .stmt a k, g => match S.simple g a with
    | some g' => S.exec k g'
    | none => .panic
  | .goto l _, g => .goto l g
  | .ifElse c t e k, g => match S.test g c with
    | some true => match S.exec t g with
      | .fall g' => S.exec k g'
      | r => r
    | some false => match S.exec e g with
      | .fall g' => S.exec k g'
      | r => r
    | none => .panic
  | .jumpCs tbl k, g => match tbl.lookup g.cs with
    | some l => .goto l g
    | none => S.exec k g
  | .ret r _, g => .ret r g

/-- Finite maps from numbers, as search trees. -/
inductive Tree (α : Type) where
  | nil
  | node (l : Tree α) (k : Nat) (v : α) (r : Tree α)

def Tree.find {α : Type} (n : Nat) : Tree α → Option α
  | .nil => none
  | .node l k v r => bif Nat.beq n k then some v else bif Nat.blt n k then l.find n else r.find n

/-- A program: the statements at each label up to the next label, and the next label. -/
abbrev Prog (A C R : Type) := Lbl → Option (Code A C R × Lbl)

/-- How the execution of a function ends. -/
inductive Fin (R X : Type) where
  | returned (r : R) (g : GS X)
  | panics
  /-- a label that does not exist -/
  | stuck
  /-- not within the given number of blocks -/
  | timeout

/-- Execution from a label on, of at most so many blocks. -/
def Sem.run (S : Sem A C X) (P : Prog A C R) : Nat → Lbl → GS X → Fin R X
  | 0, _, _ => .timeout
  | n + 1, l, g => match P l with
    | none => .stuck
    | some (c, next) => match S.exec c g with
      | .fall g' => S.run P n next g'
      | .goto l' g' => S.run P n l' g'
      | .ret r g' => .returned r g'
      | .panic => .panics

/-! ## Facts -/

/-- `n` blocks lead from `l`, `g` to `l'`, `g'` -/
def Sem.Goes (S : Sem A C X) (P : Prog A C R) (n : Nat) (l : Lbl) (g : GS X) (l' : Lbl) (g' : GS X) : Prop :=
  ∀ fuel, S.run P (n + fuel) l g = S.run P fuel l' g'

theorem Goes.trans {S : Sem A C X} {P : Prog A C R} {n n' : Nat} {l l' l'' : Lbl} {g g' g'' : GS X} (h : S.Goes P n l g l' g')
    (h' : S.Goes P n' l' g' l'' g'') : S.Goes P (n + n') l g l'' g'' := by
  intro fuel
  rw [Nat.add_assoc, h, h']

theorem Goes.refl {S : Sem A C X} {P : Prog A C R} {l : Lbl} {g : GS X} : S.Goes P 0 l g l g := fun fuel => by rw [Nat.zero_add]

theorem Goes.fall {S : Sem A C X} {P : Prog A C R} {l next : Lbl} {c : Code A C R} {g g' : GS X} (h : P l = some (c, next))
    (he : S.exec c g = .fall g') : S.Goes P 1 l g next g' := by
  intro fuel
  rw [Nat.add_comm, Sem.run, h]
  simp only [he]

theorem Goes.goto {S : Sem A C X} {P : Prog A C R} {l next l' : Lbl} {c : Code A C R} {g g' : GS X} (h : P l = some (c, next))
    (he : S.exec c g = .goto l' g') : S.Goes P 1 l g l' g' := by
  intro fuel
  rw [Nat.add_comm, Sem.run, h]
  simp only [he]

theorem Goes.goto' {S : Sem A C X} {P : Prog A C R} {l l' : Lbl} {cn : Code A C R × Lbl} {g g' : GS X} (h : P l = some cn)
    (he : S.exec cn.1 g = .goto l' g') : S.Goes P 1 l g l' g' := Goes.goto (c := cn.1) (next := cn.2) h he

theorem run_ret {S : Sem A C X} {P : Prog A C R} {l : Lbl} {cn : Code A C R × Lbl} {g g' : GS X} {r : R} (h : P l = some cn)
    (he : S.exec cn.1 g = .ret r g') (fuel : Nat) : S.run P (fuel + 1) l g = .returned r g' := by
  rw [Sem.run, h]
  obtain ⟨c, next⟩ := cn
  simp only at he ⊢
  rw [he]

/-- more blocks do not change the outcome -/
theorem run_mono {S : Sem A C X} {P : Prog A C R} : ∀ {n m : Nat} {l : Lbl} {g : GS X}, n ≤ m → S.run P n l g ≠ .timeout →
    S.run P m l g = S.run P n l g := by
  intro n
  induction n with
  | zero => intro m l g _ h; exact absurd rfl h
  | succ n ih =>
    intro m l g hm h
    obtain ⟨m, rfl⟩ : ∃ k, m = k + 1 := ⟨m - 1, by omega⟩
    simp only [Sem.run] at h ⊢
    cases hP : P l with
    | none => rfl
    | some cn =>
      obtain ⟨c, next⟩ := cn
      rw [hP] at h
      simp only at h ⊢
      cases he : S.exec c g with
      | fall g' => rw [he] at h; exact ih (by omega) h
      | goto l' g' => rw [he] at h; exact ih (by omega) h
      | ret r g' => rfl
      | panic => rfl

end Verif.Go
