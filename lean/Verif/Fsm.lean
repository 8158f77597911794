/-!
# Semantics of the Ragel-generated `goto` automata

Models the control skeleton common to `rfc5424/machine.go` (`Parse`, lines 123-12031),
`rfc3164/machine.go` (`Parse`, lines 110-7251) and `rfc5424/builder.go` (`set`, lines 67-9245):

```
stN:      if p++; p == pe { goto _testEofN }
stCaseN:  <from-state actions>; dispatch on data[p] -> goto trK | goto stK
trK:      <actions>; goto stM
st0:      cs = 0; goto _out
_testEof: if p == eof { switch cs { case N: <eof actions> } }
```

Actions may jump: `p--; goto stM` (Ragel `fhold; fgoto`). Because `stM:` first does `p++`, the jump
re-examines the same byte in state `M` (or, at the end of input, re-runs the end-of-input switch in `M`).
-/

namespace Verif.Fsm

/-- A `goto` target together with the actions executed on the way (`trK:` / `stK:` labels). -/
structure Label (A : Type) where
  acts : List A
  tgt : Nat
  deriving DecidableEq, Repr

/-- One `stCaseN:` block. -/
structure Row (A : Type) where
  /-- from-state actions -/
  frm : List A
  /-- `(lo, hi, label)`: bytes `lo ≤ b ≤ hi` take `label` -/
  rng : List (Nat × Nat × Label A)
  /-- label taken by all other bytes -/
  dflt : Label A
  /-- actions of `case N:` in the end-of-input switch -/
  eof : List A
  deriving DecidableEq, Repr

/-- The dispatch code of `stCaseN:` on byte `b`. -/
def lookup {A : Type} (b : Nat) : List (Nat × Nat × Label A) → Label A → Label A
  | [], d => d
  | (lo, hi, l) :: r, d => if lo ≤ b ∧ b ≤ hi then l else lookup b r d

def Row.dispatch {A : Type} (r : Row A) (b : Nat) : Label A := lookup b r.rng r.dflt

/-- Result of running a list of actions. -/
inductive Step (M : Type) where
  /-- fell through -/
  | next (m : M)
  /-- `p--; goto stN` -/
  | jump (m : M) (st : Nat)
  /-- Go runtime panic -/
  | panic

/-- Sequential execution of actions. -/
def runActs {A M : Type} (act : A → M → Step M) : List A → M → Step M
  | [], m => .next m
  | a :: as, m =>
    match act a m with
    | .next m' => runActs act as m'
    | .jump m' s => .jump m' s
    | .panic => .panic

/-- Result of an execution of the automaton. -/
inductive Res (M : Type) where
  /-- control reached the code after the automaton with `cs` and the variables `m` -/
  | done (cs : Nat) (m : M)
  /-- Go runtime panic -/
  | panic
  /-- more than `fuel` consecutive jumps without consuming input (the Go code would loop) -/
  | loop

/-- Number of consecutive jumps on the same byte the interpreter follows. -/
def jumpFuel : Nat := 4

/-- Process one byte in state `cs`. `adv` is `p++`. Result `done 0 m` is `goto st0` (`_out`). -/
def stepByte {A M : Type} (T : Nat → Row A) (act : A → M → Step M) (adv : M → M) (b : UInt8) :
    Nat → Nat → M → Res M
  | 0, _, _ => .loop
  | fuel + 1, cs, m =>
    match runActs act (T cs).frm m with
    | .panic => .panic
    | .jump m' s => stepByte T act adv b fuel s m'
    | .next m' =>
      match runActs act ((T cs).dispatch b.toNat).acts m' with
      | .panic => .panic
      | .jump m'' s => stepByte T act adv b fuel s m''
      | .next m'' =>
        if ((T cs).dispatch b.toNat).tgt = 0 then .done 0 m''
        else .done ((T cs).dispatch b.toNat).tgt (adv m'')

/-- The end-of-input switch (`_testEof:`). -/
def runEof {A M : Type} (T : Nat → Row A) (act : A → M → Step M) : Nat → Nat → M → Res M
  | 0, _, _ => .loop
  | fuel + 1, cs, m =>
    match runActs act (T cs).eof m with
    | .panic => .panic
    | .jump m' s => runEof T act fuel s m'
    | .next m' => .done cs m'

/-- The whole automaton on the remaining input. State 0 is `goto _out`: stop without the eof switch. -/
def run {A M : Type} (T : Nat → Row A) (act : A → M → Step M) (adv : M → M) :
    List UInt8 → Nat → M → Res M
  | [], cs, m => runEof T act jumpFuel cs m
  | b :: bs, cs, m =>
    match stepByte T act adv b jumpFuel cs m with
    | .panic => .panic
    | .loop => .loop
    | .done 0 m' => .done 0 m'
    | .done (cs' + 1) m' => run T act adv bs (cs' + 1) m'

end Verif.Fsm
