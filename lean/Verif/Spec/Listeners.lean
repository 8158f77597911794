/-!
# Who hears a result

A parser has one listener at a time. `WithListener(f)` makes `f` the listener: in the options of `NewParser`, on the finished parser between two calls of `Parse`, or
called by a listener while `Parse` runs. Listeners have numbers; 0 is the parser's own, that does nothing.
-/

namespace Verif.Spec

/-- something that happens at the parser, as seen from outside the listeners -/
inductive Turn (R : Type) where
  /-- `WithListener` with listener `k`, not called by a listener -/
  | set (k : Nat)
  /-- the parser reports a result -/
  | got (r : R)

/-- What listeners do when they hear something: given who heard what so far (the last result just now), the listener that is installed by the one who heard the last
result, if it does that. -/
abbrev Installs (R : Type) := List (Nat × R) → Option Nat

/-- Who hears what: `cur` is the listener, `heard` what was heard before. -/
def attended {R : Type} (f : Installs R) : Nat → List (Nat × R) → List (Turn R) → List (Nat × R)
  | _, heard, [] => heard
  | _, heard, .set k :: ts => attended f k heard ts
  | cur, heard, .got r :: ts => attended f ((f (heard ++ [(cur, r)])).getD cur) (heard ++ [(cur, r)]) ts

/-- the results among what happens -/
def reported {R : Type} : List (Turn R) → List R
  | [] => []
  | .set _ :: ts => reported ts
  | .got r :: ts => r :: reported ts

/-- what happens when a program calls `WithListener` (`some k`) and `Parse` (`none`) in this order, and the calls of `Parse` report these results -/
def turns {R : Type} : List (Option Nat) → List (List R) → List (Turn R)
  | some k :: acts, rss => .set k :: turns acts rss
  | none :: acts, rs :: rss => rs.map .got ++ turns acts rss
  | none :: _, [] => []
  | [], _ => []

end Verif.Spec
