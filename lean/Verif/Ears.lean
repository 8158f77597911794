import Verif.Spec.Listeners

/-! # The field `emit` of a parser, and what listeners heard -/

namespace Verif
open Verif.Spec

/-- the field `emit` (the number of the listener), and what listeners heard -/
structure Ears (R : Type) where
  emit : Nat
  heard : List (Nat × R)

/-- `p.emit(r)`, `m.emit(r)`: the listener hears the result; then it may call `WithListener` (octetcounting/parser.go:65-67, nontransparent/parser.go:250-252) -/
def Ears.hear {R : Type} (f : Installs R) (e : Ears R) (r : R) : Ears R :=
  match f (e.heard ++ [(e.emit, r)]) with
  | some k => { emit := k, heard := e.heard ++ [(e.emit, r)] }
  | none => { e with heard := e.heard ++ [(e.emit, r)] }

theorem hear_attended {R : Type} (f : Installs R) (rs : List R) (e : Ears R) (ts : List (Turn R)) :
    attended f e.emit e.heard (rs.map Turn.got ++ ts) = attended f (rs.foldl (Ears.hear f) e).emit (rs.foldl (Ears.hear f) e).heard ts := by
  induction rs generalizing e with
  | nil => rfl
  | cons r rs ih =>
    rw [List.foldl_cons, ← ih]
    simp only [List.map_cons, List.cons_append, attended, Ears.hear]
    cases f (e.heard ++ [(e.emit, r)]) <;> rfl

end Verif
