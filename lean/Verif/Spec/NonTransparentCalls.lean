import Verif.Spec.NonTransparent

/-!
# What a sequence of calls on one non-transparent parser reports

A complete specification over byte strings: for every stream, and with what the parser keeps from one call to the next.
-/

namespace Verif.Spec

/-- what is reported: a piece of the stream parsed as a message, or parsed as a message that the end of the stream cut (`e` is the
error of the reader) -/
inductive Report (ε : Type) where
  | whole (w : Bytes)
  | cut (w : Bytes) (e : ε)

/-- what a parser keeps from one call to the next: the last message, and the last unterminated rest with its error -/
structure Kept (ε : Type) where
  message : Option Bytes := none
  rest : Option (Bytes × ε) := none

/-- without the trailer at the end, if there is one -/
def without (t : UInt8) (w : Bytes) : Bytes := if w.getLast? = some t then w.dropLast else w

/-- What the repository does not say about the loop around the automaton: does it stop when the automaton refuses a line; does it also
run the automaton on the unterminated rest; does it report the end of a stream that has no such rest as an error. -/
structure Loop where
  stops : Bool
  runsRest : Bool
  reportsEmpty : Bool

section
variable {ε : Type}

/-- the kept message comes first, again -/
def again (t : UInt8) (k : Kept ε) : List (Report ε) := (k.message.map fun w => .whole (without t w)).toList

/-- the unterminated rest comes last; without one the kept rest comes again, unless the loop cleared it -/
def lastReport (l : Loop) (e : ε) (k : Kept ε) (rest : Bytes) : List (Report ε) :=
  if rest ≠ [] then [.cut rest e] else if l.reportsEmpty then [] else (k.rest.map fun p => .cut p.1 p.2).toList

/-- the rest that is kept -/
def nextRest (l : Loop) (e : ε) (k : Kept ε) (rest : Bytes) : Option (Bytes × ε) :=
  if rest ≠ [] then some (rest, e) else if l.reportsEmpty then none else k.rest

/-- One call of `Parse` on a stream that ends with error `e`: what was kept before, the stream, the reports, what is kept after. -/
inductive Call (l : Loop) (t : UInt8) (e : ε) : Kept ε → Bytes → List (Report ε) → Kept ε → Prop
  /-- framed messages (possibly none) and an unterminated rest (possibly empty) -/
  | messages (k : Kept ε) (ms : List Bytes) (rest : Bytes) (hm : ∀ m ∈ ms, Framable t m) (hr : t ∉ rest) :
      Call l t e k (framed t ms ++ rest) (again t k ++ (ms.map .whole ++ lastReport l e k rest))
        ⟨if l.runsRest = true ∧ rest.head? = some 60 then none
          else match ms.getLast? with
            | some m => some m
            | none => k.message.map (without t), nextRest l e k rest⟩
  /-- a stream with a trailer that does not start with `<`: its messages are not reported -/
  | dropped (k : Kept ε) (w rest : Bytes) (h60 : (w ++ [t]).head? ≠ some 60) (hr : t ∉ rest) :
      Call l t e k (w ++ t :: rest)
        (again t k ++ if l.stops then (k.rest.map fun p => .cut p.1 p.2).toList else lastReport l e k rest)
        ⟨k.message.map (without t), if l.stops then k.rest else nextRest l e k rest⟩

/-- what a caller does with a parser -/
inductive Act (ε : Type) where
  /-- `Parse` on a stream with these bytes that ends with this error -/
  | parse (bytes : Bytes) (e : ε)
  /-- the option `WithTrailer` applied to the parser, for this trailer byte -/
  | trailer (t : UInt8)
  /-- `WithBestEffort` applied to the parser -/
  | bestEffort

/-- Any sequence of acts on a parser with trailer `t` that keeps `k`: the reports of each call of `Parse`. -/
inductive Calls (l : Loop) : UInt8 → Kept ε → List (Act ε) → List (List (Report ε)) → Prop
  | done (t : UInt8) (k : Kept ε) : Calls l t k [] []
  | parse {t : UInt8} {k k' : Kept ε} {bytes : Bytes} {e : ε} {rs : List (Report ε)} {acts : List (Act ε)} {rss : List (List (Report ε))} :
      Call l t e k bytes rs k' → Calls l t k' acts rss → Calls l t k (.parse bytes e :: acts) (rs :: rss)
  | trailer {t t' : UInt8} {k : Kept ε} {acts : List (Act ε)} {rss : List (List (Report ε))} :
      Calls l t' k acts rss → Calls l t k (.trailer t' :: acts) rss
  | bestEffort {t : UInt8} {k : Kept ε} {acts : List (Act ε)} {rss : List (List (Report ε))} :
      Calls l t k acts rss → Calls l t k (.bestEffort :: acts) rss

end
end Verif.Spec
