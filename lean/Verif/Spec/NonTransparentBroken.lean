import Verif.Spec.NonTransparentPanic

/-!
# What a non-transparent parser reports and keeps when its reader panics

Continues `Verif/Spec/NonTransparentPanic.lean`.
-/

namespace Verif.Spec
variable {ε : Type}

/-- One call of `Parse` on a reader that panics when it has delivered these bytes: what was kept before, the bytes, the reports, what is kept
after, and whether the panic leaves `Parse`. -/
inductive BrokenCall (l : Loop) (t : UInt8) : Kept ε → Bytes → List (Report ε) → Kept ε → Bool → Prop
  /-- framed messages (possibly none) and the beginning of another line: all but the last message are reported, the last one is kept (with its
  trailer), the beginning of the line is lost; a rest kept before stays -/
  | messages (k : Kept ε) (ms : List Bytes) (rest : Bytes) (hm : ∀ m ∈ ms, Framable t m) (hr : t ∉ rest) :
      BrokenCall l t k (framed t ms ++ rest) (again t k ++ ms.map Report.whole).dropLast
        ⟨match ms.getLast? with
          | some m => some (m ++ [t])
          | none => k.message, k.rest⟩ true
  /-- a line that does not start with `<` comes first: nothing is reported and nothing changes -/
  | dropped (k : Kept ε) (w rest : Bytes) (h60 : (w ++ [t]).head? ≠ some 60) (hr : t ∉ rest) : l.stops = false →
      BrokenCall l t k (w ++ t :: rest) [] k true
  /-- the same in a loop that stops there: it does not come to the panic -/
  | stopped (k : Kept ε) (w rest : Bytes) (h60 : (w ++ [t]).head? ≠ some 60) (hr : t ∉ rest) : l.stops = true →
      BrokenCall l t k (w ++ t :: rest) (again t k ++ (k.rest.map fun p => .cut p.1 p.2).toList) ⟨k.message.map (without t), k.rest⟩ false

/-- what a caller does with a parser; listeners and readers may panic, and the caller recovers -/
inductive BAct (ε : Type) where
  | parse (bytes : Bytes) (e : ε) (stop : List (Report ε) → Bool)
  /-- `Parse` on a reader that panics when it has delivered these bytes -/
  | broken (bytes : Bytes)
  | trailer (t : UInt8)
  | bestEffort

/-- Any sequence of acts: the reports of each call of `Parse`, and whether it ended with a panic. -/
inductive BCalls (l : Loop) : UInt8 → Kept ε → List (BAct ε) → List (List (Report ε) × Bool) → Prop
  | done (t : UInt8) (k : Kept ε) : BCalls l t k [] []
  | returns {t : UInt8} {k k' : Kept ε} {bytes : Bytes} {e : ε} {stop : List (Report ε) → Bool} {rs : List (Report ε)} {acts : List (BAct ε)}
      {rss : List (List (Report ε) × Bool)} :
      Call l t e k bytes rs k' → NoPanic stop rs → BCalls l t k' acts rss → BCalls l t k (.parse bytes e stop :: acts) ((rs, false) :: rss)
  | panics {t : UInt8} {k k' : Kept ε} {bytes : Bytes} {e : ε} {stop : List (Report ε) → Bool} {rs : List (Report ε)} {r : Report ε}
      {acts : List (BAct ε)} {rss : List (List (Report ε) × Bool)} :
      PanicCall l t e k bytes (rs ++ [r]) k' → NoPanic stop rs → stop (rs ++ [r]) = true → BCalls l t k' acts rss →
      BCalls l t k (.parse bytes e stop :: acts) ((rs ++ [r], true) :: rss)
  | broken {t : UInt8} {k k' : Kept ε} {bytes : Bytes} {rs : List (Report ε)} {p : Bool} {acts : List (BAct ε)}
      {rss : List (List (Report ε) × Bool)} :
      BrokenCall l t k bytes rs k' p → BCalls l t k' acts rss → BCalls l t k (.broken bytes :: acts) ((rs, p) :: rss)
  | trailer {t t' : UInt8} {k : Kept ε} {acts : List (BAct ε)} {rss : List (List (Report ε) × Bool)} :
      BCalls l t' k acts rss → BCalls l t k (.trailer t' :: acts) rss
  | bestEffort {t : UInt8} {k : Kept ε} {acts : List (BAct ε)} {rss : List (List (Report ε) × Bool)} :
      BCalls l t k acts rss → BCalls l t k (.bestEffort :: acts) rss

end Verif.Spec
