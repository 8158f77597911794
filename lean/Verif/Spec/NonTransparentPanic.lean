import Verif.Spec.NonTransparentCalls

/-!
# What a non-transparent parser reports and keeps when its listener panics

Continues `Verif/Spec/NonTransparentCalls.lean`.
-/

namespace Verif.Spec
variable {ε : Type}

/-- One call of `Parse` that the listener ends by a panic at the last of the reports: what was kept before, the stream, the reports, what is
kept after (if the caller recovers). The message that was being handled is kept: it will be the first report of the next call. -/
inductive PanicCall (l : Loop) (t : UInt8) (e : ε) : Kept ε → Bytes → List (Report ε) → Kept ε → Prop
  /-- at a message that is followed by another one (or by the beginning of another one) -/
  | message (k : Kept ε) (ms : List Bytes) (rest : Bytes) (hm : ∀ m ∈ ms, Framable t m) (hr : t ∉ rest) {a b : List (Report ε)} {w : Bytes} :
      again t k ++ ms.map .whole = a ++ .whole w :: b → (b ≠ [] ∨ (l.runsRest = true ∧ rest.head? = some 60)) →
      PanicCall l t e k (framed t ms ++ rest) (a ++ [.whole w]) ⟨some w, k.rest⟩
  /-- at the last message -/
  | lastMessage (k : Kept ε) (ms : List Bytes) (rest : Bytes) (hm : ∀ m ∈ ms, Framable t m) (hr : t ∉ rest) {a : List (Report ε)} {w : Bytes} :
      again t k ++ ms.map .whole = a ++ [.whole w] → ¬ (l.runsRest = true ∧ rest.head? = some 60) →
      PanicCall l t e k (framed t ms ++ rest) (a ++ [.whole w]) ⟨some w, nextRest l e k rest⟩
  /-- at the unterminated rest, which is always the last report: as if it had not panicked -/
  | rest {k k' : Kept ε} {bytes : Bytes} {a : List (Report ε)} {w : Bytes} {e' : ε} : Call l t e k bytes (a ++ [.cut w e']) k' →
      PanicCall l t e k bytes (a ++ [.cut w e']) k'
  /-- at the kept message, in a stream that does not start with `<` -/
  | dropped (k : Kept ε) (w rest : Bytes) (h60 : (w ++ [t]).head? ≠ some 60) (hr : t ∉ rest) {m : Bytes} : k.message = some m →
      PanicCall l t e k (w ++ t :: rest) [.whole (without t m)] ⟨some (without t m), if l.stops then k.rest else nextRest l e k rest⟩

/-- the listener `stop` (does it panic when it has got these reports in this call, the last one just now?) panics at none of the reports -/
def NoPanic (stop : List (Report ε) → Bool) (rs : List (Report ε)) : Prop := ∀ p, p ≠ [] → p <+: rs → stop p = false

/-- what a caller does with a parser; in each call of `Parse` the listener may panic, and the caller recovers -/
inductive PAct (ε : Type) where
  | parse (bytes : Bytes) (e : ε) (stop : List (Report ε) → Bool)
  | trailer (t : UInt8)
  | bestEffort

/-- Any sequence of acts: the reports of each call of `Parse`, and whether it ended with the panic. -/
inductive PCalls (l : Loop) : UInt8 → Kept ε → List (PAct ε) → List (List (Report ε) × Bool) → Prop
  | done (t : UInt8) (k : Kept ε) : PCalls l t k [] []
  | returns {t : UInt8} {k k' : Kept ε} {bytes : Bytes} {e : ε} {stop : List (Report ε) → Bool} {rs : List (Report ε)} {acts : List (PAct ε)}
      {rss : List (List (Report ε) × Bool)} :
      Call l t e k bytes rs k' → NoPanic stop rs → PCalls l t k' acts rss → PCalls l t k (.parse bytes e stop :: acts) ((rs, false) :: rss)
  | panics {t : UInt8} {k k' : Kept ε} {bytes : Bytes} {e : ε} {stop : List (Report ε) → Bool} {rs : List (Report ε)} {r : Report ε}
      {acts : List (PAct ε)} {rss : List (List (Report ε) × Bool)} :
      PanicCall l t e k bytes (rs ++ [r]) k' → NoPanic stop rs → stop (rs ++ [r]) = true → PCalls l t k' acts rss →
      PCalls l t k (.parse bytes e stop :: acts) ((rs ++ [r], true) :: rss)
  | trailer {t t' : UInt8} {k : Kept ε} {acts : List (PAct ε)} {rss : List (List (Report ε) × Bool)} :
      PCalls l t' k acts rss → PCalls l t k (.trailer t' :: acts) rss
  | bestEffort {t : UInt8} {k : Kept ε} {acts : List (PAct ε)} {rss : List (List (Report ε) × Bool)} :
      PCalls l t k acts rss → PCalls l t k (.bestEffort :: acts) rss

end Verif.Spec
