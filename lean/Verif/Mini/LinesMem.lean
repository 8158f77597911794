import Verif.Mini.LinesNew
import Verif.Mini.Store

/-!
# The messages of lines in memory

`nontransparent/parser.go` with the `Parse` of `rfc5424/machine.go` executed over the same memory (`parseGo`): what the listener gets is a pointer to a
struct, in new variables.
-/

set_option linter.constructorNameAsVariable false

namespace Verif.Mini
open Verif.Gen.Mini
open Verif.Rfc5424 (SyslogMessage)

/-- nil, or a pointer to a struct that holds the message; everything it refers to is in variables `lo ≤ x < hi` -/
def memRelN : NRel where
  rel := fun lo hi w v m => match m with
    | none => v = .nil
    | some m => ∃ b, v = .ptr b [] ∧ RepMsg w b m ∧ ∀ x, Reaches w b x → lo ≤ x ∧ x < hi
  glob := True
  keep := by
    intro lo hi w w' v m h hn hn' hh
    cases m with
    | none => exact h
    | some m =>
      obtain ⟨b, rfl, g1, g2⟩ := h
      have hk : ∀ x, x < w.next → Reaches w b x → w'.heap x = w.heap x := fun x _ hx => hh x (g2 x hx).1 (g2 x hx).2
      exact ⟨b, rfl, g1.congr hn' hk, fun x hx => g2 x (g1.reaches_congr hk hx)⟩
  lower := by
    intro lo lo' hi w v m h h1
    cases m with
    | none => exact h
    | some m =>
      obtain ⟨b, rfl, g1, g2⟩ := h
      exact ⟨b, rfl, g1, fun x hx => ⟨Nat.le_trans h1 (g2 x hx).1, (g2 x hx).2⟩⟩

/-- `Parse` (rfc5424/machine.go:113-12046) executed over memory keeps the contract -/
theorem nparses_mem {calls : Nm → List Val → M EN Val} (hc : PackageOk calls) (left : W EN → Go.GS Go.R5.V) : NParses (parseGo calls left) memRelN := by
  intro w mi o input hm hlt
  obtain ⟨res, v, w', e1, e2, e3⟩ := parseGo_ok hc left hm hlt input
  have hk : Keeps w w' := by
    cases hr : res.msg with
    | none => rw [hr] at e3; exact e3.2
    | some m => rw [hr] at e3; exact e3.keeps
  obtain ⟨fs, g1, g2⟩ := hm
  refine ⟨res, v, w', e1, e2, ⟨fs, (hk.1 mi hlt).trans g1, g2⟩, hk.2.1, fun x hx _ => hk.1 x hx, hk.2.2.2, fun _ => hk.2.2.1, ?_⟩
  cases hr : res.msg with
  | none => rw [hr] at e3; exact e3.1
  | some m =>
    rw [hr] at e3
    obtain ⟨b, rfl, g1, g2⟩ := e3.rep
    exact ⟨b, rfl, g1, fun x hx => ⟨g2 x hx, g1.reaches_lt hx⟩⟩

end Verif.Mini
