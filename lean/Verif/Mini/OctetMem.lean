import Verif.Mini.OctetNew
import Verif.Mini.Store

/-!
# The messages of a stream in memory

`octetcounting/parser.go` with the `Parse` of `rfc5424/machine.go` executed over the same memory (`parseGo`): what the listener gets is a pointer to a
struct, in new variables.
-/

set_option linter.constructorNameAsVariable false

namespace Verif.Mini
open Verif.Gen.Mini
open Verif.Rfc5424 (SyslogMessage)

/-- `Parse` (rfc5424/machine.go:113-12046) executed over memory; a nil `[]byte` is an empty one -/
def parseMem (calls : Nm → List Val → M EO Val) (left : W EO → Go.GS Go.R5.V) : List Val → M EO Val
  | [.ptr mi [], input] => parseGo calls left [.ptr mi [], .str input.bytes]
  | _ => M.stuck

/-- nil, or a pointer to a struct that holds the message; everything it refers to is in variables `lo ≤ x < hi` -/
def MemRel : MsgRel := fun lo hi w v m =>
  match m with
  | none => v = .nil
  | some m => ∃ b, v = .ptr b [] ∧ RepMsg w b m ∧ ∀ x, Reaches w b x → lo ≤ x ∧ x < hi

theorem parseMem_ok {calls : Nm → List Val → M EO Val} (hc : PackageOk calls) (left : W EO → Go.GS Go.R5.V) : Parses (parseMem calls left) MemRel where
  ok := by
    rintro w mi be co input bs h1 h2 ⟨fs, h3⟩ hlt hi
    have hb : input.bytes = bs := by rcases hi with rfl | ⟨rfl, rfl⟩ <;> rfl
    have hm : IsMach kit5 w mi ⟨be, co⟩ := by
      refine ⟨fs, h3, fun f v hf => ?_⟩
      simp only [h3, Val.get] at h1 h2
      simp only [kit5, List.mem_cons, Prod.mk.injEq, List.not_mem_nil, or_false] at hf
      rcases hf with ⟨rfl, rfl⟩ | ⟨rfl, rfl⟩
      · exact h1
      · exact h2
    obtain ⟨res, v, w', e1, e2, e3⟩ := parseGo_ok hc left hm hlt bs
    refine ⟨res, v, w', e1, ?_, ?_⟩
    · show parseGo calls left [.ptr mi [], .str input.bytes] w = _
      rw [hb]; exact e2
    · cases hr : res.msg with
      | none => rw [hr] at e3; exact ⟨e3.2, e3.1⟩
      | some m =>
        rw [hr] at e3
        obtain ⟨b, rfl, g1, g2⟩ := e3.rep
        exact ⟨e3.keeps, b, rfl, g1, fun x hx => ⟨g2 x hx, g1.reaches_lt hx⟩⟩
  keep := by
    intro lo hi w w' v m h hn hn' hh
    cases m with
    | none => exact h
    | some m =>
      obtain ⟨b, rfl, g1, g2⟩ := h
      have hk : ∀ x, x < w.next → Reaches w b x → w'.heap x = w.heap x := fun x _ hx => hh x (g2 x hx).1 (g2 x hx).2
      exact ⟨b, rfl, g1.congr hn' hk, fun x hx => g2 x (g1.reaches_congr hk hx)⟩
  widen := by
    intro lo hi lo' hi' w v m h h1 h2
    cases m with
    | none => exact h
    | some m =>
      obtain ⟨b, rfl, g1, g2⟩ := h
      exact ⟨b, rfl, g1, fun x hx => ⟨Nat.le_trans h1 (g2 x hx).1, Nat.lt_of_lt_of_le (g2 x hx).2 h2⟩⟩
  none := fun _ _ _ => rfl

end Verif.Mini
