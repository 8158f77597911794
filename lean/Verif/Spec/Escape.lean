import Verif.Spec.Rfc5424

/-! # Specification: escaping in PARAM-VALUE as a relation on texts, and "the last parameter wins" -/

namespace Verif.Spec

/-- `"`, `\`, `]` -/
def Special (b : UInt8) : Prop := b = 34 ∨ b = 92 ∨ b = 93

/-- `Unescaped raw v`: `raw` is what stands between the quotes, `v` is `raw` with each of the pairs
`\"`, `\\`, `\]` replaced by its second byte; no special byte stands alone in `raw`. -/
inductive Unescaped : Bytes → Bytes → Prop
  | nil : Unescaped [] []
  | pair {b : UInt8} {raw v : Bytes} : Special b → Unescaped raw v → Unescaped (92 :: b :: raw) (b :: v)
  | plain {b : UInt8} {raw v : Bytes} : ¬ Special b → Unescaped raw v → Unescaped (b :: raw) (b :: v)

/-- SD-PARAM as written: the value still escaped -/
structure RawParam where
  name : Bytes
  raw : Bytes

/-- SD-ELEMENT as written -/
structure RawElem where
  id : Bytes
  params : List RawParam

def RawParam.text (p : RawParam) : Bytes := [32] ++ p.name ++ [61, 34] ++ p.raw ++ [34]

def RawElem.text (e : RawElem) : Bytes := [91] ++ e.id ++ e.params.flatMap RawParam.text ++ [93]

/-- the last parameter called `name`, as written -/
def lastRaw (name : Bytes) : List RawParam → Option Bytes
  | [] => none
  | p :: ps => (lastRaw name ps).or (if p.name = name then some p.raw else none)

theorem unescaped_iff (raw v : Bytes) : Unescaped raw v ↔ raw = escape v := by
  constructor
  · intro h
    induction h with
    | nil => rfl
    | pair hb _ ih => simp only [Special] at hb; rw [escape, if_pos hb, ih]
    | plain hb _ ih => simp only [Special] at hb; rw [escape, if_neg hb, ih]
  · rintro rfl
    induction v with
    | nil => exact .nil
    | cons b l ih =>
      rw [escape]
      split
      · exact .pair (by assumption) ih
      · exact .plain (by assumption) ih

end Verif.Spec
