import Verif.Common

/-!
# `common.RemoveBytes` on shared memory

`Verif/Common.lean` models byte slices as values. Here a slice is what it is in Go: a window on a backing array that other slices may
share, so that a function that writes through its argument can be told from one that does not.
-/

namespace Verif.Heap

/-- the contents of all backing arrays; an array is named by its index -/
abbrev Mem := List Bytes

def Mem.array (m : Mem) (a : Nat) : Bytes := m.getD a []

/-- a slice header: backing array, index of the first byte in it, length, capacity -/
structure Slice where
  arr : Nat
  off : Nat
  len : Nat
  cap : Nat
  deriving DecidableEq, Repr

/-- the header is one that Go can produce -/
structure Slice.WF (m : Mem) (s : Slice) : Prop where
  arr : s.arr < m.length
  cap : s.off + s.cap ≤ (m.array s.arr).length
  len : s.len ≤ s.cap

/-- the bytes of a slice -/
def Mem.view (m : Mem) (s : Slice) : Bytes := ((m.array s.arr).drop s.off).take s.len

/-- `[]byte(nil)` -/
def nilSlice : Slice := ⟨0, 0, 0, 0⟩

/-- `s[:hi]`; `none` is a panic. The bound is the capacity. -/
def Slice.upTo (s : Slice) (hi : Int) : Option Slice :=
  if 0 ≤ hi ∧ hi ≤ s.cap then some { s with len := hi.toNat } else none

/-- `s[lo:]`; `none` is a panic. The bound is the length. -/
def Slice.from (s : Slice) (lo : Int) : Option Slice :=
  if 0 ≤ lo ∧ lo ≤ s.len then some { s with off := s.off + lo.toNat, len := s.len - lo.toNat, cap := s.cap - lo.toNat } else none

/-- write the bytes into array `a` from index `i` on -/
def Mem.write (m : Mem) (a i : Nat) (bytes : Bytes) : Mem :=
  m.set a ((m.array a).take i ++ bytes ++ (m.array a).drop (i + bytes.length))

/-- `append(s, t...)` (Go specification): in place if the capacity suffices, else in a new array, whose capacity (`extra` more than needed)
the runtime chooses. The bytes of `t` are read before anything is written, as if copied (`memmove`). -/
def append (extra : Nat) (m : Mem) (s t : Slice) : Mem × Slice :=
  if s.len + t.len ≤ s.cap then
    (m.write s.arr (s.off + s.len) (m.view t), { s with len := s.len + t.len })
  else
    (m ++ [m.view s ++ m.view t ++ List.replicate extra 0], ⟨m.length, 0, s.len + t.len, s.len + t.len + extra⟩)

/-- The loop of `RemoveBytes` (common/functions.go:24-27) -/
def removeBytesLoop (extra : Nat) : List Int → Int → Int → Mem → Slice → Option (Mem × Slice)
  | [], _, _, m, cp => some (m, cp)
  | pos :: ps, i, offset, m, cp =>
    match cp.upTo (pos - i - offset), cp.from (pos - i - offset + 1) with
    | some a, some b => removeBytesLoop extra ps (i + 1) offset (append extra m a b).1 (append extra m a b).2
    | _, _ => none

/-- `RemoveBytes` (common/functions.go:21-29): the memory afterwards and the returned slice; `none` is a panic -/
def removeBytes (extra : Nat) (m : Mem) (data : Slice) (positions : List Int) (offset : Int) : Option (Mem × Slice) :=
  let cp := append extra m nilSlice data
  removeBytesLoop extra positions 0 offset cp.1 cp.2

/-! ## proofs -/

theorem array_append_left {m : Mem} {x : Bytes} {a : Nat} (h : a < m.length) : Mem.array (m ++ [x]) a = m.array a := by
  unfold Mem.array
  rw [List.getD_eq_getElem?_getD, List.getD_eq_getElem?_getD, List.getElem?_append_left h]

theorem array_append_new {m : Mem} {x : Bytes} : Mem.array (m ++ [x]) m.length = x := by
  unfold Mem.array
  rw [List.getD_eq_getElem?_getD, List.getElem?_append_right (Nat.le_refl _)]
  simp

theorem array_write_ne {m : Mem} {a b i : Nat} {bs : Bytes} (h : a ≠ b) : (m.write a i bs).array b = m.array b := by
  unfold Mem.write
  conv => lhs; unfold Mem.array
  rw [List.getD_eq_getElem?_getD, List.getElem?_set_ne h, ← List.getD_eq_getElem?_getD]
  rfl

theorem array_write_eq {m : Mem} {a i : Nat} {bs : Bytes} (h : a < m.length) :
    (m.write a i bs).array a = (m.array a).take i ++ bs ++ (m.array a).drop (i + bs.length) := by
  unfold Mem.write
  conv => lhs; unfold Mem.array
  rw [List.getD_eq_getElem?_getD, List.getElem?_set_self h]
  rfl

theorem view_length {m : Mem} {s : Slice} (h : s.off + s.len ≤ (m.array s.arr).length) : (m.view s).length = s.len := by
  unfold Mem.view
  rw [List.length_take, List.length_drop]; omega

/-- one round of the loop in terms of the bytes -/
theorem round {extra : Nat} {m : Mem} {cp a b : Slice} (h : cp.WF m) {at_ : Nat} (ha : cp.upTo at_ = some a)
    (hb : cp.from ((at_ : Int) + 1) = some b) :
    (append extra m a b).2.arr = cp.arr ∧ (append extra m a b).2.WF (append extra m a b).1 ∧
    (append extra m a b).1.length = m.length ∧ (∀ c, c ≠ cp.arr → (append extra m a b).1.array c = m.array c) ∧
    (append extra m a b).1.view (append extra m a b).2 = (m.view cp).take at_ ++ (m.view cp).drop (at_ + 1) := by
  obtain ⟨h1, h2, h3⟩ := h
  unfold Slice.upTo at ha
  unfold Slice.from at hb
  by_cases g1 : 0 ≤ (at_ : Int) ∧ (at_ : Int) ≤ cp.cap
  case neg => rw [if_neg g1] at ha; simp at ha
  by_cases g2 : 0 ≤ (at_ : Int) + 1 ∧ (at_ : Int) + 1 ≤ cp.len
  case neg => rw [if_neg g2] at hb; simp at hb
  rw [if_pos g1] at ha
  rw [if_pos g2] at hb
  simp only [Option.some.injEq] at ha hb
  have e1 : ((at_ : Int) + 1).toNat = at_ + 1 := by omega
  have e2 : ((at_ : Int)).toNat = at_ := by omega
  rw [e1] at hb
  rw [e2] at ha
  subst ha; subst hb
  have hv : (m.view ⟨cp.arr, cp.off + (at_ + 1), cp.len - (at_ + 1), cp.cap - (at_ + 1)⟩).length = cp.len - (at_ + 1) :=
    view_length (by simp only; omega)
  have happ : append extra m { cp with len := at_ } ⟨cp.arr, cp.off + (at_ + 1), cp.len - (at_ + 1), cp.cap - (at_ + 1)⟩ =
      (m.write cp.arr (cp.off + at_) (m.view ⟨cp.arr, cp.off + (at_ + 1), cp.len - (at_ + 1), cp.cap - (at_ + 1)⟩),
        { cp with len := cp.len - 1 }) := by
    unfold append
    rw [if_pos (by simp only; omega)]
    simp only [Prod.mk.injEq, Slice.mk.injEq, true_and, and_true]
    omega
  rw [happ]
  refine ⟨rfl, ⟨by simp only [Mem.write, List.length_set]; exact h1, ?_, by simp only; omega⟩, by simp [Mem.write],
    fun c hc => array_write_ne (fun e => hc e.symm), ?_⟩
  · simp only
    rw [array_write_eq h1]
    simp only [List.length_append, List.length_take, List.length_drop, hv]
    omega
  · simp only [Mem.view] at hv ⊢
    rw [array_write_eq h1]
    generalize m.array cp.arr = w at h2 hv
    have e3 : (w.take (cp.off + at_)).length = cp.off + at_ := by rw [List.length_take]; omega
    rw [List.append_assoc, List.drop_append_of_le_length (by omega), ← List.append_assoc, List.take_append_of_le_length,
      List.take_of_length_le, List.drop_take, List.take_take, List.drop_take, List.drop_drop]
    · congr 1
      · congr 1; omega
    · simp only [List.length_append, List.length_drop, e3, hv]; omega
    · simp only [List.length_append, List.length_drop, e3, hv]; omega

/-- the loop: only the array of `cp` is written, and the bytes are those of the value model -/
theorem loop_spec {extra : Nat} (offset : Int) : ∀ (ps : List Int) (i : Int) (m : Mem) (cp : Slice), cp.WF m →
    match removeBytesLoop extra ps i offset m cp, Common.removeBytesLoop ps i offset (m.view cp) with
    | some (m', s), some r => m'.view s = r ∧ s.arr = cp.arr ∧ s.WF m' ∧ m'.length = m.length ∧ (∀ c, c ≠ cp.arr → m'.array c = m.array c)
    | none, none => True
    | _, _ => False := by
  intro ps
  induction ps with
  | nil => intro i m cp h; exact ⟨rfl, rfl, h, rfl, fun _ _ => rfl⟩
  | cons pos ps ih =>
    intro i m cp h
    have hl : (m.view cp).length = cp.len := view_length (by have := h.cap; have := h.len; omega)
    have hlen := h.len
    simp only [removeBytesLoop, Common.removeBytesLoop, hl]
    by_cases hg : 0 ≤ pos - i - offset ∧ pos - i - offset + 1 ≤ cp.len
    · obtain ⟨at_, hat⟩ : ∃ n : Nat, pos - i - offset = n := ⟨(pos - i - offset).toNat, by omega⟩
      rw [hat] at hg ⊢
      have ha : ∃ a, cp.upTo at_ = some a := ⟨_, by rw [Slice.upTo, if_pos (by omega)]⟩
      have hb : ∃ b, cp.from ((at_ : Int) + 1) = some b := ⟨_, by rw [Slice.from, if_pos (by omega)]⟩
      obtain ⟨a, ha⟩ := ha
      obtain ⟨b, hb⟩ := hb
      obtain ⟨r1, r2, r3, r4, r5⟩ := round (extra := extra) h ha hb
      rw [if_pos hg, ha, hb]
      simp only [Int.toNat_natCast]
      rw [← r5]
      have := ih (i + 1) (append extra m a b).1 (append extra m a b).2 r2
      revert this
      cases removeBytesLoop extra ps (i + 1) offset (append extra m a b).1 (append extra m a b).2 with
      | none =>
        cases Common.removeBytesLoop ps (i + 1) offset ((append extra m a b).1.view (append extra m a b).2) <;> exact id
      | some q =>
        cases Common.removeBytesLoop ps (i + 1) offset ((append extra m a b).1.view (append extra m a b).2) with
        | none => exact id
        | some r =>
          rintro ⟨t1, t2, t3, t4, t5⟩
          exact ⟨t1, t2.trans r1, t3, t4.trans r3, fun c hc => (t5 c (by rw [r1]; exact hc)).trans (r4 c hc)⟩
    · rw [if_neg hg]
      by_cases h1 : 0 ≤ pos - i - offset + 1 ∧ pos - i - offset + 1 ≤ cp.len
      · have : cp.upTo (pos - i - offset) = none := by rw [Slice.upTo, if_neg (by omega)]
        rw [this]
        trivial
      · have : cp.from (pos - i - offset + 1) = none := by rw [Slice.from, if_neg h1]
        rw [this]
        cases cp.upTo (pos - i - offset) <;> trivial

end Verif.Heap
