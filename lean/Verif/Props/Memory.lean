import Verif.Heap
import Verif.Props.Common

/-!
# C65: `RemoveBytes` and the memory it shares with its caller

Specification: a slice `t` of the caller is unchanged if it shows the same bytes afterwards (`view`).
-/

namespace Verif.Props
open Verif.Spec Verif.Heap

theorem remove_spec (extra : Nat) (m : Mem) (data : Slice) (positions : List Int) (offset : Int) (h : data.WF m) :
    match removeBytes extra m data positions offset, Common.removeBytes (m.view data) positions offset with
    | some (m', s), some r => m'.view s = r ∧ (∀ a, a < m.length → m'.array a = m.array a) ∧ (m.length ≤ s.arr ∨ s.cap = 0)
    | none, none => True
    | _, _ => False := by
  obtain ⟨h1, h2, h3⟩ := h
  have hv : (m.view data).length = data.len := view_length (by omega)
  unfold removeBytes Common.removeBytes
  by_cases h0 : data.len = 0
  · have hnil : m.view data = [] := List.length_eq_zero_iff.mp (by omega)
    have ha : append extra m nilSlice data = (m.write 0 0 [], nilSlice) := by
      unfold append
      rw [if_pos (by simp [nilSlice, h0]), hnil]
      simp only [nilSlice, h0]
    have hw : m.write 0 0 [] = m := by
      unfold Mem.write
      cases m with
      | nil => rfl
      | cons x m => simp [Mem.array]
    have hview : m.view nilSlice = [] := by simp [Mem.view, nilSlice]
    rw [ha, hw, hnil]
    cases positions with
    | nil => exact ⟨hview, fun _ _ => rfl, Or.inr rfl⟩
    | cons p ps =>
      simp only [removeBytesLoop, Common.removeBytesLoop, List.length_nil]
      rw [if_neg (by omega)]
      by_cases g : p - 0 - offset = 0
      · rw [g]; simp [Slice.upTo, Slice.from, nilSlice]
      · have : nilSlice.upTo (p - 0 - offset) = none := by rw [Slice.upTo, if_neg (by simp only [nilSlice]; omega)]
        rw [this]
        trivial
  · have ha : append extra m nilSlice data =
        (m ++ [m.view data ++ List.replicate extra 0], ⟨m.length, 0, data.len, data.len + extra⟩) := by
      unfold append
      rw [if_neg (by simp [nilSlice]; omega)]
      simp [Mem.view, nilSlice]
    rw [ha]
    have hview : Mem.view (m ++ [m.view data ++ List.replicate extra 0]) ⟨m.length, 0, data.len, data.len + extra⟩ = m.view data := by
      generalize m.view data = v at hv
      conv => lhs; unfold Mem.view
      simp only [array_append_new, List.drop_zero]
      rw [← hv, List.take_left]
    have hwf : Slice.WF (m ++ [m.view data ++ List.replicate extra 0]) ⟨m.length, 0, data.len, data.len + extra⟩ := by
      refine ⟨by simp, ?_, by simp only; omega⟩
      simp only [array_append_new, List.length_append, List.length_replicate, hv]; omega
    have key := loop_spec (extra := extra) offset positions 0 _ _ hwf
    rw [hview] at key
    revert key
    cases removeBytesLoop extra positions 0 offset (m ++ [m.view data ++ List.replicate extra 0])
        ⟨m.length, 0, data.len, data.len + extra⟩ with
    | none => cases Common.removeBytesLoop positions 0 offset (m.view data) <;> exact id
    | some q =>
      cases Common.removeBytesLoop positions 0 offset (m.view data) with
      | none => exact id
      | some r =>
        rintro ⟨t1, t2, t3, t4, t5⟩
        refine ⟨t1, fun a hlt => ?_, Or.inl (by rw [t2]; exact Nat.le_refl _)⟩
        rw [t5 a (by simp only; omega), array_append_left hlt]

/-- C65: for increasing positions inside the slice, `RemoveBytes` returns a slice with the other bytes; every slice the caller has, the
argument and any other that shares its backing array included, still shows the same bytes afterwards; and it goes on doing so when the caller
writes through the returned slice, anywhere in its capacity (with `append`, for instance). -/
theorem C65_caller_memory_untouched (extra : Nat) (m : Mem) (data : Slice) (h : data.WF m) (positions : List Nat) (offset : Nat)
    (hs : positions.Pairwise (· < ·)) (hp : ∀ p ∈ positions, offset ≤ p ∧ p < offset + data.len) :
    ∃ m' s, removeBytes extra m data (positions.map Int.ofNat) offset = some (m', s) ∧
      m'.view s = (((m.view data).zipIdx.filter fun x => x.2 + offset ∉ positions).map Prod.fst) ∧
      ∀ t : Slice, t.WF m → m'.view t = m.view t ∧
        ∀ i bytes, i + bytes.length ≤ s.cap → (m'.write s.arr (s.off + i) bytes).view t = m.view t := by
  have hv : (m.view data).length = data.len := view_length (by have := h.cap; have := h.len; omega)
  have h19 := C19_remove_exactly (m.view data) positions offset hs (by rw [hv]; exact hp)
  have key := remove_spec extra m data (positions.map Int.ofNat) offset h
  rw [h19] at key
  cases hr : removeBytes extra m data (positions.map Int.ofNat) offset with
  | none => rw [hr] at key; exact key.elim
  | some q =>
    obtain ⟨m', s⟩ := q
    rw [hr] at key
    obtain ⟨k1, k2, k3⟩ := key
    refine ⟨m', s, rfl, k1, fun t ht => ⟨by simp only [Mem.view, k2 _ ht.arr], ?_⟩⟩
    intro i bytes hi
    rcases k3 with k3 | k3
    · simp only [Mem.view]
      have := ht.arr
      rw [array_write_ne (by omega), k2 _ ht.arr]
    · have hb : bytes = [] := List.length_eq_zero_iff.mp (by omega)
      have hw : m'.write s.arr (s.off + i) bytes = m' := by
        subst hb
        unfold Mem.write
        simp only [List.append_nil, List.length_nil, Nat.add_zero, List.take_append_drop]
        apply List.ext_getElem?
        intro j
        by_cases hj : s.arr = j
        · subst hj
          by_cases hl : s.arr < m'.length
          · rw [List.getElem?_set_self hl]
            unfold Mem.array
            rw [List.getD_eq_getElem?_getD, List.getElem?_eq_getElem hl]; rfl
          · rw [List.getElem?_eq_none (by simp; omega), List.getElem?_eq_none (by omega)]
        · rw [List.getElem?_set_ne hj]
      rw [hw]
      simp only [Mem.view, k2 _ ht.arr]

/-- a slice in the middle of an array that the caller also sees as a whole -/
example : Slice.WF [ascii "xab\\]cy"] ⟨0, 1, 5, 6⟩ ∧
    (removeBytes 3 [ascii "xab\\]cy"] ⟨0, 1, 5, 6⟩ [12] 10).map (fun q => (q.1.view q.2, q.1.view ⟨0, 0, 7, 7⟩)) =
      some (ascii "ab]c", ascii "xab\\]cy") :=
  ⟨⟨by decide, by decide, by decide⟩, by decide +kernel⟩

end Verif.Props
