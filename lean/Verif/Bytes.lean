/-!
# Byte strings and Go maps keyed by strings

Go `string` and `[]byte` values are modelled by `Bytes = List UInt8`. `map[string]V` is modelled by an association
list kept sorted by key (bytewise lexicographic order, the order of Go's `<` on strings): two such lists
are equal iff the Go maps have the same entries (`SMap.ext`).
-/

namespace Verif

/-- Go `string` / `[]byte`. -/
abbrev Bytes := List UInt8

/-- ASCII literal as bytes (specification and examples only). -/
def ascii (s : String) : Bytes := s.toList.map fun c => UInt8.ofNat c.toNat

/-- Go's `a < b` on strings. -/
def blt : Bytes → Bytes → Bool
  | [], [] => false
  | [], _ :: _ => true
  | _ :: _, [] => false
  | a :: as, b :: bs => if a.toNat < b.toNat then true else if b.toNat < a.toNat then false else blt as bs

theorem blt_irrefl (a : Bytes) : blt a a = false := by
  induction a with
  | nil => rfl
  | cons x xs ih => simp [blt, ih]

theorem blt_asymm {a b : Bytes} (h : blt a b = true) : blt b a = false := by
  induction a generalizing b with
  | nil => cases b <;> simp_all [blt]
  | cons x xs ih =>
    cases b with
    | nil => simp_all [blt]
    | cons y ys =>
      simp only [blt] at *
      split at h
      · rename_i h1; simp [h1, Nat.lt_asymm h1]
      · split at h
        · simp at h
        · rename_i h1 h2; simp [h1, h2, ih h]

theorem blt_trans {a b c : Bytes} (h1 : blt a b = true) (h2 : blt b c = true) : blt a c = true := by
  induction a generalizing b c with
  | nil => cases b <;> cases c <;> simp_all [blt]
  | cons x xs ih =>
    cases b with
    | nil => simp_all [blt]
    | cons y ys =>
      cases c with
      | nil => simp_all [blt]
      | cons z zs =>
        simp only [blt] at *
        split at h1
        · rename_i g1
          split at h2
          · rename_i g2; rw [if_pos (by omega)]
          · split at h2
            · simp at h2
            · rename_i g2 g3; rw [if_pos (by omega)]
        · split at h1
          · simp at h1
          · rename_i g1 g1'
            split at h2
            · rename_i g2; rw [if_pos (by omega)]
            · split at h2
              · simp at h2
              · rename_i g2 g3
                rw [if_neg (by omega), if_neg (by omega)]
                exact ih h1 h2

theorem blt_total {a b : Bytes} (h1 : blt a b = false) (h2 : blt b a = false) : a = b := by
  induction a generalizing b with
  | nil => cases b <;> simp_all [blt]
  | cons x xs ih =>
    cases b with
    | nil => simp_all [blt]
    | cons y ys =>
      simp only [blt] at h1 h2
      split at h1
      · simp at h1
      · rename_i g1
        split at h2
        · simp at h2
        · rename_i g2
          rw [if_neg g2] at h1
          have : x = y := UInt8.toNat_inj.mp (by omega)
          rw [this, ih h1 h2]

/-- `map[string]V`. -/
abbrev SMap (V : Type) := List (Bytes × V)

namespace SMap
variable {V : Type}

/-- `v, ok := m[k]` -/
def find (k : Bytes) : SMap V → Option V
  | [] => none
  | (k', v) :: r => if k = k' then some v else find k r

/-- `m[k] = v` -/
def insert (k : Bytes) (v : V) : SMap V → SMap V
  | [] => [(k, v)]
  | (k', v') :: r =>
    if blt k k' then (k, v) :: (k', v') :: r
    else if k = k' then (k, v) :: r
    else (k', v') :: insert k v r

/-- `delete(m, k)` -/
def erase (k : Bytes) : SMap V → SMap V
  | [] => []
  | (k', v') :: r => if k = k' then r else (k', v') :: erase k r

/-- The representation invariant: strictly increasing keys. -/
def Sorted : SMap V → Prop
  | [] => True
  | (k, _) :: r => (∀ e ∈ r, blt k e.1 = true) ∧ Sorted r

theorem sorted_nil : Sorted ([] : SMap V) := trivial

theorem mem_insert {k : Bytes} {v : V} {m : SMap V} {e : Bytes × V} (h : e ∈ insert k v m) :
    e = (k, v) ∨ e ∈ m := by
  induction m with
  | nil => simpa [insert] using h
  | cons x r ih =>
    obtain ⟨k', v'⟩ := x
    simp only [insert] at h
    split at h
    · simpa using h
    · split at h
      · rename_i h1; simp at h ⊢; rcases h with h | h <;> simp [h]
      · simp only [List.mem_cons] at h ⊢
        rcases h with h | h
        · exact Or.inr (Or.inl h)
        · rcases ih h with h | h <;> simp [h]

theorem sorted_insert {k : Bytes} {v : V} {m : SMap V} (h : Sorted m) : Sorted (insert k v m) := by
  induction m with
  | nil => simp [insert, Sorted]
  | cons x r ih =>
    obtain ⟨k', v'⟩ := x
    obtain ⟨h1, h2⟩ := h
    simp only [insert]
    split
    · rename_i g
      refine ⟨?_, h1, h2⟩
      intro e he
      simp only [List.mem_cons] at he
      rcases he with he | he
      · subst he; exact g
      · exact blt_trans g (h1 e he)
    · split
      · rename_i g1 g2; subst g2; exact ⟨h1, h2⟩
      · rename_i g1 g2
        refine ⟨?_, ih h2⟩
        intro e he
        rcases mem_insert he with he | he
        · subst he
          cases hb : blt k' k with
          | true => rfl
          | false => exact absurd (blt_total (by simpa using g1) hb) g2
        · exact h1 e he

theorem mem_erase {k : Bytes} {m : SMap V} {e : Bytes × V} (h : e ∈ erase k m) : e ∈ m := by
  induction m with
  | nil => simp [erase] at h
  | cons x r ih =>
    obtain ⟨k', v'⟩ := x
    simp only [erase] at h
    split at h
    · simp [h]
    · simp only [List.mem_cons] at h ⊢
      rcases h with h | h
      · exact Or.inl h
      · exact Or.inr (ih h)

theorem sorted_erase {k : Bytes} {m : SMap V} (h : Sorted m) : Sorted (erase k m) := by
  induction m with
  | nil => simp [erase, Sorted]
  | cons x r ih =>
    obtain ⟨k', v'⟩ := x
    obtain ⟨h1, h2⟩ := h
    simp only [erase]
    split
    · exact h2
    · exact ⟨fun e he => h1 e (mem_erase he), ih h2⟩

theorem find_none_of_lt {k : Bytes} {m : SMap V} (h : ∀ e ∈ m, blt k e.1 = true) : find k m = none := by
  induction m with
  | nil => rfl
  | cons x r ih =>
    obtain ⟨k', v'⟩ := x
    have h1 := h _ (List.mem_cons_self ..)
    simp only [find]
    split
    · rename_i g; subst g; simp [blt_irrefl] at h1
    · exact ih fun e he => h e (List.mem_cons_of_mem _ he)

theorem find_insert_self (k : Bytes) (v : V) (m : SMap V) : find k (insert k v m) = some v := by
  induction m with
  | nil => simp [insert, find]
  | cons x r ih =>
    obtain ⟨k', v'⟩ := x
    simp only [insert]
    split
    · simp [find]
    · split
      · simp [find]
      · rename_i g; simp [find, g, ih]

theorem find_insert_ne {k k' : Bytes} (v : V) (m : SMap V) (hk : k ≠ k') :
    find k (insert k' v m) = find k m := by
  induction m with
  | nil => simp [insert, find, hk]
  | cons x r ih =>
    obtain ⟨k'', v''⟩ := x
    simp only [insert]
    split
    · simp [find, hk]
    · split
      · rename_i g; subst g; simp [find, hk]
      · simp only [find]; split <;> simp_all

theorem find_insert (k k' : Bytes) (v : V) (m : SMap V) :
    find k (insert k' v m) = if k = k' then some v else find k m := by
  split
  · rename_i h; subst h; exact find_insert_self ..
  · rename_i h; exact find_insert_ne _ _ h

theorem find_erase {m : SMap V} (h : Sorted m) (k k' : Bytes) :
    find k (erase k' m) = if k = k' then none else find k m := by
  induction m with
  | nil => simp [erase, find]
  | cons x r ih =>
    obtain ⟨k'', v''⟩ := x
    obtain ⟨h1, h2⟩ := h
    simp only [erase]
    split
    · rename_i g
      subst g
      split
      · rename_i g; subst g; exact find_none_of_lt h1
      · rename_i g; simp [find, g]
    · rename_i g
      simp only [find, ih h2]
      split
      · rename_i g2; subst g2; simp [Ne.symm g]
      · rfl

/-- Sorted association lists are determined by their lookups: they are maps. -/
theorem ext {m m' : SMap V} (h : Sorted m) (h' : Sorted m') (hf : ∀ k, find k m = find k m') : m = m' := by
  induction m generalizing m' with
  | nil =>
    cases m' with
    | nil => rfl
    | cons x r => have := hf x.1; simp [find] at this
  | cons x r ih =>
    obtain ⟨k, v⟩ := x
    cases m' with
    | nil => have := hf k; simp [find] at this
    | cons x' r' =>
      obtain ⟨k', v'⟩ := x'
      obtain ⟨h1, h2⟩ := h
      obtain ⟨h1', h2'⟩ := h'
      have hk : k = k' := by
        have e1 := hf k
        have e2 := hf k'
        simp only [find, if_true] at e1 e2
        rcases Decidable.em (k = k') with g | g
        · exact g
        · rw [if_neg g] at e1
          rw [if_neg (Ne.symm g)] at e2
          have m1 : blt k' k = true := by
            cases hb : blt k' k with
            | true => rfl
            | false =>
              have : blt k k' = true := by
                cases hb' : blt k k' with
                | true => rfl
                | false => exact absurd (blt_total hb' hb) g
              have := find_none_of_lt (k := k) (m := r') fun e he => blt_trans this (h1' e he)
              rw [this] at e1; simp at e1
          have := find_none_of_lt (k := k') (m := r) fun e he => blt_trans m1 (h1 e he)
          rw [this] at e2; simp at e2
      subst hk
      have hv : v = v' := by have := hf k; simpa [find] using this
      subst hv
      congr 1
      refine ih h2 h2' fun k2 => ?_
      have := hf k2
      simp only [find] at this
      split at this
      · rename_i g
        subst g
        rw [find_none_of_lt h1, find_none_of_lt h1']
      · exact this

theorem mem_of_find {k : Bytes} {v : V} {m : SMap V} (h : find k m = some v) : (k, v) ∈ m := by
  induction m with
  | nil => simp [find] at h
  | cons x r ih =>
    obtain ⟨k', v'⟩ := x
    simp only [find] at h
    split at h
    · rename_i g; simp at h; simp [g, h]
    · simp [ih h]

theorem find_of_mem {k : Bytes} {v : V} {m : SMap V} (hs : Sorted m) (h : (k, v) ∈ m) : find k m = some v := by
  induction m with
  | nil => simp at h
  | cons x r ih =>
    obtain ⟨k', v'⟩ := x
    obtain ⟨h1, h2⟩ := hs
    simp only [List.mem_cons] at h
    simp only [find]
    rcases h with h | h
    · simp at h; simp [h]
    · have := h1 _ h
      split
      · rename_i g; subst g; simp [blt_irrefl] at this
      · exact ih h2 h

theorem insert_ne_nil (k : Bytes) (v : V) (m : SMap V) : insert k v m ≠ [] := by
  cases m with
  | nil => simp [insert]
  | cons x r => obtain ⟨k', v'⟩ := x; simp only [insert]; split <;> (try split) <;> simp

theorem erase_eq_of_find_none {k : Bytes} {m : SMap V} (h : find k m = none) : erase k m = m := by
  induction m with
  | nil => rfl
  | cons x r ih =>
    obtain ⟨k', v'⟩ := x
    simp only [find] at h
    split at h
    · simp at h
    · rename_i g; simp [erase, g, ih h]

/-- deleting a freshly added key restores the map -/
theorem erase_insert {k : Bytes} {v : V} {m : SMap V} (hs : Sorted m) (h : find k m = none) :
    erase k (insert k v m) = m := by
  refine ext (sorted_erase (sorted_insert hs)) hs fun k' => ?_
  rw [find_erase (sorted_insert hs), find_insert]
  split
  · rename_i g; subst g; exact h.symm
  · rfl

theorem insert_insert {k : Bytes} {v v' : V} {m : SMap V} (hs : Sorted m) :
    insert k v' (insert k v m) = insert k v' m := by
  refine ext (sorted_insert (sorted_insert hs)) (sorted_insert hs) fun k' => ?_
  simp only [find_insert]
  split <;> rfl

end SMap
end Verif
