import Verif.Rfc3164.DescentHdr

/-! # The language of `descend`: MSG -/

namespace Verif.Rfc3164
open Spec Spec.Bsd
open Verif.Rfc5424 (isGraph priScan toNat_eq)

theorem ctl_iff {b : UInt8} : isCtl b = true ↔ Control b := isCtl_iff
theorem ctl_false {b : UInt8} : isCtl b = false ↔ ¬ Control b := isCtl_false

theorem clean_iff {w : Bytes} : w.all (fun b => !isCtl b) = true ↔ Clean w := by
  simp only [List.all_eq_true, Bool.not_eq_true', Clean]
  exact forall_congr' fun b => forall_congr' fun _ => ctl_false

theorem clean_nil : Clean [] := by simp [Clean]
theorem clean_cons {b : UInt8} {w : Bytes} : Clean (b :: w) ↔ ¬ Control b ∧ Clean w := by simp [Clean]
theorem clean_append {v w : Bytes} : Clean (v ++ w) ↔ Clean v ∧ Clean w := by
  simp only [Clean, List.mem_append]
  exact ⟨fun h => ⟨fun b hb => h b (Or.inl hb), fun b hb => h b (Or.inr hb)⟩, fun h b hb => hb.elim (h.1 b) (h.2 b)⟩

theorem tagWF_iff {w : Bytes} : TagWF w ↔ w ≠ [] ∧ w.length ≤ 32 ∧ ∀ b ∈ w, isTag b = true := by
  have : ∀ b : UInt8, (Printable b ∧ b ≠ 58 ∧ b ≠ 91) ↔ isTag b = true := by
    intro b
    have h58 : b.toNat = 58 ↔ b = 58 := toNat_eq (n := 58) (by omega)
    have h91 : b.toNat = 91 ↔ b = 91 := toNat_eq (n := 91) (by omega)
    rw [isTag_iff, Printable, ne_eq, ne_eq, ← h58, ← h91]
  simp only [TagWF, this]

/-! ## `]: ` -/

/-- how much of `]: ` ends a text, given backwards -/
def kRev : Bytes → Nat
  | 32 :: 58 :: 93 :: _ => 3
  | 58 :: 93 :: _ => 2
  | 93 :: _ => 1
  | _ => 0

/-- how much of `]: ` ends a text -/
def kOf (s : Bytes) : Nat := kRev s.reverse

theorem kOf_rev (r : Bytes) : kOf r.reverse = kRev r := by
  simp only [kOf, List.reverse_reverse]

theorem kRev_one {r : Bytes} : kRev r = 1 ↔ ∃ t, r = 93 :: t := by
  unfold kRev; split <;> simp_all

theorem kRev_two {r : Bytes} : kRev r = 2 ↔ ∃ t, r = 58 :: 93 :: t := by
  unfold kRev; split <;> simp_all

theorem kRev_three {r : Bytes} : kRev r = 3 ↔ ∃ t, r = 32 :: 58 :: 93 :: t := by
  unfold kRev; split <;> simp_all

theorem kRev_le (r : Bytes) : kRev r ≤ 3 := by
  unfold kRev; split <;> omega

theorem kRev_cons (b : UInt8) (r : Bytes) : kRev (b :: r) =
    if b = 93 then 1 else if kRev r = 1 ∧ b = 58 then 2 else if kRev r = 2 ∧ b = 32 then 3 else 0 := by
  split
  · rename_i h; exact kRev_one.mpr ⟨r, by rw [h]⟩
  split
  · rename_i h; obtain ⟨t, rfl⟩ := kRev_one.mp h.1; exact kRev_two.mpr ⟨t, by rw [h.2]⟩
  split
  · rename_i h; obtain ⟨t, rfl⟩ := kRev_two.mp h.1; exact kRev_three.mpr ⟨t, by rw [h.2]⟩
  · rename_i h1 h2 h3
    have hle := kRev_le (b :: r)
    have n1 : kRev (b :: r) ≠ 1 := fun h => by
      obtain ⟨t, ht⟩ := kRev_one.mp h; exact h1 (List.cons.inj ht).1
    have n2 : kRev (b :: r) ≠ 2 := fun h => by
      obtain ⟨t, ht⟩ := kRev_two.mp h; exact h2 ⟨kRev_one.mpr ⟨t, (List.cons.inj ht).2⟩, (List.cons.inj ht).1⟩
    have n3 : kRev (b :: r) ≠ 3 := fun h => by
      obtain ⟨t, ht⟩ := kRev_three.mp h; exact h3 ⟨kRev_two.mpr ⟨t, (List.cons.inj ht).2⟩, (List.cons.inj ht).1⟩
    omega

theorem kOf_snoc (s : Bytes) (b : UInt8) : kOf (s ++ [b]) =
    if b = 93 then 1 else if kOf s = 1 ∧ b = 58 then 2 else if kOf s = 2 ∧ b = 32 then 3 else 0 := by
  rw [kOf, List.reverse_append]
  exact kRev_cons b s.reverse

theorem kOf_le (s : Bytes) : kOf s ≤ 3 := kRev_le _

theorem kOf_three {s : Bytes} : kOf s = 3 ↔ ∃ a, s = a ++ ascii "]: " := by
  obtain ⟨r, rfl⟩ : ∃ r, s = List.reverse r := ⟨s.reverse, by simp⟩
  rw [kOf_rev, kRev_three]
  constructor
  · rintro ⟨r', rfl⟩
    exact ⟨r'.reverse, by simp [ascii]⟩
  · rintro ⟨a, ha⟩
    have := congrArg List.reverse ha
    simp only [List.reverse_reverse, List.reverse_append] at this
    exact ⟨a.reverse, this⟩

theorem follows_snoc {s : Bytes} {b : UInt8} {x : Bytes} :
    Follows (s ++ [b]) x ↔ (∃ y, x = y ++ [b] ∧ Follows s y) ∨ (x = [b] ∧ ¬ Control b ∧ kOf s = 3) := by
  constructor
  · rintro ⟨⟨a, ha⟩, c, r, hx, hc⟩
    rcases List.eq_nil_or_concat r with rfl | ⟨r', z, rfl⟩
    · rw [hx] at ha ⊢
      obtain ⟨h1, h2⟩ := List.append_inj' (s₁ := s) (t₁ := [b]) (s₂ := a ++ ascii "]: ") (t₂ := [c]) (by rw [List.append_assoc]; exact ha) rfl
      right
      simp at h2
      subst h2
      exact ⟨rfl, hc, kOf_three.mpr ⟨a, h1⟩⟩
    · left
      rw [hx] at ha ⊢
      obtain ⟨h1, h2⟩ := List.append_inj' (s₁ := s) (t₁ := [b]) (s₂ := a ++ (ascii "]: " ++ (c :: r'))) (t₂ := [z])
        (by rw [ha]; simp) rfl
      simp at h2
      subst h2
      exact ⟨c :: r', by simp, ⟨a, h1⟩, c, r', rfl, hc⟩
  · rintro (⟨y, rfl, ⟨a, ha⟩, c, r, hy, hc⟩ | ⟨rfl, hc, hk⟩)
    · exact ⟨⟨a, by rw [ha]; simp⟩, c, r ++ [b], by rw [hy]; rfl, hc⟩
    · obtain ⟨a, ha⟩ := kOf_three.mp hk
      exact ⟨⟨a, by rw [ha]; simp⟩, b, [], rfl, hc⟩

theorem lastPart_snoc_new {s : Bytes} {b : UInt8} (hc : ¬ Control b) (hk : kOf s = 3) : LastPart (s ++ [b]) [b] := by
  refine Or.inl ⟨follows_snoc.mpr (Or.inr ⟨rfl, hc, hk⟩), ?_⟩
  rintro y ⟨-, c, r, rfl, -⟩
  simp

theorem lastPart_snoc_old {s acc : Bytes} {b : UInt8} (h : LastPart s acc) (hn : ¬ (¬ Control b ∧ kOf s = 3)) :
    LastPart (s ++ [b]) (acc ++ [b]) := by
  have key : ∀ x, Follows (s ++ [b]) x → ∃ y, x = y ++ [b] ∧ Follows s y := by
    intro x hx
    rcases follows_snoc.mp hx with h | h
    · exact h
    · exact absurd h.2 hn
  rcases h with ⟨h1, h2⟩ | ⟨h1, rfl⟩
  · refine Or.inl ⟨follows_snoc.mpr (Or.inl ⟨acc, rfl, h1⟩), ?_⟩
    intro y hy
    obtain ⟨y', rfl, hy'⟩ := key y hy
    have := h2 y' hy'
    simp; omega
  · refine Or.inr ⟨?_, rfl⟩
    intro y hy
    obtain ⟨y', -, hy'⟩ := key y hy
    exact h1 y' hy'

theorem lastPart_unique {s x y : Bytes} (hx : LastPart s x) (hy : LastPart s y) : x = y := by
  rcases hx with ⟨h1, h2⟩ | ⟨h1, rfl⟩ <;> rcases hy with ⟨g1, g2⟩ | ⟨g1, rfl⟩
  · have hl : x.length = y.length := Nat.le_antisymm (h2 y g1) (g2 x h1)
    obtain ⟨⟨a, ha⟩, -⟩ := h1
    obtain ⟨⟨a', ha'⟩, -⟩ := g1
    rw [ha] at ha'
    have := List.append_inj' ha' (by simp [hl])
    exact (List.append_inj' this.2 hl).2
  · exact absurd h1 (g1 x)
  · exact absurd g1 (h1 y)
  · rfl

/-- every text has a last part -/
theorem lastPart_exists (s : Bytes) : ∃ x, LastPart s x := by
  obtain ⟨r, rfl⟩ : ∃ r, s = List.reverse r := ⟨s.reverse, by simp⟩
  induction r with
  | nil =>
    refine ⟨[], Or.inr ⟨?_, rfl⟩⟩
    rintro y ⟨⟨a, ha⟩, -⟩
    have := congrArg List.length ha
    simp [ascii] at this
  | cons b r ih =>
    obtain ⟨x, hx⟩ := ih
    rw [List.reverse_cons]
    by_cases h : ¬ Control b ∧ kOf r.reverse = 3
    · exact ⟨_, lastPart_snoc_new h.1 h.2⟩
    · exact ⟨_, lastPart_snoc_old hx h⟩

theorem lastPart_nil {x : Bytes} : LastPart [] x ↔ x = [] := by
  have h0 : LastPart [] [] := by
    refine Or.inr ⟨?_, rfl⟩
    rintro y ⟨⟨a, ha⟩, -⟩
    have := congrArg List.length ha
    simp [ascii] at this
  exact ⟨fun h => lastPart_unique h h0, fun h => h ▸ h0⟩

theorem lastPart_ne {s x : Bytes} (h : LastPart s x) (hs : s ≠ []) : x ≠ [] := by
  rcases h with ⟨⟨-, c, r, rfl, -⟩, -⟩ | ⟨-, rfl⟩
  · simp
  · exact hs

theorem kOf_none {s : Bytes} (h : ∀ b ∈ s, b ≠ 93) : kOf s = 0 := by
  unfold kOf kRev
  have : ∀ b ∈ s.reverse, b ≠ 93 := fun b hb => h b (by simpa using hb)
  split
  · rename_i heq; rw [heq] at this; exact absurd rfl (this 93 (by simp))
  · rename_i heq; rw [heq] at this; exact absurd rfl (this 93 (by simp))
  · rename_i heq; rw [heq] at this; exact absurd rfl (this 93 (by simp))
  · rfl

/-- without `]` the last part is everything -/
theorem lastPart_none {s : Bytes} (h : ∀ b ∈ s, b ≠ 93) : LastPart s s := by
  refine Or.inr ⟨?_, rfl⟩
  rintro y ⟨⟨a, ha⟩, -⟩
  exact h 93 (by rw [ha]; simp [ascii]) rfl

/-! ## `dCont` -/

/-- the last `]` of `r`, if any -/
inductive LastBr (s0 : Bytes) (c0 : Bytes) : Bytes → Bytes → Prop
  | none {r : Bytes} (h : ∀ b ∈ r, b ≠ 93) : LastBr s0 c0 r c0
  | some {r1 r2 c : Bytes} (h : ∀ b ∈ r2, b ≠ 93) (hc : LastPart (s0 ++ r1) c) : LastBr s0 c0 (r1 ++ 93 :: r2) c

theorem lastBr_cons {s0 c0 c1 r c : Bytes} {b : UInt8} (h : LastBr (s0 ++ [b]) c1 r c)
    (h1 : b ≠ 93 → c1 = c0) (h2 : b = 93 → LastPart s0 c1) : LastBr s0 c0 (b :: r) c := by
  cases h with
  | none h =>
    by_cases hb : b = 93
    · subst hb
      exact LastBr.some (r1 := []) h (by simpa using h2 rfl)
    · rw [h1 hb]
      exact LastBr.none (by intro x hx; simp at hx; rcases hx with rfl | hx; exact hb; exact h x hx)
  | some h hc =>
    rename_i r1 r2
    exact LastBr.some (r1 := b :: r1) h (by simpa using hc)

/-- what `dCont` gives -/
theorem dCont_spec : ∀ (r : Bytes) (clean : Bool) (acc s0 : Bytes) (out : Out), LastPart s0 acc → (clean = true ↔ Clean acc) →
    ∃ text c, LastPart (s0 ++ r) text ∧ LastBr s0 out.content r c ∧
      dCont clean (kOf s0) acc r out = if text.all (fun b => !isCtl b) then .ok { out with content := c, message := text }
        else .stop none { out with content := c } := by
  intro r
  induction r with
  | nil =>
    intro clean acc s0 out hl hc
    refine ⟨acc, out.content, by simpa using hl, LastBr.none (by simp), ?_⟩
    have : (acc.all fun b => !isCtl b) = clean := by
      rw [Bool.eq_iff_iff, clean_iff, hc]
    rw [this]
    rfl
  | cons b r ih =>
    intro clean acc s0 out hl hc
    simp only [dCont]
    have happ : s0 ++ b :: r = (s0 ++ [b]) ++ r := by simp
    have h93 : b.toNat = 93 ↔ b = 93 := toNat_eq (n := 93) (by omega)
    have h58 : b.toNat = 58 ↔ b = 58 := toNat_eq (n := 58) (by omega)
    have h32 : b.toNat = 32 ↔ b = 32 := toNat_eq (n := 32) (by omega)
    simp only [h93, h58, h32]
    have hks := kOf_snoc s0 b
    by_cases hb : b = 93
    · rw [if_pos hb]
      have hvis : ¬ Control b := by rw [hb]; decide
      have hk1 : kOf (s0 ++ [b]) = 1 := by rw [hks, if_pos hb]
      by_cases hk : kOf s0 = 3
      · rw [if_pos hk, show (clean || decide (kOf s0 = 3)) = true by simp [hk], ← hk1]
        obtain ⟨text, c, e1, e2, e3⟩ := ih true [b] (s0 ++ [b]) { out with content := acc } (lastPart_snoc_new hvis hk)
          (by simp [clean_cons, clean_nil, hvis])
        refine ⟨text, c, happ ▸ e1, lastBr_cons e2 (fun h => absurd hb h) (fun _ => hl), e3⟩
      · rw [if_neg hk, show (clean || decide (kOf s0 = 3)) = clean by simp [hk], ← hk1]
        obtain ⟨text, c, e1, e2, e3⟩ := ih clean (acc ++ [b]) (s0 ++ [b]) { out with content := acc }
          (lastPart_snoc_old hl (fun h => hk h.2)) (by rw [hc, clean_append]; simp [clean_cons, clean_nil, hvis])
        exact ⟨text, c, happ ▸ e1, lastBr_cons e2 (fun h => absurd hb h) (fun _ => hl), e3⟩
    rw [if_neg hb] at hks ⊢
    by_cases hct : isCtl b = true
    · rw [if_pos hct]
      have hC := ctl_iff.mp hct
      have hk0 : kOf (s0 ++ [b]) = 0 := by
        rw [hks, if_neg, if_neg]
        · rintro ⟨-, rfl⟩; revert hC; decide
        · rintro ⟨-, rfl⟩; revert hC; decide
      obtain ⟨text, c, e1, e2, e3⟩ := ih false (acc ++ [b]) (s0 ++ [b]) out (lastPart_snoc_old hl (fun h => h.1 hC))
        (by rw [clean_append, clean_cons]; simp [hC])
      rw [hk0] at e3
      exact ⟨text, c, happ ▸ e1, lastBr_cons e2 (fun _ => rfl) (fun h => absurd h hb), e3⟩
    rw [if_neg hct]
    have hvis := ctl_false.mp (by simpa using hct)
    by_cases hk : kOf s0 = 3
    · rw [if_pos hk]
      have hk0 : kOf (s0 ++ [b]) = 0 := by rw [hks, hk]; simp
      obtain ⟨text, c, e1, e2, e3⟩ := ih true [b] (s0 ++ [b]) out (lastPart_snoc_new hvis hk)
        (by simp [clean_cons, clean_nil, hvis])
      rw [hk0] at e3
      exact ⟨text, c, happ ▸ e1, lastBr_cons e2 (fun _ => rfl) (fun h => absurd h hb), e3⟩
    · rw [if_neg hk, ← hks]
      obtain ⟨text, c, e1, e2, e3⟩ := ih clean (acc ++ [b]) (s0 ++ [b]) out (lastPart_snoc_old hl (fun h => hk h.2))
        (by rw [hc, clean_append]; simp [clean_cons, clean_nil, hvis])
      exact ⟨text, c, happ ▸ e1, lastBr_cons e2 (fun _ => rfl) (fun h => absurd h hb), e3⟩

theorem dOpen_spec (whole : Bytes) (b : UInt8) (r : Bytes) (out : Out) :
    ∃ text c, LastPart (b :: r) text ∧ LastBr [] out.content (b :: r) c ∧
      dOpen whole (b :: r) out = if text.all (fun b => !isCtl b) then .ok { out with content := c, message := text }
        else .stop none { out with content := c } := by
  simp only [dOpen, dCont]
  have h93 : b.toNat = 93 ↔ b = 93 := toNat_eq (n := 93) (by omega)
  simp only [h93]
  have h1 : LastPart [b] [b] := by
    have := lastPart_snoc_old (b := b) (lastPart_nil.mpr rfl) (fun h => by revert h; simp [kOf, kRev])
    simpa using this
  have hks := kOf_snoc [] b
  simp only [List.nil_append] at hks
  by_cases hb : b = 93
  · rw [if_pos hb, if_pos trivial, show (true || decide True) = true by simp]
    have hvis : ¬ Control b := by rw [hb]; decide
    rw [if_pos hb] at hks
    obtain ⟨text, c, e1, e2, e3⟩ := dCont_spec r true [b] [b] { out with content := [] } h1 (by simp [clean_cons, clean_nil, hvis])
    rw [hks] at e3
    exact ⟨text, c, e1, lastBr_cons (b := b) (s0 := []) e2 (fun h => absurd hb h) (fun _ => lastPart_nil.mpr rfl), e3⟩
  rw [if_neg hb] at hks ⊢
  have hk0 : kOf [b] = 0 := by rw [hks]; simp [kOf, kRev]
  by_cases hct : isCtl b = true
  · rw [if_pos hct]
    have hC := ctl_iff.mp hct
    obtain ⟨text, c, e1, e2, e3⟩ := dCont_spec r false [b] [b] out h1 (by simp [clean_cons, hC])
    rw [hk0] at e3
    exact ⟨text, c, e1, lastBr_cons (b := b) (s0 := []) e2 (fun _ => rfl) (fun h => absurd h hb), e3⟩
  · rw [if_neg hct, if_pos trivial]
    have hvis := ctl_false.mp (by simpa using hct)
    obtain ⟨text, c, e1, e2, e3⟩ := dCont_spec r true [b] [b] out h1 (by simp [clean_cons, clean_nil, hvis])
    rw [hk0] at e3
    exact ⟨text, c, e1, lastBr_cons (b := b) (s0 := []) e2 (fun _ => rfl) (fun h => absurd h hb), e3⟩

end Verif.Rfc3164
