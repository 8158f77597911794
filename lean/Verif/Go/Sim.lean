import Verif.Go.Lang

/-!
# Two meanings of the same program

A program whose simple statements are given two meanings (for instance over plain values and over memory) runs alike under both, if the
statements correspond one by one. Which variables are in use where is tracked by a mode, computed along the statements of a block.
-/

namespace Verif.Go

variable {A C R X Y D : Type}

/-- What a mode allows and how the statements change it. -/
structure Flow (A C D : Type) where
  start : D
  /-- the mode after a statement; `none`: the statement is not allowed -/
  stmt : D → A → Option D
  /-- whether a condition may be evaluated -/
  cond : D → C → Bool
  /-- the mode if the condition is true -/
  thn : D → C → D
  /-- what both modes allow -/
  meet : D → D → D
  /-- whether the block may be left in this mode -/
  ok : D → Bool := fun _ => true

/-- whether a condition may be evaluated -/
def Flow.test (F : Flow A C D) (d : D) : Cond C → Bool
  | .and a b => F.test d a && F.test d b
  | .prim c => F.cond d c
  | _ => true

/-- the mode of the first branch -/
def Flow.branch (F : Flow A C D) (d : D) : Cond C → D
  | .prim c => F.thn d c
  | _ => d

/-- the mode at the end of a sequence of statements -/
def Flow.code (F : Flow A C D) : D → Code A C R → Option D
  | d, .done => some d
  | d, .stmt (.prim a) k => match F.stmt d a with
    | some d' => F.code d' k
    | none => none
  | d, .stmt _ k => F.code d k
  | d, .goto _ _ => if F.ok d then some d else none
  | d, .ifElse c t e k => if F.test d c then match F.code (F.branch d c) t, F.code d e with
      | some d1, some d2 => F.code (F.meet d1 d2) k
      | _, _ => none
    else none
  | d, .jumpCs _ k => if F.ok d then F.code d k else none
  | d, .ret _ _ => if F.ok d then some d else none

/-- the variables of the automaton are the same -/
structure Same (g : GS X) (g' : GS Y) : Prop where
  input : g'.input = g.input
  data : g'.data = g.data
  p : g'.p = g.p
  pe : g'.pe = g.pe
  eof : g'.eof = g.eof
  cs : g'.cs = g.cs
  widec : g'.widec = g.widec

/-- the outcomes of a statement correspond -/
def StepRel (q : X → Y → Prop) : Option (GS X) → Option (GS Y) → Prop
  | none, o => o = none
  | some h, o => ∃ h', o = some h' ∧ Same h h' ∧ q h.x h'.x

/-- The statements correspond. -/
structure Corr (F : Flow A C D) (S : Sem A C X) (S' : Sem A C Y) (q : D → X → Y → Prop) : Prop where
  stmt : ∀ d d' a g g', F.stmt d a = some d' → Same g g' → q d g.x g'.x → StepRel (q d') (S.stmt a g) (S'.stmt a g')
  cond : ∀ d c g g', F.cond d c = true → Same g g' → q d g.x g'.x → S'.cond c g' = S.cond c g
  thn : ∀ d c g g', F.cond d c = true → Same g g' → q d g.x g'.x → S.cond c g = some true → q (F.thn d c) g.x g'.x
  left : ∀ d d' x y, q d x y → q (F.meet d d') x y
  right : ∀ d d' x y, q d' x y → q (F.meet d d') x y
  start : ∀ d x y, F.ok d = true → q d x y → q F.start x y

variable {F : Flow A C D} {S : Sem A C X} {S' : Sem A C Y} {q : D → X → Y → Prop}

theorem Same.byte {g : GS X} {g' : GS Y} (h : Same g g') : g'.byte = g.byte := by
  unfold GS.byte
  rw [h.p, h.data]

theorem Same.opd {g : GS X} {g' : GS Y} (h : Same g g') (o : Opd) : g'.opd o = g.opd o := by
  cases o <;> simp [GS.opd, h.byte, h.widec]

theorem Corr.test (H : Corr F S S' q) {d : D} {g : GS X} {g' : GS Y} (h : Same g g') (hq : q d g.x g'.x) : ∀ c, F.test d c = true → S'.test g' c = S.test g c
  | .cmp o a b, _ => by simp only [Sem.test, h.opd]
  | .and a b, hc => by
    simp only [Flow.test, Bool.and_eq_true] at hc
    simp only [Sem.test, Corr.test H h hq a hc.1, Corr.test H h hq b hc.2]
  | .pEqPe, _ => by simp only [Sem.test, h.p, h.pe]
  | .pEqEof, _ => by simp only [Sem.test, h.p, h.eof]
  | .csIn ns, _ => by simp only [Sem.test, h.cs]
  | .csFailed ff ef, _ => by simp only [Sem.test, h.cs]
  | .prim c, hc => H.cond d c g g' hc h hq

theorem Corr.branch (H : Corr F S S' q) {d : D} {g : GS X} {g' : GS Y} (h : Same g g') (hq : q d g.x g'.x) (c : Cond C) (hc : F.test d c = true) (ht : S.test g c = some true) :
    q (F.branch d c) g.x g'.x := by
  cases c with
  | prim c => exact H.thn d c g g' hc h hq ht
  | _ => exact hq

/-- the outcomes correspond -/
def EndRel (q : D → X → Y → Prop) (F : Flow A C D) (d : Option D) : End R X → End R Y → Prop
  | .fall g, .fall g' => Same g g' ∧ ∃ d', d = some d' ∧ q d' g.x g'.x
  | .goto l g, .goto l' g' => l' = l ∧ Same g g' ∧ q F.start g.x g'.x
  | .ret r g, .ret r' g' => r' = r ∧ Same g g' ∧ q F.start g.x g'.x
  | .panic, .panic => True
  | _, _ => False

/-- a statement about the automaton -/
theorem simple_same (S : Sem A C X) (S' : Sem A C Y) {g : GS X} {g' : GS Y} (h : Same g g') (s : Stmt A) (hs : ∀ a, s ≠ .prim a) :
    match S.simple g s with
    | none => S'.simple g' s = none
    | some k => ∃ k', S'.simple g' s = some k' ∧ Same k k' ∧ k.x = g.x ∧ k'.x = g'.x := by
  have hb := h.byte
  obtain ⟨h1, h2, h3, h4, h5, h6, h7⟩ := h
  cases s with
  | prim a => exact absurd rfl (hs a)
  | widecByte =>
    simp only [Sem.simple, hb]
    cases g.byte with
    | none => rfl
    | some b => exact ⟨_, rfl, ⟨h1, h2, h3, h4, h5, h6, rfl⟩, rfl, rfl⟩
  | widecBase n z =>
    simp only [Sem.simple, hb]
    cases g.byte with
    | none => rfl
    | some b => exact ⟨_, rfl, ⟨h1, h2, h3, h4, h5, h6, rfl⟩, rfl, rfl⟩
  | incP => exact ⟨_, rfl, ⟨h1, h2, by simp [h3], h4, h5, h6, h7⟩, rfl, rfl⟩
  | decP => exact ⟨_, rfl, ⟨h1, h2, by simp [h3], h4, h5, h6, h7⟩, rfl, rfl⟩
  | pZero => exact ⟨_, rfl, ⟨h1, h2, rfl, h4, h5, h6, h7⟩, rfl, rfl⟩
  | dataInput => exact ⟨_, rfl, ⟨h1, h1, h3, h4, h5, h6, h7⟩, rfl, rfl⟩
  | peLen => exact ⟨_, rfl, ⟨h1, h2, h3, by simp [h1], h5, h6, h7⟩, rfl, rfl⟩
  | eofLen => exact ⟨_, rfl, ⟨h1, h2, h3, h4, by simp [h1], h6, h7⟩, rfl, rfl⟩
  | setCs n => exact ⟨_, rfl, ⟨h1, h2, h3, h4, h5, rfl, h7⟩, rfl, rfl⟩
  | widecZero => exact ⟨_, rfl, ⟨h1, h2, h3, h4, h5, h6, rfl⟩, rfl, rfl⟩
  | widecAdd n => exact ⟨_, rfl, ⟨h1, h2, h3, h4, h5, h6, by simp [h7]⟩, rfl, rfl⟩

theorem Corr.exec (H : Corr F S S' q) : ∀ (k : Code A C R) (d d' : D) (g : GS X) (g' : GS Y), F.code d k = some d' → Same g g' → q d g.x g'.x →
    EndRel q F (some d') (S.exec k g) (S'.exec k g')
  | .done, d, d', g, g', hd, h, hq => by
    simp only [Flow.code, Option.some.injEq] at hd
    exact ⟨h, d', rfl, hd ▸ hq⟩
  | .stmt s k, d, d', g, g', hd, h, hq => by
    by_cases hs : ∃ a, s = .prim a
    · obtain ⟨a, rfl⟩ := hs
      simp only [Flow.code] at hd
      cases hf : F.stmt d a with
      | none => rw [hf] at hd; cases hd
      | some d1 =>
        rw [hf] at hd
        have := H.stmt d d1 a g g' hf h hq
        simp only [Sem.exec, Sem.simple]
        cases hst : S.stmt a g with
        | none => rw [hst] at this; rw [show S'.stmt a g' = none from this]; trivial
        | some g1 =>
          rw [hst] at this
          obtain ⟨g1', e1, e2, e3⟩ := this
          rw [e1]
          exact Corr.exec H k d1 d' g1 g1' hd e2 e3
    · have hs : ∀ a, s ≠ .prim a := fun a ha => hs ⟨a, ha⟩
      have hd' : F.code d k = some d' := by
        cases s with
        | prim a => exact absurd rfl (hs a)
        | _ => exact hd
      have := simple_same S S' h s hs
      simp only [Sem.exec]
      cases hst : S.simple g s with
      | none => rw [hst] at this; simp only at this; rw [this]; trivial
      | some g1 =>
        rw [hst] at this
        obtain ⟨g1', e1, e2, e3, e4⟩ := this
        rw [e1]
        exact Corr.exec H k d d' g1 g1' hd' e2 (by rw [e3, e4]; exact hq)
  | .goto l k, d, d', g, g', hd, h, hq => by
    simp only [Flow.code] at hd
    split at hd
    · rename_i hk; exact ⟨rfl, h, H.start _ _ _ hk hq⟩
    · cases hd
  | .ret r k, d, d', g, g', hd, h, hq => by
    simp only [Flow.code] at hd
    split at hd
    · rename_i hk; exact ⟨rfl, h, H.start _ _ _ hk hq⟩
    · cases hd
  | .jumpCs tbl k, d, d', g, g', hd, h, hq => by
    simp only [Flow.code] at hd
    split at hd
    case isFalse => cases hd
    rename_i hk
    simp only [Sem.exec, h.cs]
    cases tbl.lookup g.cs with
    | some l => exact ⟨rfl, h, H.start _ _ _ hk hq⟩
    | none => exact Corr.exec H k d d' g g' hd h hq
  | .ifElse c t e k, d, d', g, g', hd, h, hq => by
    simp only [Flow.code] at hd
    split at hd
    case isFalse => cases hd
    case isTrue hc =>
      cases h1 : F.code (F.branch d c) t with
      | none => rw [h1] at hd; cases hd
      | some d1 =>
        cases h2 : F.code d e with
        | none => rw [h1, h2] at hd; cases hd
        | some d2 =>
          rw [h1, h2] at hd
          simp only at hd
          simp only [Sem.exec, H.test h hq c hc]
          cases ht : S.test g c with
          | none => trivial
          | some b =>
            cases b with
            | true =>
              have hx := Corr.exec H t _ d1 g g' h1 h (H.branch h hq c hc ht)
              simp only
              revert hx
              cases S.exec t g <;> cases S'.exec t g' <;> intro hx <;> try exact hx.elim
              · obtain ⟨e1, dd, e2, e3⟩ := hx
                obtain rfl := Option.some.inj e2
                exact Corr.exec H k _ d' _ _ hd e1 (H.left _ _ _ _ e3)
              · exact hx
              · exact hx
              · trivial
            | false =>
              have hx := Corr.exec H e _ d2 g g' h2 h hq
              simp only
              revert hx
              cases S.exec e g <;> cases S'.exec e g' <;> intro hx <;> try exact hx.elim
              · obtain ⟨e1, dd, e2, e3⟩ := hx
                obtain rfl := Option.some.inj e2
                exact Corr.exec H k _ d' _ _ hd e1 (H.right _ _ _ _ e3)
              · exact hx
              · exact hx
              · trivial

/-- the outcomes of the function correspond -/
def FinRel (q : D → X → Y → Prop) (F : Flow A C D) : Fin R X → Fin R Y → Prop
  | .returned r g, .returned r' g' => r' = r ∧ Same g g' ∧ q F.start g.x g'.x
  | .panics, .panics => True
  | .stuck, .stuck => True
  | .timeout, .timeout => True
  | _, _ => False

/-- a block that may be run in this mode -/
def Flow.fine (F : Flow A C D) (d : D) (c : Code A C R) : Bool := (F.code d c).any F.ok

theorem Flow.fine_code {d : D} {c : Code A C R} (h : F.fine d c = true) : ∃ d', F.code d c = some d' ∧ F.ok d' = true := by
  unfold Flow.fine at h
  cases hc : F.code d c with
  | none => rw [hc] at h; cases h
  | some d' => rw [hc] at h; exact ⟨d', rfl, h⟩

/-- The program runs alike under both meanings. -/
theorem Corr.run (H : Corr F S S' q) {P : Prog A C R} (hP : ∀ l cn, P l = some cn → F.fine F.start cn.1 = true) :
    ∀ (n : Nat) (l : Lbl) (g : GS X) (g' : GS Y), Same g g' → q F.start g.x g'.x → FinRel q F (S.run P n l g) (S'.run P n l g')
  | 0, _, _, _, _, _ => trivial
  | n + 1, l, g, g', h, hq => by
    simp only [Sem.run]
    cases hl : P l with
    | none => trivial
    | some cn =>
      obtain ⟨d', hd, hok⟩ := Flow.fine_code (hP l cn hl)
      have hx := H.exec cn.1 _ _ g g' hd h hq
      obtain ⟨c, next⟩ := cn
      simp only at hx ⊢
      revert hx
      cases S.exec c g <;> cases S'.exec c g' <;> intro hx <;> try exact hx.elim
      · obtain ⟨e1, dd, e2, e3⟩ := hx
        obtain rfl := Option.some.inj e2
        exact Corr.run H hP n next _ _ e1 (H.start _ _ _ hok e3)
      · obtain ⟨rfl, e1, e2⟩ := hx
        exact Corr.run H hP n _ _ _ e1 e2
      · exact hx
      · trivial

/-- ... also from another mode than the one that the blocks are left in, if the first block allows it. -/
theorem Corr.run_from (H : Corr F S S' q) {P : Prog A C R} {l : Lbl} {cn : Code A C R × Lbl} (hl : P l = some cn) {d0 : D} (h0 : F.fine d0 cn.1 = true) (hP : ∀ l cn, P l = some cn → F.fine F.start cn.1 = true)
    (n : Nat) {g : GS X} {g' : GS Y} (h : Same g g') (hq : q d0 g.x g'.x) : FinRel q F (S.run P n l g) (S'.run P n l g') := by
  cases n with
  | zero => trivial
  | succ n =>
    simp only [Sem.run, hl]
    obtain ⟨d', hd, hok⟩ := Flow.fine_code h0
    have hx := H.exec cn.1 _ _ g g' hd h hq
    obtain ⟨c, next⟩ := cn
    simp only at hx ⊢
    revert hx
    cases S.exec c g <;> cases S'.exec c g' <;> intro hx <;> try exact hx.elim
    · obtain ⟨e1, dd, e2, e3⟩ := hx
      obtain rfl := Option.some.inj e2
      exact Corr.run H hP n next _ _ e1 (H.start _ _ _ hok e3)
    · obtain ⟨rfl, e1, e2⟩ := hx
      exact Corr.run H hP n _ _ _ e1 e2
    · exact hx
    · trivial

/-- all blocks of a tree -/
def Tree.all {α : Type} (f : α → Bool) : Tree α → Bool
  | .nil => true
  | .node l _ v r => l.all f && f v && r.all f

theorem Tree.all_find {α : Type} {f : α → Bool} {n : Nat} {v : α} : ∀ {t : Tree α}, t.all f = true → t.find n = some v → f v = true
  | .nil, _, h => by cases h
  | .node l k u r, ha, h => by
    simp only [Tree.all, Bool.and_eq_true] at ha
    simp only [Tree.find, cond_eq_ite] at h
    split at h
    · obtain rfl := Option.some.inj h
      exact ha.1.2
    · split at h
      · exact Tree.all_find ha.1.1 h
      · exact Tree.all_find ha.2 h

end Verif.Go
