import Verif.Go.Lang
import Verif.Fsm

/-!
# From `goto` programs to tables

When a `goto` program has the shape that Ragel gives it (`Shape`) it does what the interpreter of tables (`Verif.Fsm.run`) does.
-/

namespace Verif.Go
open Verif.Fsm (Row Label Step Res)

variable {A C R X : Type}

/-! ## The dispatch on the current byte, without the other variables -/

inductive Pick where
  | fall (w : Option Nat)
  | lands (l : Lbl)
  | bad
  deriving DecidableEq, Repr

def pickOpd (b : Nat) (w : Option Nat) : Opd → Option Nat
  | .byte => some b
  | .widec => w
  | .lit n => some n

def pickTest (env : C → Option Bool) (b : Nat) (w : Option Nat) : Cond C → Option Bool
  | .cmp o x y => (pickOpd b w x).bind fun x => (pickOpd b w y).map fun y => o.holds x y
  | .and x y => match pickTest env b w x with
    | some true => pickTest env b w y
    | some false => some false
    | none => none
  | .prim c => env c
  | _ => none

/-- where the dispatch goes for byte `b`; `w` is the value of `_widec` if it has one -/
def pick (env : C → Option Bool) (b : Nat) : Code A C R → Option Nat → Pick
  | .done, w => .fall w
  | .stmt .widecByte k, _ => pick env b k (some b)
  | .stmt (.widecBase n z) k, _ => pick env b k (some (n + (b - z)))
  | .stmt (.widecAdd n) k, some w => pick env b k (some (w + n))
  | .stmt _ _, _ => .bad
  | .goto l _, _ => .lands l
  | .ifElse c t e k, w => match pickTest env b w c with
    | some true => match pick env b t w with
      | .fall w' => pick env b k w'
      | r => r
    | some false => match pick env b e w with
      | .fall w' => pick env b k w'
      | r => r
    | none => .bad
  | .jumpCs _ _, _ => .bad
  | .ret _ _, _ => .bad

def Knows (g : GS X) (w : Option Nat) : Prop := ∀ n, w = some n → g.widec = n

theorem opd_pick {g : GS X} {b : UInt8} (hb : g.byte = some b) {w : Option Nat} (hw : Knows g w) {x : Opd} {n : Nat}
    (h : pickOpd b.toNat w x = some n) : g.opd x = some n := by
  cases x with
  | byte => simp only [pickOpd, Option.some.injEq] at h; simp [GS.opd, hb, h]
  | widec => simp only [GS.opd]; exact congrArg some (hw n h)
  | lit k => exact h

theorem test_pick {S : Sem A C X} {g : GS X} {b : UInt8} (hb : g.byte = some b) {w : Option Nat} (hw : Knows g w) {env : C → Option Bool}
    (henv : ∀ c v, env c = some v → S.cond c g = some v) :
    ∀ {c : Cond C} {v : Bool}, pickTest env b.toNat w c = some v → S.test g c = some v := by
  intro c
  induction c with
  | cmp o x y =>
    intro v h
    simp only [pickTest, Option.bind_eq_some_iff, Option.map_eq_some_iff] at h
    obtain ⟨n, h1, n', h2, rfl⟩ := h
    simp [Sem.test, opd_pick hb hw h1, opd_pick hb hw h2]
  | and x y ihx ihy =>
    intro v h
    simp only [pickTest] at h
    simp only [Sem.test]
    cases hx : pickTest env b.toNat w x with
    | none => rw [hx] at h; simp at h
    | some v' =>
      rw [hx] at h
      rw [ihx hx]
      cases v' with
      | true => exact ihy h
      | false => exact h
  | prim c => intro v h; exact henv c v h
  | pEqPe => intro v h; simp [pickTest] at h
  | pEqEof => intro v h; simp [pickTest] at h
  | csIn ns => intro v h; simp [pickTest] at h
  | csFailed a b => intro v h; simp [pickTest] at h

/-- what `pick` finds is what is executed -/
theorem exec_pick {S : Sem A C X} {b : UInt8} {env : C → Option Bool} :
    ∀ (d : Code A C R) (g : GS X) (w : Option Nat), g.byte = some b → (∀ c v w', env c = some v → S.cond c { g with widec := w' } = some v) →
      Knows g w →
      (∀ l, pick env b.toNat d w = .lands l → ∃ w', S.exec d g = .goto l { g with widec := w' }) ∧
      (∀ w1, pick env b.toNat d w = .fall w1 → ∃ w', S.exec d g = .fall { g with widec := w' } ∧ Knows { g with widec := w' } w1) := by
  intro d
  induction d with
  | done =>
    intro g w hb henv hw
    refine ⟨fun l h => (by simp [pick] at h), fun w1 h => ?_⟩
    simp only [pick, Pick.fall.injEq] at h
    subst h
    exact ⟨g.widec, rfl, hw⟩
  | goto l k _ =>
    intro g w hb henv hw
    refine ⟨fun l' h => ?_, fun w1 h => (by simp [pick] at h)⟩
    simp only [pick, Pick.lands.injEq] at h
    subst h
    exact ⟨g.widec, rfl⟩
  | jumpCs t k _ => intro g w hb henv hw; exact ⟨fun l h => (by simp [pick] at h), fun l h => (by simp [pick] at h)⟩
  | ret r k _ => intro g w hb henv hw; exact ⟨fun l h => (by simp [pick] at h), fun l h => (by simp [pick] at h)⟩
  | stmt a k ih =>
    intro g w hb henv hw
    have step : ∀ n, S.simple g a = some { g with widec := n } → pick env b.toNat (.stmt a k) w = pick env b.toNat k (some n) →
        (∀ l, pick env b.toNat (.stmt a k) w = .lands l → ∃ w', S.exec (.stmt a k) g = .goto l { g with widec := w' }) ∧
        (∀ w1, pick env b.toNat (.stmt a k) w = .fall w1 →
          ∃ w', S.exec (.stmt a k) g = .fall { g with widec := w' } ∧ Knows { g with widec := w' } w1) := by
      intro n hs hp
      have := ih { g with widec := n } (some n) hb henv (fun m hm => by cases hm; rfl)
      simp only [hp, Sem.exec, hs]
      exact this
    cases a with
    | widecByte => exact step b.toNat (by simp [Sem.simple, hb]) rfl
    | widecBase n z => exact step (n + (b.toNat - z)) (by simp [Sem.simple, hb]) rfl
    | widecAdd n =>
      cases w with
      | none => exact ⟨fun l h => (by simp [pick] at h), fun l h => (by simp [pick] at h)⟩
      | some w => exact step (w + n) (by simp [Sem.simple, hw w rfl]) rfl
    | incP => exact ⟨fun l h => (by simp [pick] at h), fun l h => (by simp [pick] at h)⟩
    | decP => exact ⟨fun l h => (by simp [pick] at h), fun l h => (by simp [pick] at h)⟩
    | pZero => exact ⟨fun l h => (by simp [pick] at h), fun l h => (by simp [pick] at h)⟩
    | dataInput => exact ⟨fun l h => (by simp [pick] at h), fun l h => (by simp [pick] at h)⟩
    | peLen => exact ⟨fun l h => (by simp [pick] at h), fun l h => (by simp [pick] at h)⟩
    | eofLen => exact ⟨fun l h => (by simp [pick] at h), fun l h => (by simp [pick] at h)⟩
    | setCs n => exact ⟨fun l h => (by simp [pick] at h), fun l h => (by simp [pick] at h)⟩
    | widecZero => exact ⟨fun l h => (by simp [pick] at h), fun l h => (by simp [pick] at h)⟩
    | prim a => exact ⟨fun l h => (by simp [pick] at h), fun l h => (by simp [pick] at h)⟩
  | ifElse c t e k iht ihe ihk =>
    intro g w hb henv hw
    have branch : ∀ (v : Bool) (x : Code A C R), pickTest env b.toNat w c = some v →
        (∀ (g : GS X) (w : Option Nat), g.byte = some b → (∀ c v w', env c = some v → S.cond c { g with widec := w' } = some v) → Knows g w →
          (∀ l, pick env b.toNat x w = .lands l → ∃ w', S.exec x g = .goto l { g with widec := w' }) ∧
          (∀ w1, pick env b.toNat x w = .fall w1 → ∃ w', S.exec x g = .fall { g with widec := w' } ∧ Knows { g with widec := w' } w1)) →
        (pick env b.toNat (.ifElse c t e k) w = match pick env b.toNat x w with
          | .fall w' => pick env b.toNat k w'
          | r => r) →
        (S.exec (.ifElse c t e k) g = match S.exec x g with
          | .fall g' => S.exec k g'
          | r => r) →
        (∀ l, pick env b.toNat (.ifElse c t e k) w = .lands l → ∃ w', S.exec (.ifElse c t e k) g = .goto l { g with widec := w' }) ∧
        (∀ w1, pick env b.toNat (.ifElse c t e k) w = .fall w1 →
          ∃ w', S.exec (.ifElse c t e k) g = .fall { g with widec := w' } ∧ Knows { g with widec := w' } w1) := by
      intro v x hv ihx hp he
      obtain ⟨i1, i2⟩ := ihx g w hb henv hw
      rw [hp, he]
      cases hx : pick env b.toNat x w with
      | bad => exact ⟨fun l h => (by simp at h), fun l h => (by simp at h)⟩
      | lands l0 =>
        obtain ⟨w', hw'⟩ := i1 l0 hx
        rw [hw']
        refine ⟨fun l h => ?_, fun l h => (by simp at h)⟩
        simp only [Pick.lands.injEq] at h
        subst h
        exact ⟨w', rfl⟩
      | fall w1 =>
        obtain ⟨w', h1, h2⟩ := i2 w1 hx
        rw [h1]
        exact ihk { g with widec := w' } w1 hb henv h2
    cases hv : pickTest env b.toNat w c with
    | none => exact ⟨fun l h => (by simp [pick, hv] at h), fun l h => (by simp [pick, hv] at h)⟩
    | some v =>
      have ht : S.test g c = some v := test_pick hb hw (fun c v h => henv c v g.widec h) hv
      cases v with
      | true => exact branch true t hv iht (by simp only [pick, hv]) (by simp only [Sem.exec, ht]; cases S.exec t g <;> rfl)
      | false => exact branch false e hv ihe (by simp only [pick, hv]) (by simp only [Sem.exec, ht]; cases S.exec e g <;> rfl)

/-! ## Programs of Ragel's shape -/

/-- the statements of a list of actions -/
def codes {Act : Type} (code : Act → Code A C R → Code A C R) : List Act → Code A C R → Code A C R
  | [], k => k
  | a :: as, k => code a (codes code as k)

/-- `if p++; p == pe { goto _testEofN }` -/
def stCode (n : Nat) : Code A C R := .stmt .incP (.ifElse .pEqPe (.goto (.testEofN n) .done) .done .done)

/-- The parts: a program, its meaning, a table, the meaning of its actions on states `M`, the statements of each action, and how
variables represent a state. -/
structure Setup (A C R X Act M : Type) where
  P : Prog A C R
  S : Sem A C X
  T : Nat → Row Act
  act : Act → M → Step M
  adv : M → M
  code : Act → Code A C R → Code A C R
  pos : M → Nat
  dat : M → Bytes
  rx : M → X → Prop
  env : C → Option Bool
  last : Nat

variable {Act M : Type}

/-- the variables represent the state, with the position `i` -/
structure Setup.RelAt (U : Setup A C R X Act M) (i : Int) (m : M) (g : GS X) : Prop where
  p : g.p = i
  data : g.data = U.dat m
  pe : g.pe = (U.dat m).length
  eof : g.eof = (U.dat m).length
  x : U.rx m g.x

/-- the variables represent the state -/
abbrev Setup.Rel (U : Setup A C R X Act M) (m : M) (g : GS X) : Prop := U.RelAt (U.pos m) m g

/-- a state that can be gone to -/
structure Setup.HasSt (U : Setup A C R X Act M) (n : Nat) : Prop where
  lo : 1 ≤ n
  hi : n ≤ U.last
  st : U.P (.st n) = some (stCode n, .stCase n)
  eof : ∃ nx, U.P (.testEofN n) = some (.stmt (.setCs n) (.goto .testEof .done), nx)

/-- what label `l` does is what the table says -/
def Setup.Leads (U : Setup A C R X Act M) (l : Lbl) (lab : Label Act) : Prop :=
  (lab.tgt = 0 ∨ U.HasSt lab.tgt) ∧
  ((l = .st lab.tgt ∧ lab.acts = []) ∨ ∃ k nx, l = .tr k ∧ U.P (.tr k) = some (codes U.code lab.acts (.goto (.st lab.tgt) .done), nx))

/-- what the statements of an action do is what the action does -/
def Setup.ActOK (U : Setup A C R X Act M) (a : Act) : Prop :=
  ∀ (m : M) (g : GS X) (k : Code A C R), U.Rel m g →
    match U.act a m with
    | .next m' => ∃ x', U.Rel m' { g with x := x' } ∧ U.S.exec (U.code a k) g = U.S.exec k { g with x := x' }
    | .jump m' s => U.HasSt s ∧ ∃ x', U.Rel m' { g with x := x' } ∧ U.S.exec (U.code a k) g = .goto (.st s) { g with x := x', p := g.p - 1 }
    | .panic => U.S.exec (U.code a k) g = .panic

structure Setup.Shape (U : Setup A C R X Act M) : Prop where
  adv_pos : ∀ m, U.pos (U.adv m) = U.pos m + 1
  adv_dat : ∀ m, U.dat (U.adv m) = U.dat m
  adv_rx : ∀ m x, U.rx m x → U.rx (U.adv m) x
  act : ∀ a, U.ActOK a
  env : ∀ m g c v, U.rx m g.x → U.env c = some v → U.S.cond c g = some v
  case : ∀ n, 1 ≤ n → n ≤ U.last → ∃ d nx, U.P (.stCase n) = some (codes U.code (U.T n).frm d, nx) ∧
    ∀ b : UInt8, ∃ l, pick U.env b.toNat d none = .lands l ∧ U.Leads l ((U.T n).dispatch b.toNat)
  st0 : ∃ nx, U.P (.st 0) = some (.stmt (.setCs 0) (.goto .out .done), nx)
  eof : ∃ c, U.P .testEof = some (c, .out) ∧ ∀ n, 1 ≤ n → n ≤ U.last → ∀ g : GS X, g.cs = n → g.p = g.eof →
    U.S.exec c g = U.S.exec (codes U.code (U.T n).eof .done) g

namespace Setup
variable {U : Setup A C R X Act M}

/-- a list of actions -/
theorem Shape.acts (hU : U.Shape) : ∀ (as : List Act) (m : M) (g : GS X) (k : Code A C R), U.Rel m g →
    match Fsm.runActs U.act as m with
    | .next m' => ∃ x', U.Rel m' { g with x := x' } ∧ U.S.exec (codes U.code as k) g = U.S.exec k { g with x := x' }
    | .jump m' s => U.HasSt s ∧ ∃ x', U.Rel m' { g with x := x' } ∧
        U.S.exec (codes U.code as k) g = .goto (.st s) { g with x := x', p := g.p - 1 }
    | .panic => U.S.exec (codes U.code as k) g = .panic := by
  intro as
  induction as with
  | nil => intro m g k hr; exact ⟨g.x, hr, rfl⟩
  | cons a as ih =>
    intro m g k hr
    have ha := hU.act a m g (codes U.code as k) hr
    simp only [Fsm.runActs, codes]
    cases hact : U.act a m with
    | panic => rw [hact] at ha; exact ha
    | jump m' s => rw [hact] at ha; exact ha
    | next m' =>
      rw [hact] at ha
      obtain ⟨x', h1, h2⟩ := ha
      have := ih m' { g with x := x' } k h1
      simp only
      cases hrun : Fsm.runActs U.act as m' with
      | panic => rw [hrun] at this; simp only at this ⊢; rw [h2]; exact this
      | jump m'' s =>
        rw [hrun] at this
        obtain ⟨i1, x'', i2, i3⟩ := this
        exact ⟨i1, x'', i2, by rw [h2]; exact i3⟩
      | next m'' =>
        rw [hrun] at this
        obtain ⟨x'', i2, i3⟩ := this
        exact ⟨x'', i2, by rw [h2]; exact i3⟩

/-- `stN:` with input left -/
theorem HasSt.next {n : Nat} (h : U.HasSt n) {m : M} {g : GS X} (hr : U.RelAt (U.pos m - 1) m g) (hlt : U.pos m < (U.dat m).length) :
    ∃ g', U.S.Goes U.P 1 (.st n) g (.stCase n) g' ∧ U.Rel m g' ∧ g'.cs = g.cs := by
  refine ⟨{ g with p := g.p + 1 }, Goes.fall h.st ?_, ⟨?_, hr.data, hr.pe, hr.eof, hr.x⟩, rfl⟩
  · have : ¬ g.p + 1 = g.pe := by rw [hr.p, hr.pe]; omega
    simp [stCode, Sem.exec, Sem.simple, Sem.test, this]
  · simp only [hr.p]; omega

/-- `stN:` at the end of the input -/
theorem HasSt.atEnd {n : Nat} (h : U.HasSt n) {m : M} {g : GS X} (hr : U.RelAt (U.pos m - 1) m g) (hlt : U.pos m = (U.dat m).length) :
    ∃ g', U.S.Goes U.P 2 (.st n) g .testEof g' ∧ U.Rel m g' ∧ g'.cs = n := by
  obtain ⟨nx, he⟩ := h.eof
  refine ⟨{ g with p := g.p + 1, cs := n }, Goes.trans (n := 1) (n' := 1) (Goes.goto (l' := .testEofN n) (g' := { g with p := g.p + 1 }) h.st ?_)
    (Goes.goto he rfl), ⟨?_, hr.data, hr.pe, hr.eof, hr.x⟩, rfl⟩
  · have : g.p + 1 = g.pe := by rw [hr.p, hr.pe]; omega
    simp [stCode, Sem.exec, Sem.simple, Sem.test, this]
  · simp only [hr.p]; omega

/-- how a part of a run of the table ends -/
def EndsAs (U : Setup A C R X Act M) (bound : Nat) (l : Lbl) (g : GS X) : Res M → Prop
  | .done cs m => ∃ k g', k ≤ bound ∧ U.S.Goes U.P k l g .out g' ∧ U.Rel m g' ∧ g'.cs = cs
  | .panic => ∃ k, k ≤ bound ∧ ∀ fuel, U.S.run U.P (k + fuel) l g = .panics
  | .loop => True

theorem EndsAs.after {l l' : Lbl} {g g' : GS X} {res : Res M} {n bound : Nat} (h : U.EndsAs bound l' g' res)
    (hg : U.S.Goes U.P n l g l' g') : U.EndsAs (n + bound) l g res := by
  cases res with
  | loop => trivial
  | panic =>
    obtain ⟨k, hk, h⟩ := h
    exact ⟨n + k, by omega, fun fuel => by rw [Nat.add_assoc, hg]; exact h fuel⟩
  | done cs m =>
    obtain ⟨k, g'', hk, h1, h2, h3⟩ := h
    exact ⟨n + k, g'', by omega, Goes.trans hg h1, h2, h3⟩

theorem EndsAs.mono {l : Lbl} {g : GS X} {res : Res M} {n bound : Nat} (h : U.EndsAs n l g res) (hb : n ≤ bound) : U.EndsAs bound l g res := by
  cases res with
  | loop => trivial
  | panic =>
    obtain ⟨k, hk, h⟩ := h
    exact ⟨k, by omega, h⟩
  | done cs m =>
    obtain ⟨k, g'', hk, h⟩ := h
    exact ⟨k, g'', by omega, h⟩

theorem panic_at {P : Prog A C R} {S : Sem A C X} {l nx : Lbl} {c : Code A C R} {g : GS X} (h : P l = some (c, nx)) (he : S.exec c g = .panic) (fuel : Nat) :
    S.run P (1 + fuel) l g = .panics := by
  rw [Nat.add_comm, Sem.run, h]
  simp only [he]

/-- The end of input switch. -/
theorem Shape.atEof (hU : U.Shape) : ∀ (fuel cs : Nat) (m : M) (g : GS X), 1 ≤ cs → cs ≤ U.last → U.Rel m g → U.pos m = (U.dat m).length → g.cs = cs →
    U.EndsAs (3 * fuel) .testEof g (Fsm.runEof U.T U.act fuel cs m) := by
  intro fuel
  induction fuel with
  | zero => intro cs m g _ _ _ _ _; trivial
  | succ fuel ih =>
    intro cs m g h1 h2 hr hp hcs
    obtain ⟨c, hP, he⟩ := hU.eof
    have hex := he cs h1 h2 g hcs (by rw [hr.p, hr.eof, hp])
    have ha := hU.acts (U.T cs).eof m g .done hr
    simp only [Fsm.runEof]
    cases hrun : Fsm.runActs U.act (U.T cs).eof m with
    | panic =>
      rw [hrun] at ha
      exact ⟨1, by omega, fun f => panic_at hP (by rw [hex]; exact ha) f⟩
    | next m' =>
      rw [hrun] at ha
      obtain ⟨x', i1, i2⟩ := ha
      exact ⟨1, _, by omega, Goes.fall hP (by rw [hex, i2]; rfl), i1, hcs⟩
    | jump m' s =>
      rw [hrun] at ha
      obtain ⟨i1, x', i2, i3⟩ := ha
      have hpos : U.pos m' = U.pos m := by have := i2.p; simp only [hr.p] at this; omega
      have hdat : U.dat m' = U.dat m := by rw [← i2.data, ← hr.data]
      have hr' : U.RelAt (U.pos m' - 1) m' { g with x := x', p := g.p - 1 } :=
        ⟨by simp only [hr.p, hpos], i2.data, i2.pe, i2.eof, i2.x⟩
      obtain ⟨g', k1, k2, k3⟩ := i1.atEnd hr' (by rw [hpos, hdat, hp])
      have := ih s m' g' i1.lo i1.hi k2 (by rw [hpos, hdat, hp]) k3
      exact (this.after (Goes.trans (n := 1) (n' := 2) (Goes.goto hP (by rw [hex, i3])) k1)).mono (by omega)

theorem byte_of {m : M} {g : GS X} (hr : U.Rel m g) {b : UInt8} {bs : Bytes} (hd : (U.dat m).drop (U.pos m) = b :: bs) :
    g.byte = some b ∧ U.pos m < (U.dat m).length := by
  have hlt : U.pos m < (U.dat m).length := by
    apply Nat.lt_of_not_le
    intro h
    rw [List.drop_eq_nil_of_le h] at hd
    cases hd
  refine ⟨?_, hlt⟩
  have : g.p.toNat = U.pos m := by rw [hr.p]; rfl
  unfold GS.byte
  rw [if_pos (by rw [hr.p]; exact Int.natCast_nonneg _), this, hr.data]
  rw [List.drop_eq_getElem_cons hlt] at hd
  rw [List.getElem?_eq_getElem hlt]
  simp only [List.cons.injEq] at hd
  exact congrArg some hd.1

/-- what comes of one byte -/
def StepsAs (U : Setup A C R X Act M) (bound : Nat) (l : Lbl) (g : GS X) : Res M → Prop
  | .done 0 m => ∃ k g', k ≤ bound ∧ U.S.Goes U.P k l g .out g' ∧ U.Rel m g' ∧ g'.cs = 0
  | .done (cs + 1) m => U.HasSt (cs + 1) ∧ ∃ k g', k ≤ bound ∧ U.S.Goes U.P k l g (.st (cs + 1)) g' ∧ U.RelAt (U.pos m - 1) m g'
  | .panic => ∃ k, k ≤ bound ∧ ∀ fuel, U.S.run U.P (k + fuel) l g = .panics
  | .loop => True

theorem StepsAs.after {l l' : Lbl} {g g' : GS X} {res : Res M} {n bound : Nat} (h : U.StepsAs bound l' g' res)
    (hg : U.S.Goes U.P n l g l' g') : U.StepsAs (n + bound) l g res := by
  cases res with
  | loop => trivial
  | panic =>
    obtain ⟨k, hk, h⟩ := h
    exact ⟨n + k, by omega, fun fuel => by rw [Nat.add_assoc, hg]; exact h fuel⟩
  | done cs m =>
    cases cs with
    | zero =>
      obtain ⟨k, g'', hk, h1, h2, h3⟩ := h
      exact ⟨n + k, g'', by omega, Goes.trans hg h1, h2, h3⟩
    | succ cs =>
      obtain ⟨h0, k, g'', hk, h1, h2⟩ := h
      exact ⟨h0, n + k, g'', by omega, Goes.trans hg h1, h2⟩

theorem StepsAs.mono {l : Lbl} {g : GS X} {res : Res M} {n bound : Nat} (h : U.StepsAs n l g res) (hb : n ≤ bound) : U.StepsAs bound l g res := by
  cases res with
  | loop => trivial
  | panic =>
    obtain ⟨k, hk, h⟩ := h
    exact ⟨k, by omega, h⟩
  | done cs m =>
    cases cs with
    | zero =>
      obtain ⟨k, g'', hk, h⟩ := h
      exact ⟨k, g'', by omega, h⟩
    | succ cs =>
      obtain ⟨h0, k, g'', hk, h⟩ := h
      exact ⟨h0, k, g'', by omega, h⟩

theorem again {m m' : M} {g : GS X} {x' : X} {s : Nat} (hr : U.Rel m g) (i1 : U.HasSt s) (i2 : U.Rel m' { g with x := x' })
    (hlt : U.pos m < (U.dat m).length) :
    ∃ g', U.S.Goes U.P 1 (.st s) { g with x := x', p := g.p - 1 } (.stCase s) g' ∧ U.Rel m' g' ∧ U.pos m' = U.pos m ∧ U.dat m' = U.dat m := by
  have hpos : U.pos m' = U.pos m := by have := i2.p; simp only [hr.p] at this; omega
  have hdat : U.dat m' = U.dat m := by rw [← i2.data, ← hr.data]
  have hr' : U.RelAt (U.pos m' - 1) m' { g with x := x', p := g.p - 1 } := ⟨by simp only [hr.p, hpos], i2.data, i2.pe, i2.eof, i2.x⟩
  obtain ⟨g', k1, k2, -⟩ := i1.next hr' (by rw [hpos, hdat]; exact hlt)
  exact ⟨g', k1, k2, hpos, hdat⟩

/-- One byte. -/
theorem Shape.atByte (hU : U.Shape) (b : UInt8) (bs : Bytes) : ∀ (fuel cs : Nat) (m : M) (g : GS X), 1 ≤ cs → cs ≤ U.last → U.Rel m g →
    (U.dat m).drop (U.pos m) = b :: bs →
    U.StepsAs (3 * fuel) (.stCase cs) g (Fsm.stepByte U.T U.act U.adv b fuel cs m) := by
  intro fuel
  induction fuel with
  | zero => intro cs m g _ _ _ _; trivial
  | succ fuel ih =>
    intro cs m g h1 h2 hr hd
    obtain ⟨d, nx, hP, hpick⟩ := hU.case cs h1 h2
    obtain ⟨l, hl, hlead⟩ := hpick b
    obtain ⟨hbyte, hlt⟩ := byte_of hr hd
    have ha := hU.acts (U.T cs).frm m g d hr
    simp only [Fsm.stepByte]
    cases hrun : Fsm.runActs U.act (U.T cs).frm m with
    | panic =>
      rw [hrun] at ha
      exact ⟨1, by omega, fun f => panic_at hP ha f⟩
    | jump m' s =>
      rw [hrun] at ha
      obtain ⟨i1, x', i2, i3⟩ := ha
      obtain ⟨g', k1, k2, k3, k4⟩ := again hr i1 i2 hlt
      have := ih s m' g' i1.lo i1.hi k2 (by rw [k3, k4]; exact hd)
      exact (this.after (Goes.trans (n := 1) (n' := 1) (Goes.goto hP i3) k1)).mono (by omega)
    | next m1 =>
      rw [hrun] at ha
      obtain ⟨x1, i2, i3⟩ := ha
      have hpos1 : U.pos m1 = U.pos m := by have := i2.p; simp only [hr.p] at this; omega
      have hdat1 : U.dat m1 = U.dat m := by rw [← i2.data, ← hr.data]
      have hd1 : (U.dat m1).drop (U.pos m1) = b :: bs := by rw [hpos1, hdat1]; exact hd
      obtain ⟨hbyte1, hlt1⟩ := byte_of i2 hd1
      obtain ⟨w, hw⟩ := (exec_pick (S := U.S) (b := b) (env := U.env) d { g with x := x1 } none hbyte1
        (fun c v w' h => hU.env m1 _ c v i2.x h) (fun n h => by cases h)).1 l hl
      obtain ⟨g1, hg1⟩ : ∃ g1, g1 = ({ g with x := x1, widec := w } : GS X) := ⟨_, rfl⟩
      have r1 : U.Rel m1 g1 := by subst hg1; exact ⟨i2.p, i2.data, i2.pe, i2.eof, i2.x⟩
      have go1 : U.S.Goes U.P 1 (.stCase cs) g l g1 := by subst hg1; exact Goes.goto hP (by rw [i3, hw])
      simp only
      -- from `st tgt` on
      have fin : ∀ (k : Nat) (m2 : M) (g2 : GS X), k ≤ 2 → U.S.Goes U.P k (.stCase cs) g (.st ((U.T cs).dispatch b.toNat).tgt) g2 → U.Rel m2 g2 →
          U.StepsAs (3 * (fuel + 1)) (.stCase cs) g
            (if ((U.T cs).dispatch b.toNat).tgt = 0 then .done 0 m2 else .done ((U.T cs).dispatch b.toNat).tgt (U.adv m2)) := by
        intro k m2 g2 hk hgo hr2
        rcases hlead.1 with h0 | hs
        · obtain ⟨nx', hst⟩ := hU.st0
          rw [if_pos h0]
          rw [h0] at hgo
          exact ⟨k + 1, { g2 with cs := 0 }, by omega, Goes.trans hgo (Goes.goto hst rfl), ⟨hr2.p, hr2.data, hr2.pe, hr2.eof, hr2.x⟩, rfl⟩
        · have hne : ((U.T cs).dispatch b.toNat).tgt ≠ 0 := by have := hs.lo; omega
          rw [if_neg hne]
          obtain ⟨t, ht⟩ : ∃ t, ((U.T cs).dispatch b.toNat).tgt = t + 1 := ⟨_, (Nat.succ_pred hne).symm⟩
          rw [ht] at hgo hs ⊢
          refine ⟨hs, k, g2, by omega, hgo, ⟨?_, ?_, ?_, ?_, ?_⟩⟩
          · rw [hr2.p, hU.adv_pos]; omega
          · rw [hr2.data, hU.adv_dat]
          · rw [hr2.pe, hU.adv_dat]
          · rw [hr2.eof, hU.adv_dat]
          · exact hU.adv_rx _ _ hr2.x
      rcases hlead.2 with ⟨hlst, hnil⟩ | ⟨k, nx', htr, hPtr⟩
      · rw [hnil]
        simp only [Fsm.runActs]
        exact fin 1 m1 g1 (by omega) (hlst ▸ go1) r1
      · have ha2 := hU.acts ((U.T cs).dispatch b.toNat).acts m1 g1 (.goto (.st ((U.T cs).dispatch b.toNat).tgt) .done) r1
        rw [htr] at go1
        cases hrun2 : Fsm.runActs U.act ((U.T cs).dispatch b.toNat).acts m1 with
        | panic =>
          rw [hrun2] at ha2
          refine ⟨2, by omega, fun f => ?_⟩
          rw [show 2 + f = 1 + (1 + f) by omega, go1]
          exact panic_at hPtr ha2 f
        | jump m' s =>
          rw [hrun2] at ha2
          obtain ⟨j1, x', j2, j3⟩ := ha2
          obtain ⟨g', k1, k2, k3, k4⟩ := again r1 j1 j2 hlt1
          have := ih s m' g' j1.lo j1.hi k2 (by rw [k3, k4]; exact hd1)
          exact (this.after (Goes.trans (n := 2) (n' := 1) (Goes.trans (n := 1) (n' := 1) go1 (Goes.goto hPtr j3)) k1)).mono (by omega)
        | next m2 =>
          rw [hrun2] at ha2
          obtain ⟨x2, j2, j3⟩ := ha2
          exact fin 2 m2 _ (by omega) (Goes.trans (n := 1) (n' := 1) go1 (Goes.goto hPtr (by rw [j3]; rfl))) j2

/-- What comes of a byte that is done: the state has moved on by one. -/
theorem Shape.stepByte_place (hU : U.Shape) (b : UInt8) (bs : Bytes) : ∀ (fuel cs : Nat) (m : M) (g : GS X), 1 ≤ cs → cs ≤ U.last → U.Rel m g →
    (U.dat m).drop (U.pos m) = b :: bs →
    ∀ cs' m', Fsm.stepByte U.T U.act U.adv b fuel cs m = .done (cs' + 1) m' → U.pos m' = U.pos m + 1 ∧ U.dat m' = U.dat m := by
  intro fuel
  induction fuel with
  | zero => intro cs m g _ _ _ _ cs' m' h; simp [Fsm.stepByte] at h
  | succ fuel ih =>
    intro cs m g h1 h2 hr hd cs' m' h
    obtain ⟨d, nx, hP, hpick⟩ := hU.case cs h1 h2
    have ha := hU.acts (U.T cs).frm m g d hr
    obtain ⟨hbyte, hlt⟩ := byte_of hr hd
    simp only [Fsm.stepByte] at h
    cases hrun : Fsm.runActs U.act (U.T cs).frm m with
    | panic => rw [hrun] at h; simp at h
    | jump m1 s =>
      rw [hrun] at h ha
      obtain ⟨i1, x', i2, i3⟩ := ha
      obtain ⟨g', k1, k2, k3, k4⟩ := again hr i1 i2 hlt
      have := ih s m1 g' i1.lo i1.hi k2 (by rw [k3, k4]; exact hd) cs' m' h
      rw [k3, k4] at this
      exact this
    | next m1 =>
      rw [hrun] at h ha
      obtain ⟨x1, i2, i3⟩ := ha
      have hpos1 : U.pos m1 = U.pos m := by have := i2.p; simp only [hr.p] at this; omega
      have hdat1 : U.dat m1 = U.dat m := by rw [← i2.data, ← hr.data]
      have ha2 := hU.acts ((U.T cs).dispatch b.toNat).acts m1 { g with x := x1 } .done i2
      simp only at h
      cases hrun2 : Fsm.runActs U.act ((U.T cs).dispatch b.toNat).acts m1 with
      | panic => rw [hrun2] at h; simp at h
      | jump m2 s =>
        rw [hrun2] at h ha2
        obtain ⟨j1, x', j2, j3⟩ := ha2
        obtain ⟨g', k1, k2, k3, k4⟩ := again i2 j1 j2 (by rw [hpos1, hdat1]; exact hlt)
        have := ih s m2 g' j1.lo j1.hi k2 (by rw [k3, k4, hpos1, hdat1]; exact hd) cs' m' h
        rw [k3, k4, hpos1, hdat1] at this
        exact this
      | next m2 =>
        rw [hrun2] at h ha2
        obtain ⟨x2, j2, j3⟩ := ha2
        have hpos2 : U.pos m2 = U.pos m := by have := j2.p; simp only [hr.p] at this; omega
        have hdat2 : U.dat m2 = U.dat m := by rw [← j2.data, ← hr.data]
        simp only at h
        split at h
        · cases h
        · simp only [Res.done.injEq] at h
          rw [← h.2, hU.adv_pos, hU.adv_dat, hpos2, hdat2]
          exact ⟨rfl, rfl⟩

/-- The whole input, from `stCaseN` on. -/
theorem Shape.sim (hU : U.Shape) : ∀ (bs : Bytes) (cs : Nat) (m : M) (g : GS X), bs ≠ [] → 1 ≤ cs → cs ≤ U.last → U.Rel m g →
    (U.dat m).drop (U.pos m) = bs → U.EndsAs (13 * bs.length + 15) (.stCase cs) g (Fsm.run U.T U.act U.adv bs cs m) := by
  intro bs
  induction bs with
  | nil => intro cs m g h; exact absurd rfl h
  | cons b bs ih =>
    intro cs m g _ h1 h2 hr hd
    have hb := hU.atByte b bs Fsm.jumpFuel cs m g h1 h2 hr hd
    have hpl := hU.stepByte_place b bs Fsm.jumpFuel cs m g h1 h2 hr hd
    simp only [Fsm.run]
    rw [show 3 * Fsm.jumpFuel = 12 from rfl] at hb
    cases hs : Fsm.stepByte U.T U.act U.adv b Fsm.jumpFuel cs m with
    | loop => trivial
    | panic =>
      rw [hs] at hb
      obtain ⟨k, hk, h⟩ := hb
      exact ⟨k, by simp only [List.length_cons]; omega, h⟩
    | done cs' m' =>
      rw [hs] at hb
      cases cs' with
      | zero =>
        obtain ⟨k, g', hk, h⟩ := hb
        exact ⟨k, g', by simp only [List.length_cons]; omega, h⟩
      | succ cs' =>
        obtain ⟨h0, k, g', hk, hgo, hr'⟩ := hb
        obtain ⟨p1, p2⟩ := hpl cs' m' hs
        have hd' : (U.dat m').drop (U.pos m') = bs := by rw [p1, p2, ← List.drop_drop, hd]; rfl
        obtain ⟨hbyte, hlt⟩ := byte_of hr hd
        simp only
        cases bs with
        | nil =>
          have hend : U.pos m' = (U.dat m').length := by
            have h1 := congrArg List.length hd
            rw [p1, p2]
            simp only [List.length_drop, List.length_cons, List.length_nil] at h1
            omega
          obtain ⟨g'', k1, k2, k3⟩ := h0.atEnd hr' hend
          have := hU.atEof Fsm.jumpFuel (cs' + 1) m' g'' h0.lo h0.hi k2 hend k3
          rw [show 3 * Fsm.jumpFuel = 12 from rfl] at this
          exact (this.after (Goes.trans hgo k1)).mono (by simp only [List.length_cons, List.length_nil]; omega)
        | cons b' bs' =>
          have hlt' : U.pos m' < (U.dat m').length := by
            apply Nat.lt_of_not_le
            intro h
            rw [List.drop_eq_nil_of_le h] at hd'
            cases hd'
          obtain ⟨g'', k1, k2, -⟩ := h0.next hr' hlt'
          have := ih (cs' + 1) m' g'' (by simp) h0.lo h0.hi k2 hd'
          exact (this.after (Goes.trans hgo k1)).mono (by simp only [List.length_cons]; omega)

/-- The whole input, also when it is empty, from where the `switch cs` at the start of the function goes. -/
theorem Shape.whole (hU : U.Shape) {bs : Bytes} {cs : Nat} {m : M} {g : GS X} {l0 : Lbl} {g0 : GS X} {res : Res M} (h1 : 1 ≤ cs) (h2 : cs ≤ U.last)
    (hr : U.Rel m g) (hd : (U.dat m).drop (U.pos m) = bs) (hp : U.pos m ≤ (U.dat m).length) (hcs : g.cs = cs)
    (hgo : U.S.Goes U.P 1 l0 g0 (if bs.length = 0 then .testEof else .stCase cs) g)
    (hres : Fsm.run U.T U.act U.adv bs cs m = res) : U.EndsAs (13 * bs.length + 16) l0 g0 res := by
  subst hres
  cases bs with
  | nil =>
    have hend : U.pos m = (U.dat m).length := by
      have := congrArg List.length hd
      simp only [List.length_drop, List.length_nil] at this
      omega
    have := hU.atEof Fsm.jumpFuel cs m g h1 h2 hr hend hcs
    exact (this.after hgo).mono (by decide)
  | cons b bs =>
    have := hU.sim (b :: bs) cs m g (by simp) h1 h2 hr hd
    exact (this.after hgo).mono (by simp only [List.length_cons]; omega)

/-- From the end of the automaton to the `return`. -/
theorem EndsAs.returns {bound cs : Nat} {l : Lbl} {g : GS X} {m : M} (h : U.EndsAs bound l g (.done cs m)) {cn : Code A C R × Lbl}
    (hP : U.P .out = some cn) (Q : R → GS X → Prop) (he : ∀ g', U.Rel m g' → g'.cs = cs → ∃ r g'', U.S.exec cn.1 g' = .ret r g'' ∧ Q r g'')
    (fuel : Nat) (hf : bound + 1 ≤ fuel) : ∃ r g', U.S.run U.P fuel l g = .returned r g' ∧ Q r g' := by
  obtain ⟨k, g', hk, hgo, hr', hcs⟩ := h
  obtain ⟨r, g'', i1, i2⟩ := he g' hr' hcs
  obtain ⟨f, rfl⟩ : ∃ f, fuel = k + (f + 1) := ⟨fuel - k - 1, by omega⟩
  exact ⟨r, g'', by rw [hgo (f + 1)]; exact run_ret hP i1 f, i2⟩

end Setup
end Verif.Go
