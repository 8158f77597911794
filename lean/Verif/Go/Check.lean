import Verif.Go.Ragel

/-!
# Checking that a `goto` program has Ragel's shape

The conditions of `Setup.Shape` about the blocks of a program range over states and bytes. Here are functions that compute them, with
ranges of bytes treated at once, and the proofs that what they accept is right. They are evaluated by the kernel.
-/

namespace Verif.Go
open Verif.Fsm (Row Label)

variable {A C R X : Type}

/-! ## The dispatch on ranges of bytes -/

/-- the values of an operand when the byte is between `lo` and `hi`; `_widec` is the byte plus `w` -/
def rangeOpd (lo hi : Nat) (w : Option Nat) : Opd → Option (Nat × Nat)
  | .byte => some (lo, hi)
  | .widec => w.map fun o => (lo + o, hi + o)
  | .lit n => some (n, n)

def rangeLt (x y : Nat × Nat) : Option Bool := bif Nat.blt x.2 y.1 then some true else bif Nat.ble y.2 x.1 then some false else none
def rangeLe (x y : Nat × Nat) : Option Bool := bif Nat.ble x.2 y.1 then some true else bif Nat.blt y.2 x.1 then some false else none
def rangeEq (x y : Nat × Nat) : Option Bool :=
  bif Nat.beq x.1 x.2 && (Nat.beq y.1 y.2 && Nat.beq x.1 y.1) then some true else bif Nat.blt x.2 y.1 || Nat.blt y.2 x.1 then some false else none

def Cmp.rangeHolds : Cmp → Nat × Nat → Nat × Nat → Option Bool
  | .lt, x, y => rangeLt x y
  | .le, x, y => rangeLe x y
  | .eq, x, y => rangeEq x y
  | .ge, x, y => rangeLe y x
  | .gt, x, y => rangeLt y x

def rangeTest (env : C → Option Bool) (lo hi : Nat) (w : Option Nat) : Cond C → Option Bool
  | .cmp o x y => match rangeOpd lo hi w x, rangeOpd lo hi w y with
    | some x, some y => o.rangeHolds x y
    | _, _ => none
  | .and x y => match rangeTest env lo hi w x with
    | some true => rangeTest env lo hi w y
    | some false => some false
    | none => none
  | .prim c => env c
  | _ => none

/-- `pick` for all bytes between `lo` and `hi` -/
def pickRange (env : C → Option Bool) (lo hi : Nat) : Code A C R → Option Nat → Pick
  | .done, w => .fall w
  | .stmt .widecByte k, _ => pickRange env lo hi k (some 0)
  | .stmt (.widecBase n 0) k, _ => pickRange env lo hi k (some n)
  | .stmt (.widecAdd n) k, some w => pickRange env lo hi k (some (w + n))
  | .stmt _ _, _ => .bad
  | .goto l _, _ => .lands l
  | .ifElse c t e k, w => match rangeTest env lo hi w c with
    | some true => match pickRange env lo hi t w with
      | .fall w' => pickRange env lo hi k w'
      | r => r
    | some false => match pickRange env lo hi e w with
      | .fall w' => pickRange env lo hi k w'
      | r => r
    | none => .bad
  | .jumpCs _ _, _ => .bad
  | .ret _ _, _ => .bad

/-- `Row.dispatch` for all bytes between `lo` and `hi` -/
def lookupRange {Act : Type} (lo hi : Nat) : List (Nat × Nat × Label Act) → Label Act → Option (Label Act)
  | [], d => some d
  | (a, b, l) :: r, d => bif Nat.ble a lo && Nat.ble hi b then some l else bif Nat.blt hi a || Nat.blt b lo then lookupRange lo hi r d else none

/-- checks the bytes from `lo` to `hi`, splitting the range if needed -/
def checkRange {Act : Type} (env : C → Option Bool) (d : Code A C R) (row : Row Act) (leads : Lbl → Label Act → Bool) : Nat → Nat → Nat → Bool
  | fuel, lo, hi => match pickRange env lo hi d none, lookupRange lo hi row.rng row.dflt with
    | .lands l, some lab => leads l lab
    | _, _ => match fuel with
      | 0 => false
      | fuel + 1 => checkRange env d row leads fuel lo ((lo + hi) / 2) && checkRange env d row leads fuel ((lo + hi) / 2 + 1) hi

section
variable {env : C → Option Bool} {lo hi b : Nat}

theorem rangeOpd_sound (h1 : lo ≤ b) (h2 : b ≤ hi) {w : Option Nat} {x : Opd} {r : Nat × Nat} (h : rangeOpd lo hi w x = some r) :
    ∃ v, pickOpd b (w.map (b + ·)) x = some v ∧ r.1 ≤ v ∧ v ≤ r.2 := by
  cases x with
  | byte => simp only [rangeOpd, Option.some.injEq] at h; subst h; exact ⟨b, rfl, h1, h2⟩
  | lit n => simp only [rangeOpd, Option.some.injEq] at h; subst h; exact ⟨n, rfl, Nat.le_refl _, Nat.le_refl _⟩
  | widec =>
    cases w with
    | none => simp [rangeOpd] at h
    | some o =>
      simp only [rangeOpd, Option.map_some, Option.some.injEq] at h
      subst h
      exact ⟨b + o, rfl, by simp only; omega, by simp only; omega⟩

theorem rangeHolds_sound {o : Cmp} {x y : Nat × Nat} {v : Bool} (h : o.rangeHolds x y = some v) {i j : Nat} (hx1 : x.1 ≤ i) (hx2 : i ≤ x.2)
    (hy1 : y.1 ≤ j) (hy2 : j ≤ y.2) : o.holds i j = v := by
  cases o <;> simp only [Cmp.rangeHolds, rangeLt, rangeLe, rangeEq, Bool.cond_eq_ite, Bool.and_eq_true, Bool.or_eq_true, Nat.ble_eq, Nat.blt_eq, Nat.beq_eq] at h <;> (split at h) <;>
    (try (split at h)) <;> simp_all [Cmp.holds] <;> omega

theorem rangeTest_sound (h1 : lo ≤ b) (h2 : b ≤ hi) {w : Option Nat} : ∀ {c : Cond C} {v : Bool}, rangeTest env lo hi w c = some v →
    pickTest env b (w.map (b + ·)) c = some v := by
  intro c
  induction c with
  | cmp o x y =>
    intro v h
    simp only [rangeTest] at h
    cases hx : rangeOpd lo hi w x with
    | none => rw [hx] at h; simp at h
    | some rx =>
      cases hy : rangeOpd lo hi w y with
      | none => rw [hx, hy] at h; simp at h
      | some ry =>
        rw [hx, hy] at h
        obtain ⟨i, i0, i1, i2⟩ := rangeOpd_sound h1 h2 hx
        obtain ⟨j, j0, j1, j2⟩ := rangeOpd_sound h1 h2 hy
        simp only [pickTest, i0, j0, Option.bind_some, Option.map_some]
        exact congrArg some (rangeHolds_sound h i1 i2 j1 j2)
  | and x y ihx ihy =>
    intro v h
    simp only [rangeTest] at h
    simp only [pickTest]
    cases hx : rangeTest env lo hi w x with
    | none => rw [hx] at h; simp at h
    | some v' =>
      rw [hx] at h
      rw [ihx hx]
      cases v' with
      | true => exact ihy h
      | false => exact h
  | prim c => intro v h; exact h
  | pEqPe => intro v h; simp [rangeTest] at h
  | pEqEof => intro v h; simp [rangeTest] at h
  | csIn ns => intro v h; simp [rangeTest] at h
  | csFailed a b => intro v h; simp [rangeTest] at h

/-- the offset of `_widec`, as its value for byte `b` -/
def Pick.at (b : Nat) : Pick → Pick
  | .fall w => .fall (w.map (b + ·))
  | r => r

theorem pickRange_sound (h1 : lo ≤ b) (h2 : b ≤ hi) : ∀ (d : Code A C R) (w : Option Nat), pickRange env lo hi d w ≠ .bad →
    pick env b d (w.map (b + ·)) = (pickRange env lo hi d w).at b := by
  intro d
  induction d with
  | done => intro w _; rfl
  | goto l k _ => intro w _; rfl
  | jumpCs t k _ => intro w h; exact absurd rfl h
  | ret r k _ => intro w h; exact absurd rfl h
  | stmt a k ih =>
    intro w h
    cases a with
    | widecByte => exact ih (some 0) h
    | widecBase n z =>
      cases z with
      | zero =>
        have := ih (some n) h
        simp only [Option.map_some] at this
        simp only [pick, pickRange]
        rw [← this]
        congr 2
        omega
      | succ z => exact absurd rfl h
    | widecAdd n =>
      cases w with
      | none => exact absurd rfl h
      | some o =>
        have := ih (some (o + n)) h
        simp only [Option.map_some] at this
        simp only [pick, pickRange, Option.map_some]
        rw [← this]
        congr 2
        omega
    | incP => exact absurd rfl h
    | decP => exact absurd rfl h
    | pZero => exact absurd rfl h
    | dataInput => exact absurd rfl h
    | peLen => exact absurd rfl h
    | eofLen => exact absurd rfl h
    | setCs n => exact absurd rfl h
    | widecZero => exact absurd rfl h
    | prim a => exact absurd rfl h
  | ifElse c t e k iht ihe ihk =>
    intro w h
    simp only [pickRange] at h ⊢
    simp only [pick]
    cases hv : rangeTest env lo hi w c with
    | none => rw [hv] at h; exact absurd rfl h
    | some v =>
      rw [hv] at h
      rw [rangeTest_sound h1 h2 hv]
      cases v with
      | true =>
        simp only at h ⊢
        cases hx : pickRange env lo hi t w with
        | bad => rw [hx] at h; exact absurd rfl h
        | lands l => rw [iht w (by rw [hx]; intro h; cases h), hx]; rfl
        | fall w' =>
          rw [iht w (by rw [hx]; intro h; cases h), hx]
          rw [hx] at h
          exact ihk w' h
      | false =>
        simp only at h ⊢
        cases hx : pickRange env lo hi e w with
        | bad => rw [hx] at h; exact absurd rfl h
        | lands l => rw [ihe w (by rw [hx]; intro h; cases h), hx]; rfl
        | fall w' =>
          rw [ihe w (by rw [hx]; intro h; cases h), hx]
          rw [hx] at h
          exact ihk w' h

theorem lookupRange_sound {Act : Type} (h1 : lo ≤ b) (h2 : b ≤ hi) : ∀ {r : List (Nat × Nat × Label Act)} {d lab : Label Act},
    lookupRange lo hi r d = some lab → Fsm.lookup b r d = lab := by
  intro r
  induction r with
  | nil => intro d lab h; simp only [lookupRange, Option.some.injEq] at h; exact h
  | cons x r ih =>
    obtain ⟨a, c, l⟩ := x
    intro d lab h
    simp only [lookupRange, Bool.cond_eq_ite, Bool.and_eq_true, Bool.or_eq_true, Nat.ble_eq, Nat.blt_eq] at h
    simp only [Fsm.lookup]
    split at h
    · rw [if_pos (by omega)]; simpa using h
    · split at h
      · rw [if_neg (by omega)]; exact ih h
      · cases h

theorem checkRange_sound {Act : Type} {d : Code A C R} {row : Row Act} {leads : Lbl → Label Act → Bool} :
    ∀ (fuel lo hi : Nat), checkRange env d row leads fuel lo hi = true → ∀ b, lo ≤ b → b ≤ hi →
      ∃ l, pick env b d none = .lands l ∧ leads l (row.dispatch b) = true := by
  intro fuel
  have base : ∀ lo hi l lab, pickRange env lo hi d none = .lands l → lookupRange lo hi row.rng row.dflt = some lab → leads l lab = true →
      ∀ b, lo ≤ b → b ≤ hi → ∃ l, pick env b d none = .lands l ∧ leads l (row.dispatch b) = true := by
    intro lo hi l lab hp hl h b hb1 hb2
    refine ⟨l, ?_, ?_⟩
    · have := pickRange_sound (env := env) hb1 hb2 d none (by rw [hp]; intro h; cases h)
      rw [hp] at this
      exact this
    · rw [Fsm.Row.dispatch, lookupRange_sound hb1 hb2 hl]; exact h
  induction fuel with
  | zero =>
    intro lo hi h
    unfold checkRange at h
    split at h
    · rename_i l lab hp hl; exact base lo hi l lab hp hl h
    · cases h
  | succ fuel ih =>
    intro lo hi h
    unfold checkRange at h
    split at h
    · rename_i l lab hp hl; exact base lo hi l lab hp hl h
    · simp only [Bool.and_eq_true] at h
      intro b hb1 hb2
      by_cases hm : b ≤ (lo + hi) / 2
      · exact ih lo ((lo + hi) / 2) h.1 b hb1 hm
      · exact ih ((lo + hi) / 2 + 1) hi h.2 b (by omega) hb2

end

/-! ## The end of input switch -/

def memNat (n : Nat) : List Nat → Bool
  | [] => false
  | x :: xs => bif Nat.beq n x then true else memNat n xs

theorem memNat_eq (n : Nat) : ∀ l, memNat n l = l.contains n
  | [] => rfl
  | x :: xs => by
    rw [List.contains_cons, memNat, memNat_eq n xs]
    have : Nat.beq n x = (n == x) := by rw [Bool.eq_iff_iff, Nat.beq_eq, beq_iff_eq]
    rw [this]
    cases n == x <;> rfl

/-- the alternative for state `n` -/
def resolve (n : Nat) : Code A C R → Code A C R
  | .ifElse .pEqEof t _ .done => resolve n t
  | .ifElse (.csIn ns) t e .done => bif memNat n ns then t else resolve n e
  | c => c

theorem resolve_exec {S : Sem A C X} {n : Nat} {g : GS X} (hn : g.cs = n) (hp : g.p = g.eof) :
    ∀ c : Code A C R, S.exec (resolve n c) g = S.exec c g := by
  have h1 : S.test g .pEqEof = some true := by simp [Sem.test, hp]
  have last : ∀ r : End R X, (match r with | .fall g' => S.exec (.done : Code A C R) g' | r => r) = r := by intro r; cases r <;> rfl
  intro c
  induction c with
  | ifElse c t e k iht ihe _ =>
    cases k with
    | done =>
      cases c with
      | pEqEof =>
        simp only [resolve, Sem.exec, h1]
        rw [iht]
        cases S.exec t g <;> rfl
      | csIn ns =>
        have h2 : S.test g (.csIn ns) = some (ns.contains n) := by simp [Sem.test, hn]
        simp only [resolve, Sem.exec, h2, memNat_eq]
        cases hc : ns.contains n with
        | true => simp only [cond_true]; cases S.exec t g <;> rfl
        | false => simp only [cond_false]; rw [ihe]; cases S.exec e g <;> rfl
      | _ => rfl
    | _ => cases c <;> rfl
  | _ => rfl

/-! ## The whole program -/

section
variable {Act M : Type} [DecidableEq A] [DecidableEq C] [DecidableEq R] (U : Setup A C R X Act M)

/-- what is at a label, without the next label -/
def Setup.at (U : Setup A C R X Act M) (l : Lbl) : Option (Code A C R) := (U.P l).map Prod.fst

def Setup.hasStB (U : Setup A C R X Act M) (n : Nat) : Bool :=
  decide (U.P (.st n) = some (stCode n, .stCase n)) && decide (U.at (.testEofN n) = some (.stmt (.setCs n) (.goto .testEof .done)))

/-- checks the states between 1 and `last` that are not in `noSt` -/
def Setup.stsB (U : Setup A C R X Act M) (noSt : List Nat) : Bool :=
  (List.range U.last).all fun i => noSt.contains (i + 1) || U.hasStB (i + 1)

def Setup.leadsB (U : Setup A C R X Act M) (noSt : List Nat) (l : Lbl) (lab : Label Act) : Bool :=
  (lab.tgt == 0 || (decide (lab.tgt ≤ U.last) && !noSt.contains lab.tgt)) &&
  match l with
  | .st n => n == lab.tgt && lab.acts.isEmpty
  | .tr k => decide (U.at (.tr k) = some (codes U.code lab.acts (.goto (.st lab.tgt) .done)))
  | _ => false

/-- the statements after the from-state actions: `c` begins with the statements `pre` -/
def Code.dropCode [DecidableEq A] : (pre c : Code A C R) → Option (Code A C R)
  | .done, c => some c
  | .stmt a k, .stmt a' k' => if a = a' then Code.dropCode k k' else none
  | _, _ => none

def Setup.caseB (U : Setup A C R X Act M) (noSt : List Nat) (n : Nat) (row : Row Act) : Bool :=
  match U.at (.stCase n) with
  | none => false
  | some c => match Code.dropCode (codes U.code row.frm .done) c with
    | none => false
    | some d => decide (c = codes U.code row.frm d) && checkRange U.env d row (U.leadsB noSt) 8 0 255

/-- `f` of each of the rows but that of state 0 -/
def checkRows (f : Nat → Row Act → Bool) : Nat → List (Row Act) → Bool
  | _, [] => true
  | n, r :: rs => (Nat.beq n 0 || f n r) && checkRows f (n + 1) rs

theorem checkRows_sound {f : Nat → Row Act → Bool} : ∀ {rs : List (Row Act)} {a : Nat}, checkRows f a rs = true → ∀ {i : Nat} {r : Row Act},
    1 ≤ a + i → rs[i]? = some r → f (a + i) r = true := by
  intro rs
  induction rs with
  | nil => intro a _ i r _ h; simp at h
  | cons r rs ih =>
    intro a h i r' hi hr
    simp only [checkRows, Bool.and_eq_true, Bool.or_eq_true, Nat.beq_eq] at h
    cases i with
    | zero =>
      simp only [List.getElem?_cons_zero, Option.some.injEq] at hr
      subst hr
      exact h.1.resolve_left (by omega)
    | succ i =>
      rw [List.getElem?_cons_succ] at hr
      have := ih h.2 (i := i) (by omega) hr
      rwa [show a + 1 + i = a + (i + 1) by omega] at this

def Setup.eofB (U : Setup A C R X Act M) (c : Code A C R) (n : Nat) (row : Row Act) : Bool := decide (resolve n c = codes U.code row.eof .done)

variable {U}

omit [DecidableEq A] [DecidableEq C] [DecidableEq R] in
theorem Setup.at_some {l : Lbl} {c : Code A C R} (h : U.at l = some c) : ∃ nx, U.P l = some (c, nx) := by
  unfold Setup.at at h
  cases hP : U.P l with
  | none => rw [hP] at h; cases h
  | some cn => rw [hP] at h; obtain ⟨c', nx⟩ := cn; simp only [Option.map_some, Option.some.injEq] at h; exact ⟨nx, by rw [h]⟩

theorem Setup.stsB_sound {noSt : List Nat} (h : U.stsB noSt = true) {n : Nat} (h1 : 1 ≤ n) (h2 : n ≤ U.last) (hn : noSt.contains n = false) :
    U.HasSt n := by
  unfold Setup.stsB at h
  rw [List.all_eq_true] at h
  have := h (n - 1) (by simp; omega)
  rw [show n - 1 + 1 = n by omega, hn] at this
  simp only [Bool.false_or, Setup.hasStB, Bool.and_eq_true, decide_eq_true_eq] at this
  exact ⟨h1, h2, this.1, Setup.at_some this.2⟩

theorem Setup.leadsB_sound {noSt : List Nat} (hs : U.stsB noSt = true) {l : Lbl} {lab : Label Act} (h : U.leadsB noSt l lab = true) :
    U.Leads l lab := by
  unfold Setup.leadsB at h
  simp only [Bool.and_eq_true, Bool.or_eq_true, beq_iff_eq, decide_eq_true_eq, Bool.not_eq_true'] at h
  obtain ⟨h1, h2⟩ := h
  refine ⟨?_, ?_⟩
  · rcases h1 with h1 | h1
    · exact .inl h1
    · by_cases h0 : lab.tgt = 0
      · exact .inl h0
      · exact .inr (Setup.stsB_sound hs (by omega) h1.1 h1.2)
  · cases l with
    | st n =>
      simp only [Bool.and_eq_true, beq_iff_eq, List.isEmpty_iff] at h2
      exact .inl ⟨by rw [h2.1], h2.2⟩
    | tr k =>
      simp only [decide_eq_true_eq] at h2
      obtain ⟨nx, h⟩ := Setup.at_some h2
      exact .inr ⟨k, nx, rfl, h⟩
    | _ => cases h2

theorem Setup.caseB_sound {noSt : List Nat} (hs : U.stsB noSt = true) {n : Nat} (h : U.caseB noSt n (U.T n) = true) :
    ∃ d nx, U.P (.stCase n) = some (codes U.code (U.T n).frm d, nx) ∧
      ∀ b : UInt8, ∃ l, pick U.env b.toNat d none = .lands l ∧ U.Leads l ((U.T n).dispatch b.toNat) := by
  unfold Setup.caseB at h
  cases hc : U.at (.stCase n) with
  | none => rw [hc] at h; cases h
  | some c =>
    rw [hc] at h
    simp only at h
    cases hd : Code.dropCode (codes U.code (U.T n).frm .done) c with
    | none => rw [hd] at h; cases h
    | some d =>
      rw [hd] at h
      simp only [Bool.and_eq_true, decide_eq_true_eq] at h
      obtain ⟨nx, hP⟩ := Setup.at_some hc
      refine ⟨d, nx, by rw [hP, ← h.1], fun b => ?_⟩
      obtain ⟨l, h1, h2⟩ := checkRange_sound 8 0 255 h.2 b.toNat (Nat.zero_le _) (by have := b.toNat_lt; omega)
      exact ⟨l, h1, Setup.leadsB_sound hs h2⟩

theorem Setup.eofB_sound {c : Code A C R} {n : Nat} (h : U.eofB c n (U.T n) = true) (g : GS X) (hc : g.cs = n)
    (hp : g.p = g.eof) : U.S.exec c g = U.S.exec (codes U.code (U.T n).eof .done) g := by
  unfold Setup.eofB at h
  rw [decide_eq_true_eq] at h
  rw [← h, resolve_exec hc hp]

/-- What remains when the blocks are checked. -/
theorem Setup.shape {noSt : List Nat} {rows : List (Row Act)} {ce : Code A C R} (hrows : ∀ n, n ≤ U.last → rows[n]? = some (U.T n))
    (hs : U.stsB noSt = true) (hc : checkRows (U.caseB noSt) 0 rows = true)
    (he : checkRows (U.eofB ce) 0 rows = true) (hpe : U.P .testEof = some (ce, .out))
    (h0 : U.at (.st 0) = some (.stmt (.setCs 0) (.goto .out .done)))
    (adv_pos : ∀ m, U.pos (U.adv m) = U.pos m + 1) (adv_dat : ∀ m, U.dat (U.adv m) = U.dat m) (adv_rx : ∀ m x, U.rx m x → U.rx (U.adv m) x)
    (act : ∀ a, U.ActOK a) (env : ∀ m g c v, U.rx m g.x → U.env c = some v → U.S.cond c g = some v) : U.Shape where
  adv_pos := adv_pos
  adv_dat := adv_dat
  adv_rx := adv_rx
  act := act
  env := env
  case := fun n h1 h2 => by
    have := checkRows_sound hc (i := n) (by omega) (hrows n h2)
    rw [Nat.zero_add] at this
    exact Setup.caseB_sound hs this
  st0 := Setup.at_some h0
  eof := ⟨ce, hpe, fun n h1 h2 g hcs hp => by
    have := checkRows_sound he (i := n) (by omega) (hrows n h2)
    rw [Nat.zero_add] at this
    exact Setup.eofB_sound this g hcs hp⟩

end
end Verif.Go
