import Verif.Mini.Store
import Verif.Props.MiniMsgs

/-!
# Parsers and messages as a program uses them (C109)

A program makes parsers and messages of `rfc5424`, parses, changes messages and prints them, in any order. Everything is executed: the hand-written functions
statement by statement (`Verif.Gen.Mini.prog`), the generated `Parse` and `set` block by block over the same memory (`Mini.parseGo`, `Mini.setGo`). The theorems
compare that with the same operations on values.
-/

set_option linter.constructorNameAsVariable false

namespace Verif.Props
open Verif.Mini Verif.Gen.Mini
open Verif.Builder (Globals Entry Call)
open Verif.Rfc5424 (SyslogMessage)

namespace MiniSrc
variable {E : Type}

/-- the program; `left` is what the working fields of a machine hold when `Parse` begins -/
def parserX (extra : Nat → Nat) (order : List Bytes → List Bytes) (left : W E → Go.GS Go.R5.V) : Env0 E :=
  buildX extra order fun f args => match f with
    | .sync_Lock => xLock args
    | .sync_Unlock => xUnlock args
    | .rfc5424_machine_Parse => parseGo (call (libX extra order fun _ _ => M.stuck) 3) left args
    | _ => M.stuck

theorem parserX_env (extra : Nat → Nat) (order : List Bytes → List Bytes) (left : W E → Go.GS Go.R5.V) : ParserEnv (parserX extra order left) := ⟨rfl, rfl, rfl, rfl⟩

/-! ## Operations on values -/

/-- what a program does; parsers and messages are numbered in the order in which it got them -/
inductive ApiOp where
  /-- `rfc5424.NewParser(options...)` -/
  | newParser (os : List Rfc5424.MachineOption)
  /-- `p.WithBestEffort()` -/
  | withBestEffort (i : Nat)
  /-- `p.HasBestEffort()` -/
  | hasBestEffort (i : Nat)
  /-- `m, err := p.Parse(input)` -/
  | parse (i : Nat) (input : Bytes)
  /-- `m := &rfc5424.SyslogMessage{}` -/
  | newMessage
  /-- `m.SetX(..)` -/
  | set (j : Nat) (c : Call)
  /-- `m.String()` -/
  | string (j : Nat)

/-- what it sees of the result -/
inductive Obs where
  | nothing
  | flag (b : Bool)
  /-- a message or nil, and the error -/
  | parsed (message : Bool) (err : Option Rfc5424.Err)
  /-- the text, or the error `invalid syslog` -/
  | text (t : Option Bytes)
deriving DecidableEq

/-- the values of its variables -/
structure Vals where
  parsers : List Rfc5424.Opts := []
  msgs : List SyslogMessage := []
  glob : Globals := {}

/-- an operation on values; with a number that is not there it does nothing -/
def ApiOp.run : ApiOp → Vals → Option (Obs × Vals)
  | .newParser os, s => some (.nothing, { s with parsers := s.parsers ++ [⟨(Rfc5424.newMachineWith os).bestEffort, (Rfc5424.newMachineWith os).compliantMsg⟩] })
  | .withBestEffort i, s => match s.parsers[i]? with
    | some o => some (.nothing, { s with parsers := s.parsers.set i { o with bestEffort := true } })
    | none => some (.nothing, s)
  | .hasBestEffort i, s => match s.parsers[i]? with
    | some o => some (.flag o.bestEffort, s)
    | none => some (.nothing, s)
  | .parse i input, s => match s.parsers[i]? with
    | some o => match Rfc5424.parserParse (Rfc5424.newMachine o) input with
      | some (r, _) => some (.parsed r.msg.isSome r.err, { s with msgs := s.msgs ++ r.msg.toList })
      | none => none
    | none => some (.nothing, s)
  | .newMessage, s => some (.nothing, { s with msgs := s.msgs ++ [{}] })
  | .set j c, s => match s.msgs[j]? with
    | some m => match c.run (m, s.glob) with
      | some (m', g') => some (.nothing, { s with msgs := s.msgs.set j m', glob := g' })
      | none => none
    | none => some (.nothing, s)
  | .string j, s => match s.msgs[j]? with
    | some m => some (.text (Builder.string m), s)
    | none => some (.nothing, s)

/-- one after the other; `none`: a panic -/
def runOps : List ApiOp → Vals → Option (List Obs × Vals)
  | [], s => some ([], s)
  | op :: ops, s => match op.run s with
    | some (ob, s') => (runOps ops s').map fun r => (ob :: r.1, r.2)
    | none => none

/-! ## The same operations on memory -/

/-- the variables of the program: the addresses of parsers (with the machine embedded in each) and of messages -/
structure Vars where
  parsers : List (Nat × Nat) := []
  msgs : List Nat := []

/-- an operation, executed from the memory `w`; `P` describes what is seen, the variables and the memory then -/
def RunOp (X : Env0 E) : ApiOp → Vars → W E → (Obs → Vars → W E → Prop) → Prop
  | .newParser os, vs, w, P => Does X .rfc5424_NewParser [.slice w.next 0 os.length os.length] (newVar w (.arr (os.map optVal5))) fun o =>
    ∃ a mi w', o = .ok (.ptr a []) w' ∧ (w'.heap a).get .machine = some (.ptr mi []) ∧ P .nothing { vs with parsers := vs.parsers ++ [(a, mi)] } w'
  | .withBestEffort i, vs, w, P => match vs.parsers[i]? with
    | some (a, mi) => (w.heap a).get .machine = some (.ptr mi []) ∧ Does X .rfc5424_machine_WithBestEffort [.ptr mi []] w fun o => ∃ w', o = .ok (.tuple []) w' ∧ P .nothing vs w'
    | none => P .nothing vs w
  | .hasBestEffort i, vs, w, P => match vs.parsers[i]? with
    | some (a, _) => Does X .rfc5424_parser_HasBestEffort [.ptr a []] w fun o => ∃ b w', o = .ok (.bool b) w' ∧ P (.flag b) vs w'
    | none => P .nothing vs w
  | .parse i input, vs, w, P => match vs.parsers[i]? with
    | some (a, _) => Does X .rfc5424_parser_Parse [.ptr a [], .str input] w fun o => ∃ v err w', o = .ok (.tuple [v, err5Val err]) w' ∧
      ((v = .nil ∧ P (.parsed false err) vs w') ∨ ∃ b, v = .ptr b [] ∧ P (.parsed true err) { vs with msgs := vs.msgs ++ [b] } w')
    | none => P .nothing vs w
  | .newMessage, vs, w, P => P .nothing { vs with msgs := vs.msgs ++ [w.next] } (newVar w zeroMsg)
  | .set j c, vs, w, P => match vs.msgs[j]? with
    | some b => Does X (setterName c) (.ptr b [] :: setterArgs c) w fun o => ∃ w', o = .ok (.ptr b []) w' ∧ P .nothing vs w'
    | none => P .nothing vs w
  | .string j, vs, w, P => match vs.msgs[j]? with
    | some b => Does X .rfc5424_SyslogMessage_String [.ptr b []] w fun o => ∃ w',
      (∃ t, o = .ok (.tuple [.str t, .nil]) w' ∧ P (.text (some t)) vs w') ∨ o = .ok (.tuple [.str [], .err (ascii "invalid syslog") []]) w' ∧ P (.text none) vs w'
    | none => P .nothing vs w

/-- one after the other -/
def RunOps (X : Env0 E) : List ApiOp → Vars → W E → (List Obs → Vars → W E → Prop) → Prop
  | [], vs, w, P => P [] vs w
  | op :: ops, vs, w, P => RunOp X op vs w fun ob vs' w' => RunOps X ops vs' w' fun obs => P (ob :: obs)

/-! ## The memory represents the values -/

/-- The memory `w` holds the values `s` in the variables `vs`: each parser and each message is where its variable says, and no two of them have a variable in
common. -/
structure Holds (w : W E) (vs : Vars) (s : Vals) : Prop where
  plen : vs.parsers.length = s.parsers.length
  mlen : vs.msgs.length = s.msgs.length
  parser : ∀ (i : Nat) (p : Nat × Nat) o, vs.parsers[i]? = some p → s.parsers[i]? = some o → Live kit5 w p.1 p.2 o
  msg : ∀ (j : Nat) b m, vs.msgs[j]? = some b → s.msgs[j]? = some m → RepMsg w b m
  glob : HasGlob w s.glob
  parsers : ∀ (i i' : Nat) (p p' : Nat × Nat), i ≠ i' → vs.parsers[i]? = some p → vs.parsers[i']? = some p' → p.2 ≠ p'.1 ∧ p.2 ≠ p'.2
  msgs : ∀ (j j' : Nat) b b', j ≠ j' → vs.msgs[j]? = some b → vs.msgs[j']? = some b' → ∀ x, Reaches w b x → ¬ Reaches w b' x
  apart : ∀ (i j : Nat) (p : Nat × Nat) b, vs.parsers[i]? = some p → vs.msgs[j]? = some b → ¬ Reaches w b p.1 ∧ ¬ Reaches w b p.2

theorem does_mono {X : Env0 E} {f : Nm} {args : List Val} {w : W E} {P Q : Out E Val → Prop} (h : Does X f args w P) (hpq : ∀ o, P o → Q o) : Does X f args w Q := by
  obtain ⟨d, h⟩ := h
  exact ⟨d, fun n hn => (h n hn).imp fun o ho => ⟨ho.1, hpq o ho.2⟩⟩

theorem RunOp.mono {X : Env0 E} {op : ApiOp} {vs : Vars} {w : W E} {P Q : Obs → Vars → W E → Prop} (h : RunOp X op vs w P) (hpq : ∀ ob vs w, P ob vs w → Q ob vs w) : RunOp X op vs w Q := by
  cases op with
  | newParser os => exact does_mono h fun o ⟨a, mi, w', h1, h2, h3⟩ => ⟨a, mi, w', h1, h2, hpq _ _ _ h3⟩
  | withBestEffort i =>
    cases hv : vs.parsers[i]? <;> simp only [RunOp, hv] at h ⊢
    · exact hpq _ _ _ h
    · exact ⟨h.1, does_mono h.2 fun o ⟨w', h1, h2⟩ => ⟨w', h1, hpq _ _ _ h2⟩⟩
  | hasBestEffort i =>
    cases hv : vs.parsers[i]? <;> simp only [RunOp, hv] at h ⊢
    · exact hpq _ _ _ h
    · exact does_mono h fun o ⟨b, w', h1, h2⟩ => ⟨b, w', h1, hpq _ _ _ h2⟩
  | parse i input =>
    cases hv : vs.parsers[i]? <;> simp only [RunOp, hv] at h ⊢
    · exact hpq _ _ _ h
    · exact does_mono h fun o ⟨v, err, w', h1, h2⟩ => ⟨v, err, w', h1, h2.imp (fun h => ⟨h.1, hpq _ _ _ h.2⟩) fun ⟨b, h3, h4⟩ => ⟨b, h3, hpq _ _ _ h4⟩⟩
  | newMessage => exact hpq _ _ _ h
  | set j c =>
    cases hv : vs.msgs[j]? <;> simp only [RunOp, hv] at h ⊢
    · exact hpq _ _ _ h
    · exact does_mono h fun o ⟨w', h1, h2⟩ => ⟨w', h1, hpq _ _ _ h2⟩
  | string j =>
    cases hv : vs.msgs[j]? <;> simp only [RunOp, hv] at h ⊢
    · exact hpq _ _ _ h
    · exact does_mono h fun o ⟨w', h1⟩ => ⟨w', h1.imp (fun ⟨t, h2, h3⟩ => ⟨t, h2, hpq _ _ _ h3⟩) fun h2 => ⟨h2.1, hpq _ _ _ h2.2⟩⟩

theorem getElem?_snoc {α : Type} {l : List α} {x y : α} {i : Nat} (h : (l ++ [x])[i]? = some y) : l[i]? = some y ∨ i = l.length ∧ y = x := by
  rw [List.getElem?_append] at h
  split at h
  · exact Or.inl h
  · rename_i hi
    cases hk : i - l.length with
    | zero => rw [hk] at h; exact Or.inr ⟨by omega, (Option.some.inj h).symm⟩
    | succ k => rw [hk] at h; cases h

theorem getElem?_lt {α : Type} {l : List α} {x : α} {i : Nat} (h : l[i]? = some x) : i < l.length := (List.getElem?_eq_some_iff.mp h).1

/-- the value of a variable -/
theorem getElem?_other {α β : Type} {l : List α} {l' : List β} (hl : l.length = l'.length) {i : Nat} {x : α} (h : l[i]? = some x) : ∃ y, l'[i]? = some y := by
  have := getElem?_lt h
  exact ⟨l'[i], List.getElem?_eq_getElem (by omega)⟩

theorem getElem?_none {α β : Type} {l : List α} {l' : List β} (hl : l.length = l'.length) {i : Nat} (h : l[i]? = none) : l'[i]? = none := by
  rw [List.getElem?_eq_none_iff] at h ⊢
  omega

theorem live_keeps {w w' : W E} {a mi : Nat} {o : Rfc5424.Opts} (h : Live kit5 w a mi o) (hn : w.next ≤ w'.next) (h1 : w'.heap a = w.heap a) (h2 : w'.heap mi = w.heap mi) : Live kit5 w' a mi o := by
  obtain ⟨fs, e, g⟩ := h.mach
  exact ⟨h1.trans h.parser, ⟨fs, h2.trans e, g⟩, h.ne, Nat.lt_of_lt_of_le h.lt hn, Nat.lt_of_lt_of_le h.mlt hn⟩

/-- nothing changes except new variables -/
theorem Holds.keeps {w w' : W E} {vs : Vars} {s : Vals} (h : Holds w vs s) (hk : Keeps w w') : Holds w' vs s := by
  have hre : ∀ (j b : Nat), vs.msgs[j]? = some b → ∀ x, Reaches w' b x → Reaches w b x := by
    intro j b hb x hx
    obtain ⟨m, hm⟩ := getElem?_other h.mlen hb
    exact (h.msg j b m hb hm).reaches_congr (fun x hx _ => hk.1 x hx) hx
  exact {
    plen := h.plen
    mlen := h.mlen
    parser := fun i p o h1 h2 => by
      have hl := h.parser i p o h1 h2
      exact live_keeps hl hk.2.1 (hk.1 _ hl.lt) (hk.1 _ hl.mlt)
    msg := fun j b m h1 h2 => (h.msg j b m h1 h2).congr hk.2.1 fun x hx _ => hk.1 x hx
    glob := by rw [HasGlob, hk.2.2.1]; exact h.glob
    parsers := h.parsers
    msgs := fun j j' b b' hne h1 h2 x hx hx' => h.msgs j j' b b' hne h1 h2 x (hre j b h1 x hx) (hre j' b' h2 x hx')
    apart := fun i j p b h1 h2 => ⟨fun hx => (h.apart i j p b h1 h2).1 (hre j b h2 _ hx), fun hx => (h.apart i j p b h1 h2).2 (hre j b h2 _ hx)⟩ }

/-- one more message, in new variables -/
theorem Holds.newMsg {w w' : W E} {vs : Vars} {s : Vals} (h : Holds w vs s) (hk : Keeps w w') {b : Nat} {m : SyslogMessage} (hr : RepMsg w' b m) (hn : ∀ x, Reaches w' b x → w.next ≤ x) :
    Holds w' { vs with msgs := vs.msgs ++ [b] } { s with msgs := s.msgs ++ [m] } := by
  have h' := h.keeps hk
  have hlt : ∀ (j b : Nat), vs.msgs[j]? = some b → ∀ x, Reaches w' b x → x < w.next := by
    intro j b hb x hx
    obtain ⟨m, hm⟩ := getElem?_other h.mlen hb
    have hre := h.msg j b m hb hm
    exact hre.reaches_lt (hre.reaches_congr (fun x hx _ => hk.1 x hx) hx)
  exact {
    plen := h.plen
    mlen := by simp [h.mlen]
    parser := h'.parser
    msg := fun j b' m' h1 h2 => by
      rcases getElem?_snoc h1 with h1 | ⟨rfl, rfl⟩
      · rcases getElem?_snoc h2 with h2 | ⟨rfl, rfl⟩
        · exact h'.msg j b' m' h1 h2
        · have := getElem?_lt h1; have := h.mlen; omega
      · rcases getElem?_snoc h2 with h2 | ⟨_, rfl⟩
        · have := getElem?_lt h2; have := h.mlen; omega
        · exact hr
    glob := h'.glob
    parsers := h.parsers
    msgs := fun j j' b1 b2 hne h1 h2 x hx hx' => by
      rcases getElem?_snoc h1 with k1 | ⟨rfl, rfl⟩
      · rcases getElem?_snoc h2 with h2 | ⟨rfl, rfl⟩
        · exact h'.msgs j j' b1 b2 hne k1 h2 x hx hx'
        · have := hlt j b1 k1 x hx; have := hn x hx'; omega
      · rcases getElem?_snoc h2 with h2 | ⟨rfl, rfl⟩
        · have := hlt j' b2 h2 x hx'; have := hn x hx; omega
        · exact hne rfl
    apart := fun i j p b1 h1 h2 => by
      rcases getElem?_snoc h2 with h2 | ⟨rfl, rfl⟩
      · exact h'.apart i j p b1 h1 h2
      · obtain ⟨o, ho⟩ := getElem?_other h.plen h1
        have hl := h.parser i p o h1 ho
        have := hl.lt
        have := hl.mlt
        exact ⟨fun hx => by have := hn _ hx; omega, fun hx => by have := hn _ hx; omega⟩ }

/-- one more parser, in new variables -/
theorem Holds.newParser {w w' : W E} {vs : Vars} {s : Vals} (h : Holds w vs s) (hk : Keeps w w') {a mi : Nat} {o : Rfc5424.Opts} (hl : Live kit5 w' a mi o) (ha : w.next ≤ a) (hm : w.next ≤ mi) :
    Holds w' { vs with parsers := vs.parsers ++ [(a, mi)] } { s with parsers := s.parsers ++ [o] } := by
  have h' := h.keeps hk
  have hlt : ∀ (j b : Nat), vs.msgs[j]? = some b → ∀ x, Reaches w' b x → x < w.next := by
    intro j b hb x hx
    obtain ⟨m, hm⟩ := getElem?_other h.mlen hb
    have hre := h.msg j b m hb hm
    exact hre.reaches_lt (hre.reaches_congr (fun x hx _ => hk.1 x hx) hx)
  have hplt : ∀ (i : Nat) (p : Nat × Nat), vs.parsers[i]? = some p → p.1 < w.next ∧ p.2 < w.next := by
    intro i p hp
    obtain ⟨o, ho⟩ := getElem?_other h.plen hp
    have hl := h.parser i p o hp ho
    exact ⟨hl.lt, hl.mlt⟩
  exact {
    plen := by simp [h.plen]
    mlen := h.mlen
    parser := fun i p o' h1 h2 => by
      rcases getElem?_snoc h1 with h1 | ⟨rfl, rfl⟩
      · rcases getElem?_snoc h2 with h2 | ⟨rfl, rfl⟩
        · exact h'.parser i p o' h1 h2
        · have := getElem?_lt h1; have := h.plen; omega
      · rcases getElem?_snoc h2 with h2 | ⟨_, rfl⟩
        · have := getElem?_lt h2; have := h.plen; omega
        · exact hl
    msg := h'.msg
    glob := h'.glob
    parsers := fun i i' p p' hne h1 h2 => by
      rcases getElem?_snoc h1 with h1 | ⟨rfl, rfl⟩
      · rcases getElem?_snoc h2 with h2 | ⟨rfl, rfl⟩
        · exact h'.parsers i i' p p' hne h1 h2
        · have := hplt i p h1; exact ⟨by omega, by omega⟩
      · rcases getElem?_snoc h2 with h2 | ⟨rfl, rfl⟩
        · have := hplt i' p' h2; exact ⟨by omega, by omega⟩
        · exact absurd rfl hne
    msgs := h'.msgs
    apart := fun i j p b h1 h2 => by
      rcases getElem?_snoc h1 with h1 | ⟨rfl, rfl⟩
      · exact h'.apart i j p b h1 h2
      · exact ⟨fun hx => by have := hlt j b h2 _ hx; omega, fun hx => by have := hlt j b h2 _ hx; omega⟩ }

/-- a machine changes -/
theorem Holds.machine {w w' : W E} {vs : Vars} {s : Vals} (h : Holds w vs s) {i : Nat} {p : Nat × Nat} (hp : vs.parsers[i]? = some p) (hk : KeepsBut p.2 w w') {o : Rfc5424.Opts} (hl : Live kit5 w' p.1 p.2 o) :
    Holds w' vs { s with parsers := s.parsers.set i o } := by
  have hsame : ∀ (j b : Nat) m, vs.msgs[j]? = some b → s.msgs[j]? = some m → ∀ x, x < w.next → Reaches w b x → w'.heap x = w.heap x := by
    intro j b m hb hm x hx hre
    refine hk.1 x hx ?_
    rintro rfl
    exact (h.apart i j p b hp hb).2 hre
  have hre : ∀ (j b : Nat), vs.msgs[j]? = some b → ∀ x, Reaches w' b x → Reaches w b x := by
    intro j b hb x hx
    obtain ⟨m, hm⟩ := getElem?_other h.mlen hb
    exact (h.msg j b m hb hm).reaches_congr (hsame j b m hb hm) hx
  exact {
    plen := by simp [h.plen]
    mlen := h.mlen
    parser := fun i' p' o' h1 h2 => by
      rw [List.getElem?_set] at h2
      by_cases hi : i = i'
      · subst hi
        obtain rfl : p = p' := by rw [hp] at h1; exact Option.some.inj h1
        rw [if_pos rfl] at h2
        split at h2
        · obtain rfl := Option.some.inj h2; exact hl
        · cases h2
      · rw [if_neg hi] at h2
        have hl' := h.parser i' p' o' h1 h2
        have hne := h.parsers i i' p p' hi hp h1
        exact live_keeps hl' hk.2.1 (hk.1 _ hl'.lt (Ne.symm hne.1)) (hk.1 _ hl'.mlt (Ne.symm hne.2))
    msg := fun j b m h1 h2 => (h.msg j b m h1 h2).congr hk.2.1 (hsame j b m h1 h2)
    glob := by rw [HasGlob, hk.2.2.1]; exact h.glob
    parsers := h.parsers
    msgs := fun j j' b b' hne h1 h2 x hx hx' => h.msgs j j' b b' hne h1 h2 x (hre j b h1 x hx) (hre j' b' h2 x hx')
    apart := fun i j p b h1 h2 => ⟨fun hx => (h.apart i j p b h1 h2).1 (hre j b h2 _ hx), fun hx => (h.apart i j p b h1 h2).2 (hre j b h2 _ hx)⟩ }

/-- a message changes -/
theorem Holds.setMsg {w w' : W E} {vs : Vars} {s : Vals} (h : Holds w vs s) {j : Nat} {b : Nat} (hb : vs.msgs[j]? = some b) (hf : Frame w w' b) {m' : SyslogMessage} {g' : Globals} (hr : RepMsg w' b m')
    (hg : HasGlob w' g') : Holds w' vs { s with msgs := s.msgs.set j m', glob := g' } := by
  have hsame : ∀ (j' b' : Nat) m, j ≠ j' → vs.msgs[j']? = some b' → s.msgs[j']? = some m → ∀ x, x < w.next → Reaches w b' x → w'.heap x = w.heap x := by
    intro j' b' m hne hb' hm x hx hre
    exact hf.same x hx fun ho => h.msgs j j' b b' hne hb hb' x (Or.inl ho) hre
  -- what a message depends on now
  have hre : ∀ (j' b' : Nat), vs.msgs[j']? = some b' → ∀ x, x < w.next → Reaches w' b' x → Reaches w b' x := by
    intro j' b' hb' x hx hx'
    by_cases hj : j = j'
    · subst hj
      obtain rfl : b = b' := by rw [hb] at hb'; exact Option.some.inj hb'
      exact hf.reaches hx hx'
    · obtain ⟨m, hm⟩ := getElem?_other h.mlen hb'
      exact (h.msg j' b' m hb' hm).reaches_congr (hsame j' b' m hj hb' hm) hx'
  have hlt : ∀ (j' b' : Nat), j ≠ j' → vs.msgs[j']? = some b' → ∀ x, Reaches w' b' x → x < w.next := by
    intro j' b' hj hb' x hx
    obtain ⟨m, hm⟩ := getElem?_other h.mlen hb'
    have hre := h.msg j' b' m hb' hm
    exact hre.reaches_lt (hre.reaches_congr (hsame j' b' m hj hb' hm) hx)
  have hpar : ∀ (i : Nat) (p : Nat × Nat) o, vs.parsers[i]? = some p → s.parsers[i]? = some o → w'.heap p.1 = w.heap p.1 ∧ w'.heap p.2 = w.heap p.2 := by
    intro i p o hp ho
    have hl := h.parser i p o hp ho
    have ha := h.apart i j p b hp hb
    exact ⟨hf.same _ hl.lt fun hx => ha.1 (Or.inl hx), hf.same _ hl.mlt fun hx => ha.2 (Or.inl hx)⟩
  exact {
    plen := h.plen
    mlen := by simp [h.mlen]
    parser := fun i p o h1 h2 => live_keeps (h.parser i p o h1 h2) hf.next (hpar i p o h1 h2).1 (hpar i p o h1 h2).2
    msg := fun j' b' m h1 h2 => by
      rw [List.getElem?_set] at h2
      by_cases hj : j = j'
      · subst hj
        obtain rfl : b = b' := by rw [hb] at h1; exact Option.some.inj h1
        rw [if_pos rfl] at h2
        split at h2
        · obtain rfl := Option.some.inj h2; exact hr
        · cases h2
      · rw [if_neg hj] at h2
        exact (h.msg j' b' m h1 h2).congr hf.next (hsame j' b' m hj h1 h2)
    glob := hg
    parsers := h.parsers
    msgs := fun j1 j2 b1 b2 hne h1 h2 x hx hx' => by
      have hxlt : x < w.next := by
        by_cases hj : j = j1
        · exact hlt j2 b2 (fun hc => hne (hj.symm.trans hc)) h2 x hx'
        · exact hlt j1 b1 hj h1 x hx
      exact h.msgs j1 j2 b1 b2 hne h1 h2 x (hre j1 b1 h1 x hxlt hx) (hre j2 b2 h2 x hxlt hx')
    apart := fun i j' p b' h1 h2 => by
      obtain ⟨o, ho⟩ := getElem?_other h.plen h1
      have hl := h.parser i p o h1 ho
      exact ⟨fun hx => (h.apart i j' p b' h1 h2).1 (hre j' b' h2 _ hl.lt hx), fun hx => (h.apart i j' p b' h1 h2).2 (hre j' b' h2 _ hl.mlt hx)⟩ }

/-- What an operation leaves alone: variables that are none of the program's parsers and messages; it does not make messages refer to them. -/
structure Frm (w w' : W E) (vs vs' : Vars) : Prop where
  next : w.next ≤ w'.next
  ext : w'.ext = w.ext
  same : ∀ x, x < w.next → (∀ p ∈ vs.parsers, x ≠ p.2) → (∀ b ∈ vs.msgs, ¬ Reaches w b x) → w'.heap x = w.heap x
  reach : ∀ b ∈ vs'.msgs, ∀ x, x < w.next → Reaches w' b x → ∃ b0 ∈ vs.msgs, Reaches w b0 x
  parsers : ∀ p ∈ vs'.parsers, p ∈ vs.parsers ∨ (w.next ≤ p.1 ∧ w.next ≤ p.2)

theorem Holds.rep {w : W E} {vs : Vars} {s : Vals} (h : Holds w vs s) {b : Nat} (hb : b ∈ vs.msgs) : ∃ m, RepMsg w b m := by
  obtain ⟨j, hj⟩ := List.getElem?_of_mem hb
  obtain ⟨m, hm⟩ := getElem?_other h.mlen hj
  exact ⟨m, h.msg j b m hj hm⟩

theorem Frm.keeps {w w' : W E} {vs : Vars} {s : Vals} (h : Holds w vs s) (hk : Keeps w w') : Frm w w' vs vs where
  next := hk.2.1
  ext := hk.2.2.2
  same := fun x hx _ _ => hk.1 x hx
  reach := fun b hb x _ hr => by
    obtain ⟨m, hm⟩ := h.rep hb
    exact ⟨b, hb, hm.reaches_congr (fun y hy _ => hk.1 y hy) hr⟩
  parsers := fun p hp => Or.inl hp

theorem Frm.newMsg {w w' : W E} {vs : Vars} {s : Vals} (h : Holds w vs s) (hk : Keeps w w') {b : Nat} (hn : ∀ x, Reaches w' b x → w.next ≤ x) : Frm w w' vs { vs with msgs := vs.msgs ++ [b] } :=
  { Frm.keeps h hk with
    reach := fun b' hb x hx hr => by
      rcases List.mem_append.mp hb with hb | hb
      · exact (Frm.keeps h hk).reach b' hb x hx hr
      · obtain rfl : b' = b := by simpa using hb
        exact absurd (hn x hr) (by omega) }

theorem Frm.newParser {w w' : W E} {vs : Vars} {s : Vals} (h : Holds w vs s) (hk : Keeps w w') {a mi : Nat} (ha : w.next ≤ a) (hm : w.next ≤ mi) : Frm w w' vs { vs with parsers := vs.parsers ++ [(a, mi)] } :=
  { Frm.keeps h hk with
    parsers := fun p hp => by
      rcases List.mem_append.mp hp with hp | hp
      · exact Or.inl hp
      · obtain rfl : p = (a, mi) := by simpa using hp
        exact Or.inr ⟨ha, hm⟩ }

theorem Frm.machine {w w' : W E} {vs : Vars} {s : Vals} (h : Holds w vs s) {i : Nat} {p : Nat × Nat} (hp : vs.parsers[i]? = some p) (hk : KeepsBut p.2 w w') : Frm w w' vs vs where
  next := hk.2.1
  ext := hk.2.2.2
  same := fun x hx h1 _ => hk.1 x hx (h1 p (List.mem_of_getElem? hp))
  reach := fun b hb x _ hr => by
    obtain ⟨j, hj⟩ := List.getElem?_of_mem hb
    obtain ⟨m, hm⟩ := h.rep hb
    exact ⟨b, hb, hm.reaches_congr (fun y hy hy' => hk.1 y hy fun e => (h.apart i j p b hp hj).2 (e ▸ hy')) hr⟩
  parsers := fun p hp => Or.inl hp

theorem Frm.setMsg {w w' : W E} {vs : Vars} {s : Vals} (h : Holds w vs s) {j : Nat} {b : Nat} (hb : vs.msgs[j]? = some b) (hf : Frame w w' b) : Frm w w' vs vs where
  next := hf.next
  ext := hf.ext
  same := fun x hx _ h2 => hf.same x hx fun ho => h2 b (List.mem_of_getElem? hb) (Or.inl ho)
  reach := fun b' hb' x hx hr => by
    obtain ⟨j', hj'⟩ := List.getElem?_of_mem hb'
    obtain ⟨m, hm⟩ := h.rep hb'
    by_cases hj : j = j'
    · obtain rfl : b = b' := Option.some.inj (hb.symm.trans (hj ▸ hj'))
      exact ⟨b, hb', hf.reaches hx hr⟩
    · exact ⟨b', hb', hm.reaches_congr (fun y hy hy' => hf.same y hy fun ho => h.msgs j j' b b' hj hb hj' y (Or.inl ho) hy') hr⟩
  parsers := fun p hp => Or.inl hp

/-- an operation -/
theorem op_ok (extra : Nat → Nat) (order : List Bytes → List Bytes) (ho : ∀ xs, (order xs).Perm xs) (left : W E → Go.GS Go.R5.V) (op : ApiOp) {w : W E} {vs : Vars} {s : Vals} (h : Holds w vs s) :
    ∃ ob s', op.run s = some (ob, s') ∧ RunOp (parserX extra order left) op vs w fun ob' vs' w' => ob' = ob ∧ Holds w' vs' s' ∧ Frm w w' vs vs' := by
  have hX := parserX_env extra order left
  cases op with
  | newParser os =>
    refine ⟨_, _, rfl, does 4 fun n => ?_⟩
    have hs : IsSlice (newVar w (.arr (os.map optVal5))) (.slice w.next 0 os.length os.length) (os.map optVal5) :=
      Or.inr ⟨w.next, 0, os.length, os.length, os.map optVal5, rfl, newVar_same w _, Nat.lt_succ_self _, by simp, Nat.le_refl _, by rw [List.drop_zero, List.take_of_length_le (by simp)]⟩
    obtain ⟨w', h1, h2, h3⟩ := newParser5_keeps hX n (newVar w (.arr (os.map optVal5))) hs
    refine ⟨_, h1, _, _, w', rfl, by rw [h2.parser]; rfl, rfl, ?_⟩
    have ha : w.next ≤ w.next + 1 + 1 := by omega
    have hm : w.next ≤ w.next + 1 := by omega
    exact ⟨h.newParser ((newVar_keeps w _).trans h3) h2 ha hm, .newParser h ((newVar_keeps w _).trans h3) ha hm⟩
  | withBestEffort i =>
    cases hp : vs.parsers[i]? with
    | none => simp only [ApiOp.run, RunOp, hp, getElem?_none h.plen hp]; exact ⟨_, _, rfl, rfl, h, .keeps h (Keeps.refl w)⟩
    | some p =>
      obtain ⟨o, hso⟩ := getElem?_other h.plen hp
      simp only [ApiOp.run, RunOp, hp, hso]
      have hl := h.parser i p o hp hso
      refine ⟨_, _, rfl, by rw [hl.parser]; rfl, does 2 fun n => ?_⟩
      obtain ⟨w', h1, h2, h3, h4⟩ := live_turnOn hX (Or.inl rfl) n hl
      exact ⟨_, h1, w', rfl, rfl, h.machine hp h4 h2, .machine h hp h4⟩
  | hasBestEffort i =>
    cases hp : vs.parsers[i]? with
    | none => simp only [ApiOp.run, RunOp, hp, getElem?_none h.plen hp]; exact ⟨_, _, rfl, rfl, h, .keeps h (Keeps.refl w)⟩
    | some p =>
      obtain ⟨o, hso⟩ := getElem?_other h.plen hp
      simp only [ApiOp.run, RunOp, hp, hso]
      have hl := h.parser i p o hp hso
      exact ⟨_, _, rfl, does 2 fun n => ⟨_, live_hasBestEffort hX (Or.inl rfl) n hl, _, _, rfl, rfl, h, .keeps h (Keeps.refl w)⟩⟩
  | parse i input =>
    cases hp : vs.parsers[i]? with
    | none => simp only [ApiOp.run, RunOp, hp, getElem?_none h.plen hp]; exact ⟨_, _, rfl, rfl, h, .keeps h (Keeps.refl w)⟩
    | some p =>
      obtain ⟨o, hso⟩ := getElem?_other h.plen hp
      simp only [ApiOp.run, RunOp, hp, hso]
      have hl := h.parser i p o hp hso
      have key := fun n => live_parseMem (X := parserX extra order left) (calls := call (libX extra order fun _ _ => M.stuck) 3) (left := left) hX (fun _ => rfl) (packageOk rfl 0) n hl input
      obtain ⟨r, m', -, -, hr, -⟩ := key 0
      simp only [hr]
      refine ⟨_, _, rfl, does 2 fun n => ?_⟩
      obtain ⟨r', m'', v, w', hr', h1, h2, h3⟩ := key n
      obtain ⟨rfl, rfl⟩ : r = r' ∧ m' = m'' := by rw [hr] at hr'; simpa using hr'
      refine ⟨_, h1, v, r.err, w', rfl, ?_⟩
      cases hm : r.msg with
      | none =>
        rw [hm] at h3
        exact Or.inl ⟨h3.1, rfl, by simpa using h.keeps h2, .keeps h h2⟩
      | some m =>
        rw [hm] at h3
        obtain ⟨_, b, rfl, hb1, hb2⟩ := h3
        exact Or.inr ⟨b, rfl, rfl, h.newMsg h2 hb1 hb2, .newMsg h h2 hb2⟩
  | newMessage =>
    have hn : ∀ x, Reaches (newVar w zeroMsg) w.next x → w.next ≤ x := fun x hx => by rw [newMsg_reaches hx]; exact Nat.le_refl _
    exact ⟨_, _, rfl, rfl, h.newMsg (newVar_keeps w _) (newMsg_rep w) hn, .newMsg h (newVar_keeps w _) hn⟩
  | set j c =>
    cases hb : vs.msgs[j]? with
    | none => simp only [ApiOp.run, RunOp, hb, getElem?_none h.mlen hb]; exact ⟨_, _, rfl, rfl, h, .keeps h (Keeps.refl w)⟩
    | some b =>
      obtain ⟨m, hm⟩ := getElem?_other h.mlen hb
      simp only [ApiOp.run, RunOp, hb, hm]
      obtain ⟨m', g', hc, -⟩ := C22_only_own_field c m s.glob
      simp only [hc]
      refine ⟨_, _, rfl, does_mono (C104_setter extra order _ w c b m s.glob (h.msg j b m hb hm) h.glob) ?_⟩
      rintro o' hd
      rw [hc] at hd
      obtain ⟨w', rfl, h1, h2, h3⟩ := hd
      exact ⟨w', rfl, rfl, h.setMsg hb h3 h1 h2, .setMsg h hb h3⟩
  | string j =>
    cases hb : vs.msgs[j]? with
    | none => simp only [ApiOp.run, RunOp, hb, getElem?_none h.mlen hb]; exact ⟨_, _, rfl, rfl, h, .keeps h (Keeps.refl w)⟩
    | some b =>
      obtain ⟨m, hm⟩ := getElem?_other h.mlen hb
      simp only [ApiOp.run, RunOp, hb, hm]
      refine ⟨_, _, rfl, does_mono (C104_string extra order _ w ho b m (h.msg j b m hb hm).msg) ?_⟩
      rintro o' ⟨w', h1, rfl⟩
      refine ⟨w', ?_⟩
      cases Builder.string m with
      | some t => exact Or.inl ⟨t, rfl, rfl, h.keeps h1, .keeps h h1⟩
      | none => exact Or.inr ⟨rfl, rfl, h.keeps h1, .keeps h h1⟩

theorem RunOps.mono {X : Env0 E} : ∀ (ops : List ApiOp) {vs : Vars} {w : W E} {P Q : List Obs → Vars → W E → Prop}, (∀ ob vs w, P ob vs w → Q ob vs w) → RunOps X ops vs w P → RunOps X ops vs w Q
  | [], _, _, _, _, hpq, h => hpq _ _ _ h
  | _ :: ops, _, _, _, _, hpq, h => RunOp.mono h fun _ _ _ h' => RunOps.mono ops (fun _ _ _ h'' => hpq _ _ _ h'') h'

/-- the variables that the program has stay as they are, it gets new ones -/
def Vars.Grows (vs vs' : Vars) : Prop := (∃ ps, vs'.parsers = vs.parsers ++ ps) ∧ ∃ ms, vs'.msgs = vs.msgs ++ ms

theorem Vars.Grows.refl (vs : Vars) : vs.Grows vs := ⟨⟨[], by simp⟩, ⟨[], by simp⟩⟩

theorem Vars.Grows.trans {a b c : Vars} (h : a.Grows b) (h' : b.Grows c) : a.Grows c := by
  obtain ⟨⟨ps, h1⟩, ⟨ms, h2⟩⟩ := h
  obtain ⟨⟨ps', h3⟩, ⟨ms', h4⟩⟩ := h'
  exact ⟨⟨ps ++ ps', by rw [h3, h1, List.append_assoc]⟩, ⟨ms ++ ms', by rw [h4, h2, List.append_assoc]⟩⟩

theorem Vars.Grows.msg {vs vs' : Vars} (h : vs.Grows vs') {j b : Nat} (hb : vs.msgs[j]? = some b) : vs'.msgs[j]? = some b := by
  obtain ⟨_, ⟨ms, h⟩⟩ := h
  rw [h, List.getElem?_append_left (getElem?_lt hb)]
  exact hb

theorem RunOp.grows {X : Env0 E} {op : ApiOp} {vs : Vars} {w : W E} {P : Obs → Vars → W E → Prop} (h : RunOp X op vs w P) : RunOp X op vs w fun ob vs' w' => P ob vs' w' ∧ vs.Grows vs' := by
  cases op with
  | newParser os => exact does_mono h fun o ⟨a, mi, w', h1, h2, h3⟩ => ⟨a, mi, w', h1, h2, h3, ⟨[(a, mi)], rfl⟩, ⟨[], by simp⟩⟩
  | withBestEffort i =>
    cases hv : vs.parsers[i]? <;> simp only [RunOp, hv] at h ⊢
    · exact ⟨h, .refl vs⟩
    · exact ⟨h.1, does_mono h.2 fun o ⟨w', h1, h2⟩ => ⟨w', h1, h2, .refl vs⟩⟩
  | hasBestEffort i =>
    cases hv : vs.parsers[i]? <;> simp only [RunOp, hv] at h ⊢
    · exact ⟨h, .refl vs⟩
    · exact does_mono h fun o ⟨b, w', h1, h2⟩ => ⟨b, w', h1, h2, .refl vs⟩
  | parse i input =>
    cases hv : vs.parsers[i]? <;> simp only [RunOp, hv] at h ⊢
    · exact ⟨h, .refl vs⟩
    · exact does_mono h fun o ⟨v, err, w', h1, h2⟩ => ⟨v, err, w', h1, h2.imp (fun h => ⟨h.1, h.2, .refl vs⟩) fun ⟨b, h3, h4⟩ => ⟨b, h3, h4, ⟨[], by simp⟩, ⟨[b], rfl⟩⟩⟩
  | newMessage => exact ⟨h, ⟨[], by simp⟩, ⟨[w.next], rfl⟩⟩
  | set j c =>
    cases hv : vs.msgs[j]? <;> simp only [RunOp, hv] at h ⊢
    · exact ⟨h, .refl vs⟩
    · exact does_mono h fun o ⟨w', h1, h2⟩ => ⟨w', h1, h2, .refl vs⟩
  | string j =>
    cases hv : vs.msgs[j]? <;> simp only [RunOp, hv] at h ⊢
    · exact ⟨h, .refl vs⟩
    · exact does_mono h fun o ⟨w', h1⟩ => ⟨w', h1.imp (fun ⟨t, h2, h3⟩ => ⟨t, h2, h3, .refl vs⟩) fun h2 => ⟨h2.1, h2.2, .refl vs⟩⟩

theorem RunOps.grows {X : Env0 E} : ∀ (ops : List ApiOp) {vs : Vars} {w : W E} {P : List Obs → Vars → W E → Prop}, RunOps X ops vs w P → RunOps X ops vs w fun obs vs' w' => P obs vs' w' ∧ vs.Grows vs'
  | [], vs, _, _, h => ⟨h, .refl vs⟩
  | _ :: ops, vs, _, _, h => RunOp.mono (RunOp.grows h) fun _ _ _ ⟨h1, h2⟩ => RunOps.mono ops (fun _ _ _ ⟨h3, h4⟩ => ⟨h3, h2.trans h4⟩) (RunOps.grows ops h1)

/-- on values, a message is changed by its own setters only -/
theorem runOps_msg {j : Nat} : ∀ (ops : List ApiOp) {s s' : Vals} {obs : List Obs} {m : SyslogMessage}, runOps ops s = some (obs, s') → (∀ c, ApiOp.set j c ∉ ops) → s.msgs[j]? = some m → s'.msgs[j]? = some m
  | [], s, s', obs, m, h, _, hm => by
    obtain ⟨rfl, rfl⟩ : [] = obs ∧ s = s' := by simpa [runOps] using h
    exact hm
  | op :: ops, s, s', obs, m, h, hn, hm => by
    rw [runOps] at h
    cases h1 : op.run s with
    | none => rw [h1] at h; cases h
    | some r =>
      obtain ⟨ob, s1⟩ := r
      rw [h1] at h
      cases h2 : runOps ops s1 with
      | none => simp [h2] at h
      | some r =>
        simp only [h2, Option.map_some, Option.some.injEq, Prod.mk.injEq] at h
        obtain ⟨-, h3⟩ := h
        refine runOps_msg ops (s := s1) (obs := r.1) (by rw [h2, ← h3]) (fun c hc => hn c (by simp [hc])) ?_
        cases op with
        | newParser os => obtain ⟨-, rfl⟩ : _ ∧ _ = s1 := by simpa [ApiOp.run] using h1
                          exact hm
        | withBestEffort i =>
          simp only [ApiOp.run] at h1
          split at h1 <;> (obtain ⟨-, rfl⟩ : _ ∧ _ = s1 := by simpa using h1) <;> exact hm
        | hasBestEffort i =>
          simp only [ApiOp.run] at h1
          split at h1 <;> (obtain ⟨-, rfl⟩ : _ ∧ _ = s1 := by simpa using h1) <;> exact hm
        | parse i input =>
          simp only [ApiOp.run] at h1
          split at h1
          · split at h1
            · obtain ⟨-, rfl⟩ : _ ∧ _ = s1 := by simpa using h1
              show (s.msgs ++ _)[j]? = _
              rw [List.getElem?_append_left (getElem?_lt hm)]
              exact hm
            · cases h1
          · obtain ⟨-, rfl⟩ : _ ∧ _ = s1 := by simpa using h1
            exact hm
        | newMessage =>
          obtain ⟨-, rfl⟩ : _ ∧ _ = s1 := by simpa [ApiOp.run] using h1
          show (s.msgs ++ _)[j]? = _
          rw [List.getElem?_append_left (getElem?_lt hm)]
          exact hm
        | set k c =>
          simp only [ApiOp.run] at h1
          split at h1
          · split at h1
            · obtain ⟨-, rfl⟩ : _ ∧ _ = s1 := by simpa using h1
              show (s.msgs.set k _)[j]? = _
              rw [List.getElem?_set_ne (fun hk => hn c (by simp [hk]))]
              exact hm
            · cases h1
          · obtain ⟨-, rfl⟩ : _ ∧ _ = s1 := by simpa using h1
            exact hm
        | string k =>
          simp only [ApiOp.run] at h1
          split at h1 <;> (obtain ⟨-, rfl⟩ : _ ∧ _ = s1 := by simpa using h1) <;> exact hm

end MiniSrc

open MiniSrc

section
variable {E : Type} (extra : Nat → Nat) (order : List Bytes → List Bytes) (left : W E → Go.GS Go.R5.V) (w : W E)

/-- **C109** (programs on values): any sequence of operations, from a memory that holds values in variables that share nothing: every operation ends without a
panic, the program sees what the operations on values give, and the memory holds the new values then, again in variables that share nothing. -/
theorem C109_values (ho : ∀ xs, (order xs).Perm xs) (ops : List ApiOp) (vs : Vars) (s : Vals) (h : Holds w vs s) :
    RunOps (parserX extra order left) ops vs w fun obs vs' w' => ∃ s', runOps ops s = some (obs, s') ∧ Holds w' vs' s' := by
  induction ops generalizing vs s w with
  | nil => exact ⟨s, rfl, h⟩
  | cons op ops ih =>
    obtain ⟨ob, s1, h1, h2⟩ := op_ok extra order ho left op h
    refine RunOp.mono h2 ?_
    rintro ob' vs' w' ⟨rfl, h3, -⟩
    refine RunOps.mono ops ?_ (ih w' vs' s1 h3)
    rintro obs vs2 w2 ⟨s', h4, h5⟩
    exact ⟨s', by simp only [runOps, h1, h4, Option.map_some], h5⟩

/-- **C109** (`Parse`): on a parser that nobody is using `Parse` ends without a panic and returns the error of the model, and its message in new variables, or nil;
everything that existed before, the parser included, is as before. -/
theorem C109_parse (a mi : Nat) (o : Rfc5424.Opts) (h : Live kit5 w a mi o) (input : Bytes) :
    Does (parserX extra order left) .rfc5424_parser_Parse [.ptr a [], .str input] w fun out => ∃ r m' v w', out = .ok (.tuple [v, err5Val r.err]) w' ∧
      Rfc5424.parserParse (Rfc5424.newMachine o) input = some (r, m') ∧ Keeps w w' ∧ Live kit5 w' a mi o ∧
      match r.msg with
      | none => v = .nil
      | some m => ∃ b, v = .ptr b [] ∧ RepMsg w' b m ∧ ∀ x, Reaches w' b x → w.next ≤ x := by
  refine does 2 fun n => ?_
  obtain ⟨r, m', v, w', h1, h2, h3, h4⟩ := live_parseMem (X := parserX extra order left) (calls := call (libX extra order fun _ _ => M.stuck) 3) (left := left)
    (parserX_env extra order left) (fun _ => rfl) (packageOk rfl 0) n h input
  refine ⟨_, h2, r, m', v, w', rfl, h1, h3, live_keeps h h3.2.1 (h3.1 _ h.lt) (h3.1 _ h.mlt), ?_⟩
  cases hm : r.msg with
  | none => rw [hm] at h4; exact h4.1
  | some m => rw [hm] at h4; exact h4.rep

/-- **C109** (a whole program): it begins with no parsers and no messages, in any memory. -/
theorem C109_program (ho : ∀ xs, (order xs).Perm xs) (ops : List ApiOp) (g : Globals) (hg : HasGlob w g) :
    RunOps (parserX extra order left) ops {} w fun obs vs' w' => ∃ s', runOps ops { glob := g } = some (obs, s') ∧ Holds w' vs' s' :=
  C109_values extra order left w ho ops {} { glob := g } ⟨rfl, rfl, fun _ _ _ h => (by cases h), fun _ _ _ h => (by cases h), hg, fun _ _ _ _ _ h => (by cases h), fun _ _ _ _ _ h => (by cases h),
    fun _ _ _ _ h => (by cases h)⟩

/-- **C109** (a message is kept): whatever the program does with parsers and other messages, a message changes only by its own setters: if there are none of
them among the operations, the variable holds the same message at the end, and `String` prints the same text. -/
theorem C109_kept (ho : ∀ xs, (order xs).Perm xs) (ops : List ApiOp) (vs : Vars) (s : Vals) (h : Holds w vs s) (j b : Nat) (m : SyslogMessage) (hb : vs.msgs[j]? = some b) (hm : s.msgs[j]? = some m)
    (hn : ∀ c, ApiOp.set j c ∉ ops) :
    RunOps (parserX extra order left) ops vs w fun _ _ w' => RepMsg w' b m ∧ Prints (parserX extra order left) w' b m := by
  refine RunOps.mono ops ?_ (RunOps.grows ops (C109_values extra order left w ho ops vs s h))
  rintro obs vs' w' ⟨⟨s', h1, h2⟩, h3⟩
  have hr := h2.msg j b m (h3.msg hb) (runOps_msg ops h1 hn hm)
  exact ⟨hr, C104_string extra order _ w' ho b m hr.msg⟩

end

/-! ## Instances -/

namespace MiniSrc

/-- nothing there yet -/
def bareWorld : W Unit :=
  { heap := fun _ => .nil, next := 0, glob := fun x => if x = .currentid then .str [] else if x = .currentparamname then .str [] else .nil, ext := () }

/-- Two parsers, one line given to the first twice; the first result is changed; a bad line to a strict and to a best-effort parser; then the messages are printed. -/
def progA : List ApiOp :=
  [.newParser [], .newParser [.bestEffort], .parse 0 (ascii "<165>1 - h a - - [x k=\"v\"] hello"), .parse 0 (ascii "<165>1 - h a - - [x k=\"v\"] hello"),
   .set 0 (.parameter (ascii "x") (ascii "k") (ascii "new")), .set 0 (.hostname (ascii "other")), .parse 0 (ascii "<34>1 - bad"), .parse 1 (ascii "<34>1 - bad"), .withBestEffort 0, .hasBestEffort 0,
   .newMessage, .set 3 (.message (ascii "m")), .string 0, .string 1, .string 2, .string 3]

def seenA : List Obs :=
  [.nothing, .nothing, .parsed true none, .parsed true none, .nothing, .nothing, .parsed false (some ⟨.hostname, 11⟩), .parsed true (some ⟨.hostname, 11⟩), .nothing, .flag true, .nothing, .nothing,
   .text (some (ascii "<165>1 - other a - - [x k=\"new\"] hello")), .text (some (ascii "<165>1 - h a - - [x k=\"v\"] hello")), .text (some (ascii "<34>1 - - - - - -")), .text none]

end MiniSrc

/-- what that program sees, executed -/
example (extra : Nat → Nat) (left : W Unit → Go.GS Go.R5.V) : RunOps (parserX extra List.reverse left) progA {} bareWorld fun obs _ _ => obs = seenA := by
  have hrun : (runOps progA {}).map Prod.fst = some seenA := by decide +kernel
  refine RunOps.mono progA ?_ (C109_program extra List.reverse left bareWorld (fun xs => List.reverse_perm xs) progA {} ⟨rfl, rfl⟩)
  rintro obs vs' w' ⟨s', h1, -⟩
  rw [h1] at hrun
  exact Option.some.inj hrun

/-- a memory that holds a parser and two messages: the one after the first four operations of that program -/
example (extra : Nat → Nat) (left : W Unit → Go.GS Go.R5.V) : RunOps (parserX extra List.reverse left) (progA.take 4) {} bareWorld fun _ vs w => ∃ s, Holds w vs s ∧ s.msgs.length = 2 ∧ s.parsers.length = 2 := by
  have hrun : (runOps (progA.take 4) {}).map (fun r => (r.2.msgs.length, r.2.parsers.length)) = some (2, 2) := by decide +kernel
  refine RunOps.mono (progA.take 4) ?_ (C109_program extra List.reverse left bareWorld (fun xs => List.reverse_perm xs) (progA.take 4) {} ⟨rfl, rfl⟩)
  rintro obs vs' w' ⟨s', h1, h2⟩
  rw [h1] at hrun
  have hrun := Option.some.inj hrun
  simp only [Prod.mk.injEq] at hrun
  exact ⟨s', h2, hrun.1, hrun.2⟩

end Verif.Props
