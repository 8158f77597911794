import Verif.Mini.LinesMem
import Verif.Props.MiniLines
import Verif.Props.MiniStream

/-!
# Lines, parsers and messages in one program (C112)

A program makes parsers of non-transparent framing, with or without a listener, gives them readers, and applies options to them at any time; the listener keeps the messages it
gets. In between, and afterwards, the program uses those messages, and parsers and messages of `rfc5424`, in any order. Everything is executed over one memory: the functions of
`nontransparent`, `syslog` and the hand-written ones of `rfc5424` statement by statement (`Verif.Gen.Mini.prog`), the generated `Exec`, `Parse` and `set` block by block. The theorems
compare that with the same operations on values.
-/

set_option linter.constructorNameAsVariable false

namespace Verif.Props
open Verif.Mini Verif.Gen.Mini
open Verif.Builder (Globals Entry Call)
open Verif.Rfc5424 (SyslogMessage)
open Verif.NonTransparent (Machine TrailerType ReadErr Driver)

namespace Lns
open MiniSrc
open Strm (stuck_le parsers_lt)

/-! ## The environment -/

/-- `Parse` of `rfc5424/machine.go` over memory; it calls functions of its own package only -/
def lineParse (extra : Nat → Nat) (order : List Bytes → List Bytes) (left : W EN → Go.GS Go.R5.V) : List Val → M EN Val :=
  parseGo (call (libX extra order fun _ _ => M.stuck) 3) left

/-- the program, with the functions of other packages that `rfc5424` and `nontransparent` use; the loop that calls `Exec` is the one of C106 -/
def lineX (extra : Nat → Nat) (order : List Bytes → List Bytes) (left : W EN → Go.GS Go.R5.V) (d : Driver) : Env0 EN :=
  { extra := extra, order := order, meth := meth, prog := prog
    call := fun f args => match f with
      | .emit => xEmitN args
      | .strings_ToUpper => xUpper args
      | .ragel_ArbitraryReader => xKeep args
      | .ragel_New => xKeep args
      | .ragel_WithStart => xKeep args
      | .ragel_Parse => xRagelParse (call (ntBase extra order (lineParse extra order left)) 5) d args
      | f => (parserX extra order left).call f args }

variable {extra : Nat → Nat} {order : List Bytes → List Bytes} {left : W EN → Go.GS Go.R5.V} {d : Driver}

theorem nt_below : Below (ntX extra order (lineParse extra order left) d) (lineX extra order left d) := by
  refine ⟨rfl, rfl, rfl, rfl, fun f args => ?_⟩
  cases f
  case fmt_Errorf =>
    show Le (xErrorfN args) (xError args)
    cases args with
    | nil => exact stuck_le _
    | cons v args => cases v <;> first | exact stuck_le _ | exact .refl _
  all_goals first | exact .refl _ | exact stuck_le _

theorem parser_below : Below (parserX extra order left) (lineX extra order left d) := by
  refine ⟨rfl, rfl, rfl, rfl, fun f args => ?_⟩
  cases f
  all_goals first | exact .refl _ | exact stuck_le _

/-! ## Operations on values -/

/-- what a program does; the parsers of lines are numbered in the order in which it got them -/
inductive LOp where
  /-- an operation on parsers and messages of `rfc5424` -/
  | api (op : ApiOp)
  /-- `nontransparent.NewParser(opts...)` -/
  | newLines (opts : List NOpt)
  /-- `p.Parse(r)`, where `r` delivers `bytes` and then the error `stop` (or the end) -/
  | lines (k : Nat) (bytes : Bytes) (stop : ReadErr)
  /-- an option, applied to `p` -/
  | option (k : Nat) (o : NOpt)
  /-- `p.HasBestEffort()` -/
  | hasBestEffort (k : Nat)

/-- what it sees: of the results that the listener gets, whether there is a message, and the error -/
inductive LObs where
  | api (ob : Obs)
  | nothing
  | flag (b : Bool)
  | heard (rs : List (Bool × Option NonTransparent.Error))
deriving DecidableEq

/-- the values of its variables; of a parser of lines, its state and whether it has a listener. The messages that the listener gets are kept with the others. -/
structure LVals where
  base : Vals := {}
  lines : List (Machine × Bool) := []

/-- an operation on values; with a number that is not there it does nothing -/
def LOp.run (d : Driver) : LOp → LVals → Option (LObs × LVals)
  | .api op, s => (op.run s.base).map fun r => (.api r.1, { s with base := r.2 })
  | .newLines opts, s => some (.nothing, { s with lines := s.lines ++ [(NonTransparent.newParser (opts.filterMap NOpt.model), hasListener opts)] })
  | .lines k bytes stop, s => match s.lines[k]? with
    | some (m, listens) => match Machine.parse d { m with out := [] } bytes stop with
      | some m' => some (.heard (if listens then m'.out.map fun r => (r.msg.isSome, r.err) else []),
        { s with base := { s.base with msgs := s.base.msgs ++ if listens then m'.out.filterMap (·.msg) else [] }, lines := s.lines.set k (m', listens) })
      | none => none
    | none => some (.nothing, s)
  | .option k o, s => match s.lines[k]? with
    | some (m, listens) => some (.nothing, { s with lines := s.lines.set k (o.ap m, o.listens listens) })
    | none => some (.nothing, s)
  | .hasBestEffort k, s => match s.lines[k]? with
    | some (m, _) => some (.flag m.bestEffort, s)
    | none => some (.nothing, s)

/-- one after the other; `none`: a panic -/
def runLOps (d : Driver) : List LOp → LVals → Option (List LObs × LVals)
  | [], s => some ([], s)
  | op :: ops, s => match op.run d s with
    | some (ob, s') => (runLOps d ops s').map fun r => (ob :: r.1, r.2)
    | none => none

/-- the bytes of all the streams -/
def LOp.volume : LOp → Nat
  | .lines _ bytes _ => bytes.length
  | _ => 0

def volumes : List LOp → Nat
  | [] => 0
  | op :: ops => op.volume + volumes ops

/-! ## The same operations on memory -/

/-- the variables of the program: `base` as in C109, and the addresses of parsers of lines (with the machine of each) -/
structure LVars where
  base : Vars := {}
  lines : List (Nat × Nat) := []

/-- what the listener got, as the two fields of `syslog.Result`: nil or a pointer to a message, and the error; `bs` are the messages -/
def Heard : List (Val × Val) → List (Bool × Option NonTransparent.Error) → List Nat → Prop
  | [], [], [] => True
  | v :: vs, (false, e) :: es, bs => v.1 = .nil ∧ v.2 = nerrVal e ∧ Heard vs es bs
  | v :: vs, (true, e) :: es, b :: bs => v.1 = .ptr b [] ∧ v.2 = nerrVal e ∧ Heard vs es bs
  | _, _, _ => False

/-- an operation, executed from the memory `w`; `P` describes what is seen, the variables and the memory then -/
def RunLOp (X : Env0 EN) : LOp → LVars → W EN → (LObs → LVars → W EN → Prop) → Prop
  | .api op, vs, w, P => RunOp X op vs.base w fun ob vs' w' => P (.api ob) { vs with base := vs' } w'
  | .newLines opts, vs, w, P => Does X .nontransparent_NewParser [.slice w.next 0 opts.length opts.length] (newVar w (.arr (opts.map NOpt.val))) fun o =>
    ∃ a mi w', o = .ok (.ptr a []) w' ∧ (w'.heap a).get .internal = some (.ptr mi []) ∧ P .nothing { vs with lines := vs.lines ++ [(a, mi)] } w'
  | .lines k bytes stop, vs, w, P => match vs.lines[k]? with
    | some (a, _) => Does X .nontransparent_machine_Parse [.ptr a [], .ext (.obj 0)] (feeding w bytes stop) fun o => ∃ w' outs seen bs, o = .ok (.tuple []) w' ∧
      w'.ext.out = w.ext.out ++ outs ∧ Heard outs seen bs ∧ P (.heard seen) { vs with base := { vs.base with msgs := vs.base.msgs ++ bs } } w'
    | none => P .nothing vs w
  | .option k o, vs, w, P => match vs.lines[k]? with
    | some (a, _) => ∃ f caps, o.val = .clo f caps ∧ Does X f (caps ++ [.ptr a []]) w fun r => ∃ w', r = .ok (.ptr a []) w' ∧ P .nothing vs w'
    | none => P .nothing vs w
  | .hasBestEffort k, vs, w, P => match vs.lines[k]? with
    | some (a, _) => Does X .nontransparent_machine_HasBestEffort [.ptr a []] w fun o => ∃ b w', o = .ok (.bool b) w' ∧ P (.flag b) vs w'
    | none => P .nothing vs w

/-- one after the other -/
def RunLOps (X : Env0 EN) : List LOp → LVars → W EN → (List LObs → LVars → W EN → Prop) → Prop
  | [], vs, w, P => P [] vs w
  | op :: ops, vs, w, P => RunLOp X op vs w fun ob vs' w' => RunLOps X ops vs' w' fun obs vs'' w'' => P (ob :: obs) vs'' w''

/-- The memory holds the values, in variables that share nothing. -/
structure LHolds (w : W EN) (vs : LVars) (s : LVals) : Prop where
  base : Holds w vs.base s.base
  len : vs.lines.length = s.lines.length
  line : ∀ (k : Nat) (q : Nat × Nat) (m : Machine × Bool), vs.lines[k]? = some q → s.lines[k]? = some m → RepN memRelN w.next w q.1 q.2 m.2 w.ext.out { m.1 with out := [] } ∧ Agrees m.1
  lines : ∀ (k k' : Nat) (q q' : Nat × Nat), k ≠ k' → vs.lines[k]? = some q → vs.lines[k']? = some q' → q.1 ≠ q'.1 ∧ q.1 ≠ q'.2 ∧ q.2 ≠ q'.2
  parsers : ∀ q ∈ vs.lines, ∀ p ∈ vs.base.parsers, q.1 ≠ p.1 ∧ q.1 ≠ p.2 ∧ q.2 ≠ p.1 ∧ q.2 ≠ p.2
  msgs : ∀ q ∈ vs.lines, ∀ b ∈ vs.base.msgs, ¬ Reaches w b q.1 ∧ ¬ Reaches w b q.2

theorem LHolds.lt {w : W EN} {vs : LVars} {s : LVals} (h : LHolds w vs s) {q : Nat × Nat} (hq : q ∈ vs.lines) : q.1 < w.next ∧ q.2 < w.next ∧ q.1 ≠ q.2 := by
  obtain ⟨k, hk⟩ := List.getElem?_of_mem hq
  obtain ⟨m, hm⟩ := getElem?_other h.len hk
  obtain ⟨r, -⟩ := h.line k q m hk hm
  exact ⟨r.lt, r.mlt, r.ne⟩

/-- the parser is as before if its two variables are -/
theorem repN_move {w w' : W EN} {a mi : Nat} {em : Bool} {m : Machine} (h : RepN memRelN w.next w a mi em w.ext.out { m with out := [] }) (hn : w.next ≤ w'.next) (h1 : w'.heap a = w.heap a) (h2 : w'.heap mi = w.heap mi) :
    RepN memRelN w'.next w' a mi em w'.ext.out { m with out := [] } := by
  have l1 := h.lt
  have l2 := h.mlt
  obtain ⟨fs, g1, g2⟩ := h.mach
  exact ⟨by rw [h1]; exact h.heap, ⟨fs, h2.trans g1, g2⟩, h.ne, by omega, by omega, by omega, by omega, [], by simp, Nat.le_refl _, fun _ => rfl, fun _ => Nat.le_refl w'.next⟩

/-- the messages of lines, one after the other -/
theorem Holds.addLines {w : W EN} {hi : Nat} : ∀ {outs : List (Val × Val)} {rs : List NonTransparent.Result} {lo : Nat} {vs : Vars} {s : Vals}, OutL memRelN hi w lo outs rs → Holds w vs s →
    (∀ b ∈ vs.msgs, ∀ x, Reaches w b x → x < lo) → (∀ p ∈ vs.parsers, p.1 < lo ∧ p.2 < lo) →
    ∃ bs, Heard outs (rs.map fun r => (r.msg.isSome, r.err)) bs ∧ (∀ b ∈ bs, ∀ x, Reaches w b x → lo ≤ x) ∧
      Holds w { vs with msgs := vs.msgs ++ bs } { s with msgs := s.msgs ++ rs.filterMap (·.msg) }
  | [], [], lo, vs, s, _, h, _, _ => ⟨[], trivial, (fun _ hb => by cases hb), by simpa using h⟩
  | [], _ :: _, _, _, _, ho, _, _, _ => ho.elim
  | _ :: _, [], _, _, _, ho, _, _, _ => ho.elim
  | v :: outs, ⟨none, e⟩ :: rs, lo, vs, s, ⟨mid, h0, hv, he, ho'⟩, h, hm, hp => by
    obtain ⟨bs, h1, h2, h3⟩ := Holds.addLines ho' h (fun b hb x hx => Nat.lt_of_lt_of_le (hm b hb x hx) h0) fun p h' => ⟨Nat.lt_of_lt_of_le (hp p h').1 h0, Nat.lt_of_lt_of_le (hp p h').2 h0⟩
    exact ⟨bs, ⟨hv, he, h1⟩, fun b hb x hx => Nat.le_trans h0 (h2 b hb x hx), h3⟩
  | v :: outs, ⟨some m, e⟩ :: rs, lo, vs, s, ⟨mid, h0, hv, he, ho'⟩, h, hm, hp => by
    obtain ⟨b, hb, hr, hx⟩ := hv
    have h' := Strm.Holds.addMsg h hr (fun b' hb' x hx1 hx2 => by have := hm b' hb' x hx1; have := (hx x hx2).1; omega)
      fun p hp' => ⟨fun hc => by have := (hp p hp').1; have := (hx _ hc).1; omega, fun hc => by have := (hp p hp').2; have := (hx _ hc).1; omega⟩
    obtain ⟨bs, h1, h2, h3⟩ := Holds.addLines ho' h' (fun b' hb' x hx' => by
      rcases List.mem_append.mp hb' with hb' | hb'
      · exact Nat.lt_of_lt_of_le (hm b' hb' x hx') h0
      · obtain rfl : b' = b := by simpa using hb'
        exact (hx x hx').2) fun p h' => ⟨Nat.lt_of_lt_of_le (hp p h').1 h0, Nat.lt_of_lt_of_le (hp p h').2 h0⟩
    refine ⟨b :: bs, ⟨hb, he, h1⟩, fun b' hb' x hx' => ?_, by simpa using h3⟩
    rcases List.mem_cons.mp hb' with rfl | hb'
    · exact (hx x hx').1
    · exact Nat.le_trans h0 (h2 b' hb' x hx')

/-! ## Each operation -/

/-- an operation on parsers and messages of `rfc5424` leaves the parsers of lines alone -/
theorem LHolds.api {w w' : W EN} {vs : LVars} {s : LVals} (h : LHolds w vs s) {b : Vars} {sb : Vals} (hb : Holds w' b sb) (hf : Frm w w' vs.base b) : LHolds w' { vs with base := b } { s with base := sb } := by
  refine ⟨hb, h.len, ?_, h.lines, ?_, ?_⟩
  · intro k q m h1 h2
    obtain ⟨r, ha⟩ := h.line k q m h1 h2
    have hq := List.mem_of_getElem? h1
    exact ⟨repN_move r hf.next (hf.same _ r.lt (fun p hp => (h.parsers q hq p hp).2.1) fun c hc => (h.msgs q hq c hc).1)
      (hf.same _ r.mlt (fun p hp => (h.parsers q hq p hp).2.2.2) fun c hc => (h.msgs q hq c hc).2), ha⟩
  · intro q hq p hp
    have hl := LHolds.lt h hq
    rcases hf.parsers p hp with hp | hp
    · exact h.parsers q hq p hp
    · exact ⟨by omega, by omega, by omega, by omega⟩
  · intro q hq c hc
    have hl := LHolds.lt h hq
    refine ⟨fun hr => ?_, fun hr => ?_⟩
    · obtain ⟨c0, h0, hr0⟩ := hf.reach c hc _ hl.1 hr
      exact (h.msgs q hq c0 h0).1 hr0
    · obtain ⟨c0, h0, hr0⟩ := hf.reach c hc _ hl.2.1 hr
      exact (h.msgs q hq c0 h0).2 hr0

/-- a new parser of lines, in new variables -/
theorem LHolds.newLines {w w' : W EN} {vs : LVars} {s : LVals} (h : LHolds w vs s) (hk : Keeps w w') {a mi : Nat} {m : Machine × Bool} (hp : RepN memRelN w'.next w' a mi m.2 w'.ext.out { m.1 with out := [] })
    (hi : Agrees m.1) (ha : w.next ≤ a) (hm : w.next ≤ mi) : LHolds w' { vs with lines := vs.lines ++ [(a, mi)] } { s with lines := s.lines ++ [m] } := by
  have h' := LHolds.api h (h.base.keeps hk) (.keeps h.base hk)
  refine ⟨h'.base, by simp [h.len], ?_, ?_, ?_, ?_⟩
  · intro k q o h1 h2
    rcases getElem?_snoc h1 with h1 | ⟨hk1, rfl⟩
    · rcases getElem?_snoc h2 with h2 | ⟨hk2, rfl⟩
      · exact h'.line k q o h1 h2
      · have := getElem?_lt h1; have := h.len; omega
    · rcases getElem?_snoc h2 with h2 | ⟨hk2, rfl⟩
      · have := getElem?_lt h2; have := h.len; omega
      · exact ⟨hp, hi⟩
  · intro k k' q q' hne h1 h2
    rcases getElem?_snoc h1 with k1 | ⟨hk1, rfl⟩
    · rcases getElem?_snoc h2 with k2 | ⟨hk2, rfl⟩
      · exact h'.lines k k' q q' hne k1 k2
      · have := LHolds.lt h (List.mem_of_getElem? k1)
        exact ⟨by show q.1 ≠ a; omega, by show q.1 ≠ mi; omega, by show q.2 ≠ mi; omega⟩
    · rcases getElem?_snoc h2 with k2 | ⟨hk2, rfl⟩
      · have := LHolds.lt h (List.mem_of_getElem? k2)
        exact ⟨by show a ≠ q'.1; omega, by show a ≠ q'.2; omega, by show mi ≠ q'.2; omega⟩
      · omega
  · intro q hq c hc
    rcases List.mem_append.mp hq with hq | hq
    · exact h'.parsers q hq c hc
    · obtain rfl : q = (a, mi) := by simpa using hq
      have := parsers_lt h.base hc
      exact ⟨by show a ≠ c.1; omega, by show a ≠ c.2; omega, by show mi ≠ c.1; omega, by show mi ≠ c.2; omega⟩
  · intro q hq c hc
    rcases List.mem_append.mp hq with hq | hq
    · exact h'.msgs q hq c hc
    · obtain rfl : q = (a, mi) := by simpa using hq
      obtain ⟨m, hr⟩ := h.base.rep hc
      have hlt : ∀ x, Reaches w' c x → x < w.next := fun x hx => hr.reaches_lt (hr.reaches_congr (fun y hy _ => hk.1 y hy) hx)
      exact ⟨fun hx => by have := hlt _ hx; simp only at this; omega, fun hx => by have := hlt _ hx; simp only at this; omega⟩

theorem getElem?_set_cases {α : Type} {l : List α} {k j : Nat} {a b : α} (h : (l.set k a)[j]? = some b) : (k = j ∧ b = a) ∨ (k ≠ j ∧ l[j]? = some b) := by
  by_cases hk : k = j
  · subst hk
    rw [List.getElem?_set_self'] at h
    cases hl : l[k]? with
    | none => rw [hl] at h; cases h
    | some c => rw [hl] at h; exact Or.inl ⟨rfl, (Option.some.inj h).symm⟩
  · rw [List.getElem?_set_ne hk] at h
    exact Or.inr ⟨hk, h⟩

/-- one of the parsers of lines changes, there may be new messages -/
theorem LHolds.change {w w' : W EN} {vs : LVars} {s : LVals} (h : LHolds w vs s) {k : Nat} {q : Nat × Nat} (hq : vs.lines[k]? = some q)
    (hs : ∀ c, c < w.next → c ≠ q.1 → c ≠ q.2 → w'.heap c = w.heap c) (hn : w.next ≤ w'.next) (hg : w'.glob = w.glob) {m' : Machine × Bool} (hp : RepN memRelN w'.next w' q.1 q.2 m'.2 w'.ext.out { m'.1 with out := [] })
    (hi : Agrees m'.1) {outs : List (Val × Val)} {rs : List NonTransparent.Result} (hout : OutL memRelN w'.next w' w.next outs rs) :
    ∃ bs, Heard outs (rs.map fun r => (r.msg.isSome, r.err)) bs ∧
      LHolds w' { vs with base := { vs.base with msgs := vs.base.msgs ++ bs } } { s with base := { s.base with msgs := s.base.msgs ++ rs.filterMap (·.msg) }, lines := s.lines.set k m' } := by
  have hqm := List.mem_of_getElem? hq
  have hmsame : ∀ b ∈ vs.base.msgs, ∀ x, Reaches w b x → w'.heap x = w.heap x := by
    intro b hb x hx
    obtain ⟨m, hr⟩ := h.base.rep hb
    exact hs x (hr.reaches_lt hx) (fun e => (h.msgs q hqm b hb).1 (e ▸ hx)) fun e => (h.msgs q hqm b hb).2 (e ▸ hx)
  have hb := Strm.Holds.same h.base hn hg (fun c hc => by
    have hl := parsers_lt h.base hc
    have hne := h.parsers q hqm c hc
    exact ⟨hs _ hl.1 (Ne.symm hne.1) (Ne.symm hne.2.2.1), hs _ hl.2 (Ne.symm hne.2.1) (Ne.symm hne.2.2.2)⟩) hmsame
  have hre : ∀ b ∈ vs.base.msgs, ∀ x, Reaches w' b x → Reaches w b x := fun b hb x hx => by
    obtain ⟨m, hr⟩ := h.base.rep hb
    exact hr.reaches_congr (fun y _ hy => hmsame b hb y hy) hx
  obtain ⟨bs, h1, h2, h3⟩ := Holds.addLines hout hb (fun b hb x hx => by
    obtain ⟨m, hr⟩ := h.base.rep hb
    exact hr.reaches_lt (hre b hb x hx)) fun c hc => parsers_lt h.base hc
  refine ⟨bs, h1, h3, by simp [h.len], ?_, h.lines, h.parsers, ?_⟩
  · intro k' q' o' g1 g2
    rcases getElem?_set_cases g2 with ⟨rfl, rfl⟩ | ⟨hk, g2⟩
    · obtain rfl : q = q' := by rw [hq] at g1; exact Option.some.inj g1
      exact ⟨hp, hi⟩
    · obtain ⟨r, ha⟩ := h.line k' q' o' g1 g2
      have hne := h.lines k k' q q' hk hq g1
      have hne' := h.lines k' k q' q (Ne.symm hk) g1 hq
      exact ⟨repN_move r hn (hs _ r.lt (Ne.symm hne.1) hne'.2.1) (hs _ r.mlt (Ne.symm hne.2.1) (Ne.symm hne.2.2)), ha⟩
  · intro q' hq' c hc
    have hl := LHolds.lt h hq'
    rcases List.mem_append.mp hc with hc | hc
    · have := h.msgs q' hq' c hc
      exact ⟨fun hx => this.1 (hre c hc _ hx), fun hx => this.2 (hre c hc _ hx)⟩
    · exact ⟨fun hx => by have := h2 c hc _ hx; omega, fun hx => by have := h2 c hc _ hx; omega⟩

/-- the texts held back are shorter than 2^63 bytes, with what follows -/
def Room (s : LVals) (n : Nat) : Prop := ∀ q ∈ s.lines, q.1.candidate.length + n < 2 ^ 63

theorem Room.set {s : LVals} {n n' : Nat} (h : Room s n) (hn : n' ≤ n) {k : Nat} {m' : Machine × Bool} (hm : m'.1.candidate.length + n' < 2 ^ 63) (b : Vals) : Room { base := b, lines := s.lines.set k m' } n' := by
  intro q hq
  rcases List.mem_or_eq_of_mem_set hq with hq | rfl
  · have := h q hq; omega
  · exact hm

/-- an operation -/
theorem lop_ok (extra : Nat → Nat) (order : List Bytes → List Bytes) (ho : ∀ xs, (order xs).Perm xs) (left : W EN → Go.GS Go.R5.V) (d : Driver) (op : LOp) {w : W EN} {vs : LVars} {s : LVals} (h : LHolds w vs s) {n : Nat}
    (hr : Room s (op.volume + n)) (hn : n < 2 ^ 63) :
    ∃ ob s', op.run d s = some (ob, s') ∧ Room s' n ∧ RunLOp (lineX extra order left d) op vs w fun ob' vs' w' => ob' = ob ∧ LHolds w' vs' s' := by
  have hP : NParses (lineParse extra order left) memRelN := nparses_mem (packageOk (X := libX extra order fun _ _ => M.stuck) rfl 0) left
  have hroom : Room s n := fun q hq => by have := hr q hq; omega
  cases op with
  | api op =>
    obtain ⟨ob, s1, h1, h2⟩ := op_ok extra order ho left op h.base
    refine ⟨.api ob, { s with base := s1 }, by simp [LOp.run, h1], hroom, ?_⟩
    refine RunOp.mono (Strm.RunOp.env parser_below h2) ?_
    rintro ob' vs' w' ⟨rfl, h3, h4⟩
    exact ⟨rfl, LHolds.api h h3 h4⟩
  | newLines opts =>
    have hs : IsSlice (newVar w (.arr (opts.map NOpt.val))) (.slice w.next 0 opts.length opts.length) (opts.map NOpt.val) :=
      Or.inr ⟨w.next, 0, _, _, opts.map NOpt.val, rfl, newVar_same w _, Nat.lt_succ_self _, by simp, Nat.le_refl _, by rw [List.drop_zero, List.take_of_length_le (by simp)]⟩
    refine ⟨_, _, rfl, ?_, does 5 fun n => ?_⟩
    · intro q hq
      rcases List.mem_append.mp hq with hq | hq
      · exact hroom q hq
      · obtain rfl := List.mem_singleton.mp hq
        obtain ⟨w', mi, -, -, -, -, -, -, hc, -⟩ := nnewParser_call (extra := extra) (order := order) (parse5 := lineParse extra order left) (d := d) (MR := memRelN) 0 hs
        rw [hc]
        simpa using hn
    · obtain ⟨w', mi, e, R, g1, g2, g3, g4, g5, g6⟩ := nnewParser_call (extra := extra) (order := order) (parse5 := lineParse extra order left) (d := d) (MR := memRelN) n hs
      obtain ⟨cv, lv, g7, -⟩ := R.heap
      have hn1 : (newVar w (.arr (opts.map NOpt.val))).next = w.next + 1 := rfl
      refine ⟨_, call_le nt_below (n + 5) 0 _ _ _ _ e, _, mi, w', rfl, by rw [g7]; rfl, rfl, ?_⟩
      exact LHolds.newLines (m := (NonTransparent.newParser (opts.filterMap NOpt.model), hasListener opts)) h ((newVar_keeps w _).trans g3) (RepN_rebase R) g4 (by omega) (by omega)
  | lines k bytes stop =>
    cases hq : vs.lines[k]? with
    | none => simp only [LOp.run, RunLOp, hq, getElem?_none h.len hq]; exact ⟨_, _, rfl, hroom, rfl, h⟩
    | some q =>
      obtain ⟨⟨m, em⟩, hso⟩ := getElem?_other h.len hq
      obtain ⟨R, hag⟩ := h.line k q _ hq hso
      have R := RepN_feeding R bytes stop
      have hv : LOp.volume (.lines k bytes stop) = bytes.length := rfl
      have hb := hr _ (List.mem_of_getElem? hso)
      rw [hv] at hb
      have hlen : (feeding w bytes stop).ext.stream.length = bytes.length := rfl
      obtain ⟨m', w0, q1, -, -, -, -, q6⟩ := nparse_call (extra := extra) (order := order) (d := d) hP 0 R hag (by rw [hlen]; show m.candidate.length + _ < _; simp only at hb; omega)
      have q1' : Machine.parse d { m with out := [] } bytes stop = some m' := q1
      have q6' : m'.candidate.length ≤ m.candidate.length + bytes.length := q6
      simp only [LOp.run, RunLOp, hq, hso, q1']
      refine ⟨_, _, rfl, Room.set hr (by rw [hv]; omega) (by simp only at hb ⊢; omega) _, does 2 fun n => ?_⟩
      obtain ⟨m2, w', r1, e1, r3, r4, r5, r6⟩ := nparse_call (extra := extra) (order := order) (d := d) hP n R hag (by rw [hlen]; show m.candidate.length + _ < _; simp only at hb; omega)
      obtain rfl : m2 = m' := Option.some.inj (r1.symm.trans q1)
      obtain ⟨outs, o1, o2, o3, o4⟩ := r3.out
      have hrs : OutL memRelN w'.next w' w.next outs (if em then m2.out else []) := by
        cases em with
        | true => exact o4 rfl
        | false => obtain rfl := o3 rfl; exact o2
      obtain ⟨bs, g1, g2⟩ := LHolds.change h hq (fun c hc h1 h2 => r4.heap c hc h1 h2) r4.next (r4.glob trivial) (m' := (m2, em)) (RepN_rebase r3) (r5.agrees hag) hrs
      refine ⟨_, call_le nt_below (n + 2) 0 _ _ _ _ e1, w', outs, _, bs, rfl, o1, g1, ?_, ?_⟩
      · cases em <;> rfl
      · cases em
        · simpa using g2
        · exact g2
  | option k o =>
    cases hq : vs.lines[k]? with
    | none => simp only [LOp.run, RunLOp, hq, getElem?_none h.len hq]; exact ⟨_, _, rfl, hroom, rfl, h⟩
    | some q =>
      obtain ⟨⟨m, em⟩, hso⟩ := getElem?_other h.len hq
      obtain ⟨R, hag⟩ := h.line k q _ hq hso
      obtain ⟨k1, k2, k3, k4, k5⟩ := ap_agrees hag o
      simp only [LOp.run, RunLOp, hq, hso]
      refine ⟨_, _, rfl, Room.set hroom (Nat.le_refl _) (by have := hroom _ (List.mem_of_getElem? hso); simp only [k3]; exact this) _, ?_⟩
      obtain ⟨f, caps, hf⟩ := o.val_clo
      refine ⟨f, caps, hf, does 3 fun n => ?_⟩
      obtain ⟨cv, lv, hh, hc, hl⟩ := R.heap
      have e := nopt_call (extra := extra) (order := order) (parse5 := lineParse extra order left) (d := d) (m := m) n hh o hf
      have hr' : RepN memRelN w.next { w with heap := upd w.heap q.1 (ntVal (o.ap m) cv lv (emitVal (o.listens em)) (.ptr q.2 [])) } q.1 q.2 (o.listens em) w.ext.out { o.ap m with out := [] } := by
        obtain ⟨fs, e1, g⟩ := R.mach
        exact ⟨⟨cv, lv, by simp [ntVal], by rw [hc]; simp [k3], by rw [hl]; simp [k4]⟩, ⟨fs, by simp [Mini.upd_apply, Ne.symm R.ne, e1], by simp only [k2]; exact g⟩, R.ne, R.lt, R.mlt, R.lt, R.mlt, [], by simp, Nat.le_refl _, fun _ => rfl, fun _ => Nat.le_refl w.next⟩
      obtain ⟨bs, g1, g2⟩ := LHolds.change h hq (w' := { w with heap := upd w.heap q.1 (ntVal (o.ap m) cv lv (emitVal (o.listens em)) (.ptr q.2 [])) }) (fun c _ h1 _ => by simp [Mini.upd_apply, h1]) (Nat.le_refl _) rfl (m' := (o.ap m, o.listens em)) hr' k1 (outs := []) (rs := []) (Nat.le_refl w.next)
      refine ⟨_, call_le nt_below (n + 3) 0 _ _ _ _ e, _, rfl, rfl, ?_⟩
      cases bs with
      | nil => simpa using g2
      | cons => exact g1.elim
  | hasBestEffort k =>
    cases hq : vs.lines[k]? with
    | none => simp only [LOp.run, RunLOp, hq, getElem?_none h.len hq]; exact ⟨_, _, rfl, hroom, rfl, h⟩
    | some q =>
      obtain ⟨⟨m, em⟩, hso⟩ := getElem?_other h.len hq
      obtain ⟨R, hag⟩ := h.line k q _ hq hso
      simp only [LOp.run, RunLOp, hq, hso]
      refine ⟨_, _, rfl, hroom, does 1 fun n => ?_⟩
      have e := nhasBestEffort_call (extra := extra) (order := order) (parse5 := lineParse extra order left) (d := d) n R
      exact ⟨_, call_le nt_below (n + 1) 0 _ _ _ _ e, _, w, rfl, rfl, h⟩

theorem RunLOp.mono {X : Env0 EN} {op : LOp} {vs : LVars} {w : W EN} {P Q : LObs → LVars → W EN → Prop} (h : RunLOp X op vs w P) (hpq : ∀ ob vs w, P ob vs w → Q ob vs w) : RunLOp X op vs w Q := by
  cases op with
  | api op => exact RunOp.mono (P := fun ob vs' w' => P (.api ob) { vs with base := vs' } w') h fun _ _ _ h' => hpq _ _ _ h'
  | newLines opts => exact does_mono h fun o ⟨a, mi, w', h1, h2, h3⟩ => ⟨a, mi, w', h1, h2, hpq _ _ _ h3⟩
  | lines k bytes stop =>
    cases hv : vs.lines[k]? <;> simp only [RunLOp, hv] at h ⊢
    · exact hpq _ _ _ h
    · exact does_mono h fun o ⟨w', outs, seen, bs, h1, h2, h3, h4⟩ => ⟨w', outs, seen, bs, h1, h2, h3, hpq _ _ _ h4⟩
  | option k o =>
    cases hv : vs.lines[k]? <;> simp only [RunLOp, hv] at h ⊢
    · exact hpq _ _ _ h
    · obtain ⟨f, caps, hf, h⟩ := h
      exact ⟨f, caps, hf, does_mono h fun o ⟨w', h1, h2⟩ => ⟨w', h1, hpq _ _ _ h2⟩⟩
  | hasBestEffort k =>
    cases hv : vs.lines[k]? <;> simp only [RunLOp, hv] at h ⊢
    · exact hpq _ _ _ h
    · exact does_mono h fun o ⟨b, w', h1, h2⟩ => ⟨b, w', h1, hpq _ _ _ h2⟩

theorem RunLOps.mono {X : Env0 EN} : ∀ (ops : List LOp) {vs : LVars} {w : W EN} {P Q : List LObs → LVars → W EN → Prop}, (∀ ob vs w, P ob vs w → Q ob vs w) → RunLOps X ops vs w P → RunLOps X ops vs w Q
  | [], _, _, _, _, hpq, h => hpq _ _ _ h
  | _ :: ops, _, _, _, _, hpq, h => RunLOp.mono h fun _ _ _ h' => RunLOps.mono ops (fun _ _ _ h'' => hpq _ _ _ h'') h'

/-- the messages that the program has stay where they are, it gets new ones -/
theorem RunLOp.grows {X : Env0 EN} {op : LOp} {vs : LVars} {w : W EN} {P : LObs → LVars → W EN → Prop} (h : RunLOp X op vs w P) :
    RunLOp X op vs w fun ob vs' w' => P ob vs' w' ∧ vs.base.Grows vs'.base := by
  cases op with
  | api op => exact RunOp.grows (P := fun ob vs' w' => P (.api ob) { vs with base := vs' } w') h
  | newLines opts => exact does_mono h fun o ⟨a, mi, w', h1, h2, h3⟩ => ⟨a, mi, w', h1, h2, h3, .refl _⟩
  | lines k bytes stop =>
    cases hv : vs.lines[k]? <;> simp only [RunLOp, hv] at h ⊢
    · exact ⟨h, .refl _⟩
    · exact does_mono h fun o ⟨w', outs, seen, bs, h1, h2, h3, h4⟩ => ⟨w', outs, seen, bs, h1, h2, h3, h4, ⟨[], by simp⟩, ⟨bs, rfl⟩⟩
  | option k o =>
    cases hv : vs.lines[k]? <;> simp only [RunLOp, hv] at h ⊢
    · exact ⟨h, .refl _⟩
    · obtain ⟨f, caps, hf, h⟩ := h
      exact ⟨f, caps, hf, does_mono h fun o ⟨w', h1, h2⟩ => ⟨w', h1, h2, .refl _⟩⟩
  | hasBestEffort k =>
    cases hv : vs.lines[k]? <;> simp only [RunLOp, hv] at h ⊢
    · exact ⟨h, .refl _⟩
    · exact does_mono h fun o ⟨b, w', h1, h2⟩ => ⟨b, w', h1, h2, .refl _⟩

theorem RunLOps.grows {X : Env0 EN} : ∀ (ops : List LOp) {vs : LVars} {w : W EN} {P : List LObs → LVars → W EN → Prop}, RunLOps X ops vs w P →
    RunLOps X ops vs w fun obs vs' w' => P obs vs' w' ∧ vs.base.Grows vs'.base
  | [], _, _, _, h => ⟨h, .refl _⟩
  | _ :: ops, _, _, _, h => RunLOp.mono (RunLOp.grows h) fun _ _ _ ⟨h1, h2⟩ => RunLOps.mono ops (fun _ _ _ ⟨h3, h4⟩ => ⟨h3, h2.trans h4⟩) (RunLOps.grows ops h1)

/-- on values, a message is changed by its own setters only -/
theorem LOp.run_msg {d : Driver} {j : Nat} {op : LOp} {s s' : LVals} {ob : LObs} {m : SyslogMessage} (h : op.run d s = some (ob, s')) (hn : ∀ c, op ≠ .api (.set j c)) (hm : s.base.msgs[j]? = some m) : s'.base.msgs[j]? = some m := by
  cases op with
  | api op =>
    simp only [LOp.run, Option.map_eq_some_iff, Prod.mk.injEq] at h
    obtain ⟨r, h1, -, rfl⟩ := h
    refine runOps_msg [op] (s := s.base) (obs := [r.1]) (by simp [runOps, h1]) (fun c hc => hn c ?_) hm
    rw [List.mem_singleton] at hc
    rw [← hc]
  | newLines opts =>
    obtain ⟨-, rfl⟩ : _ ∧ _ = s' := by simpa [LOp.run] using h
    exact hm
  | lines k bytes stop =>
    simp only [LOp.run] at h
    split at h
    · split at h
      · simp only [Option.some.injEq, Prod.mk.injEq] at h
        obtain ⟨-, rfl⟩ := h
        show (s.base.msgs ++ _)[j]? = _
        rw [List.getElem?_append_left (getElem?_lt hm)]
        exact hm
      · cases h
    · obtain ⟨-, rfl⟩ : _ ∧ _ = s' := by simpa using h
      exact hm
  | option k o =>
    simp only [LOp.run] at h
    split at h <;> (simp only [Option.some.injEq, Prod.mk.injEq] at h; obtain ⟨-, rfl⟩ := h; exact hm)
  | hasBestEffort k =>
    simp only [LOp.run] at h
    split at h <;> (simp only [Option.some.injEq, Prod.mk.injEq] at h; obtain ⟨-, rfl⟩ := h; exact hm)

theorem runLOps_msg {d : Driver} {j : Nat} : ∀ (ops : List LOp) {s s' : LVals} {obs : List LObs} {m : SyslogMessage}, runLOps d ops s = some (obs, s') → (∀ c, LOp.api (.set j c) ∉ ops) → s.base.msgs[j]? = some m → s'.base.msgs[j]? = some m
  | [], s, s', obs, m, h, _, hm => by
    obtain ⟨rfl, rfl⟩ : [] = obs ∧ s = s' := by simpa [runLOps] using h
    exact hm
  | op :: ops, s, s', obs, m, h, hn, hm => by
    rw [runLOps] at h
    cases h1 : op.run d s with
    | none => rw [h1] at h; cases h
    | some r =>
      obtain ⟨ob, s1⟩ := r
      rw [h1] at h
      cases h2 : runLOps d ops s1 with
      | none => simp [h2] at h
      | some r =>
        simp only [h2, Option.map_some, Option.some.injEq, Prod.mk.injEq] at h
        obtain ⟨-, h3⟩ := h
        exact runLOps_msg ops (s := s1) (obs := r.1) (by rw [h2, ← h3]) (fun c hc => hn c (by simp [hc])) (LOp.run_msg h1 (fun c hc => hn c (by simp [hc])) hm)

/-! ## What one parser's listener gets -/

/-- what the program does with the parser `k`, as in C106 -/
def LOp.own (k : Nat) : LOp → Option LAct
  | .lines k' bytes stop => if k' = k then some (.parse bytes stop) else none
  | .option k' o => if k' = k then some (.opt o) else none
  | .hasBestEffort k' => if k' = k then some .hasBestEffort else none
  | _ => none

/-- what the listener of `k` is seen to get -/
def gets (k : Nat) : List LOp → List LObs → List (Bool × Option NonTransparent.Error)
  | .lines k' _ _ :: ops, .heard rs :: obs => (if k' = k then rs else []) ++ gets k ops obs
  | _ :: ops, _ :: obs => gets k ops obs
  | _, _ => []

theorem runLOps_own {d : Driver} {k : Nat} : ∀ (ops : List LOp) {s s' : LVals} {obs : List LObs} {m : Machine} {b : Bool}, runLOps d ops s = some (obs, s') → s.lines[k]? = some (m, b) →
    ∃ rs, MiniSrc.heard d (ops.filterMap (LOp.own k)) m b = some rs ∧ gets k ops obs = rs.map fun r => (r.msg.isSome, r.err)
  | [], s, s', obs, m, b, h, hm => by
    obtain ⟨rfl, rfl⟩ : [] = obs ∧ s = s' := by simpa [runLOps] using h
    exact ⟨[], rfl, rfl⟩
  | op :: ops, s, s', obs, m, b, h, hm => by
    rw [runLOps] at h
    cases h1 : op.run d s with
    | none => rw [h1] at h; cases h
    | some r =>
      obtain ⟨ob, s1⟩ := r
      rw [h1] at h
      cases h2 : runLOps d ops s1 with
      | none => simp [h2] at h
      | some r =>
        simp only [h2, Option.map_some, Option.some.injEq, Prod.mk.injEq] at h
        obtain ⟨rfl, h3⟩ := h
        have h2' : runLOps d ops s1 = some (r.1, s') := by rw [h2, ← h3]
        cases op with
        | api op =>
          simp only [LOp.run, Option.map_eq_some_iff, Prod.mk.injEq] at h1
          obtain ⟨r1, -, rfl, rfl⟩ := h1
          exact runLOps_own ops h2' hm
        | newLines opts =>
          obtain ⟨rfl, rfl⟩ : _ = ob ∧ _ = s1 := by simpa [LOp.run] using h1
          exact runLOps_own ops h2' (by show (s.lines ++ _)[k]? = _; rw [List.getElem?_append_left (getElem?_lt hm)]; exact hm)
        | lines k' bytes stop =>
          by_cases hk : k' = k
          · subst hk
            simp only [LOp.run, hm] at h1
            split at h1
            · rename_i m' hp
              simp only [Option.some.injEq, Prod.mk.injEq] at h1
              obtain ⟨rfl, rfl⟩ := h1
              obtain ⟨rs, g1, g2⟩ := runLOps_own (k := k') ops h2' (m := m') (b := b) (by show (s.lines.set k' _)[k']? = _; rw [List.getElem?_set_self (getElem?_lt hm)])
              refine ⟨(if b then m'.out else []) ++ rs, by simp [LOp.own, MiniSrc.heard, hp, g1], ?_⟩
              simp only [gets, g2, ite_true]
              cases b <;> simp
            · cases h1
          · have hk' : LOp.own k (.lines k' bytes stop) = none := by simp [LOp.own, hk]
            rw [List.filterMap_cons, hk']
            simp only [LOp.run] at h1
            split at h1
            · split at h1
              · simp only [Option.some.injEq, Prod.mk.injEq] at h1
                obtain ⟨rfl, rfl⟩ := h1
                have := runLOps_own (k := k) ops h2' (m := m) (b := b) (by show (s.lines.set k' _)[k]? = _; rw [List.getElem?_set_ne hk]; exact hm)
                simpa [gets, hk] using this
              · cases h1
            · obtain ⟨rfl, rfl⟩ : _ = ob ∧ _ = s1 := by simpa using h1
              exact runLOps_own ops h2' hm
        | option k' o =>
          by_cases hk : k' = k
          · subst hk
            simp only [LOp.run, hm, Option.some.injEq, Prod.mk.injEq] at h1
            obtain ⟨rfl, rfl⟩ := h1
            have := runLOps_own (k := k') ops h2' (m := o.ap m) (b := o.listens b) (by show (s.lines.set k' _)[k']? = _; rw [List.getElem?_set_self (getElem?_lt hm)])
            simpa [LOp.own, MiniSrc.heard, gets] using this
          · have hk' : LOp.own k (.option k' o) = none := by simp [LOp.own, hk]
            rw [List.filterMap_cons, hk']
            simp only [LOp.run] at h1
            split at h1
            · simp only [Option.some.injEq, Prod.mk.injEq] at h1
              obtain ⟨rfl, rfl⟩ := h1
              exact runLOps_own (k := k) ops h2' (m := m) (b := b) (by show (s.lines.set k' _)[k]? = _; rw [List.getElem?_set_ne hk]; exact hm)
            · obtain ⟨rfl, rfl⟩ : _ = ob ∧ _ = s1 := by simpa using h1
              exact runLOps_own ops h2' hm
        | hasBestEffort k' =>
          have hs : s1 = s := by
            simp only [LOp.run] at h1
            split at h1 <;> (simp only [Option.some.injEq, Prod.mk.injEq] at h1; exact h1.2.symm)
          subst hs
          have := runLOps_own (k := k) ops h2' hm
          by_cases hk : k' = k
          · simpa [LOp.own, hk, MiniSrc.heard, gets] using this
          · simpa [LOp.own, hk, gets] using this

end Lns

open Lns
open MiniSrc (Holds ApiOp Vars Vals Obs Prints buildX parserX)

variable (extra : Nat → Nat) (order : List Bytes → List Bytes) (left : W EN → Go.GS Go.R5.V) (d : Driver) (w : W EN)

/-- **C112** (programs on values): any sequence of operations, streams of lines among them, from a memory that holds values in variables that share nothing: every
operation ends without a panic, the program sees what the operations on values give, and the memory holds the new values then, again in variables that share
nothing. (The streams, with the texts held back, are shorter than 2^63 bytes.) -/
theorem C112_values (ho : ∀ xs, (order xs).Perm xs) (ops : List LOp) (vs : LVars) (s : LVals) (h : LHolds w vs s) (hr : Room s (volumes ops)) (hv : volumes ops < 2 ^ 63) :
    RunLOps (lineX extra order left d) ops vs w fun obs vs' w' => ∃ s', runLOps d ops s = some (obs, s') ∧ LHolds w' vs' s' := by
  induction ops generalizing vs s w with
  | nil => exact ⟨s, rfl, h⟩
  | cons op ops ih =>
    obtain ⟨ob, s1, h1, h2, h3⟩ := lop_ok extra order ho left d op h (n := volumes ops) hr (by simp only [volumes] at hv; omega)
    refine RunLOp.mono h3 ?_
    rintro ob' vs' w' ⟨rfl, h4⟩
    refine RunLOps.mono ops ?_ (ih w' vs' s1 h4 h2 (by simp only [volumes] at hv; omega))
    rintro obs vs2 w2 ⟨s', h5, h6⟩
    exact ⟨s', by simp only [runLOps, h1, h5, Option.map_some], h6⟩

/-- **C112** (a whole program): it begins with no parsers and no messages, in any memory. -/
theorem C112_program (ho : ∀ xs, (order xs).Perm xs) (ops : List LOp) (hv : volumes ops < 2 ^ 63) (g : Globals) (hg : HasGlob w g) :
    RunLOps (lineX extra order left d) ops {} w fun obs vs' w' => ∃ s', runLOps d ops { base := { glob := g } } = some (obs, s') ∧ LHolds w' vs' s' :=
  C112_values extra order left d w ho ops {} { base := { glob := g } }
    ⟨⟨rfl, rfl, fun _ _ _ h => (by cases h), fun _ _ _ h => (by cases h), hg, fun _ _ _ _ _ h => (by cases h), fun _ _ _ _ _ h => (by cases h), fun _ _ _ _ h => (by cases h)⟩,
      rfl, fun _ _ _ h => (by cases h), fun _ _ _ _ _ h => (by cases h), fun _ h => (by cases h), fun _ h => (by cases h)⟩
    (fun _ h => by cases h) hv

/-- **C112** (a parser's own history): what the listener of one parser is seen to get, from the moment there is one, is what the specification of C73 allows for the
acts on that parser alone, whatever else the program does in between. -/
theorem C112_own (ho : ∀ xs, (order xs).Perm xs) (opts : List NOpt) (ops : List LOp) (vs : LVars) (s : LVals) (h : LHolds w vs s) (hr : Room s (volumes ops)) (hv : volumes ops < 2 ^ 63) :
    RunLOps (lineX extra order left d) (.newLines opts :: ops) vs w fun obs _ _ => ∃ reports,
      Spec.Calls (NT.loopOf d) (NT.trailerByte (opts.filterMap NOpt.model)) {} (((ops.filterMap (LOp.own s.lines.length)).filterMap MiniSrc.doOf).flatMap NT.actsOf) reports ∧
      gets s.lines.length (.newLines opts :: ops) obs = (MiniSrc.toListener (ops.filterMap (LOp.own s.lines.length)) (hasListener opts) reports).map fun r => ((NT.resultFor (NT.isBestEffort (opts.filterMap NOpt.model)) r).msg.isSome, (NT.resultFor (NT.isBestEffort (opts.filterMap NOpt.model)) r).err) := by
  have hv' : volumes (.newLines opts :: ops) = volumes ops := Nat.zero_add _
  refine RunLOps.mono (.newLines opts :: ops) ?_ (C112_values extra order left d w ho (.newLines opts :: ops) vs s h (by rw [hv']; exact hr) (by rw [hv']; exact hv))
  rintro obs vs' w' ⟨s', h1, -⟩
  simp only [runLOps, LOp.run, Option.map_eq_some_iff, Prod.mk.injEq] at h1
  obtain ⟨r, h2, rfl, h3⟩ := h1
  obtain ⟨rs, g1, g2⟩ := runLOps_own (k := s.lines.length) (m := NonTransparent.newParser (opts.filterMap NOpt.model)) (b := hasListener opts) ops h2 (by simp)
  rw [MiniSrc.heard_calls, Option.map_eq_some_iff] at g1
  obtain ⟨rss, g4, g5⟩ := g1
  obtain ⟨reports, g6, g7⟩ := (C73_every_history d _ _ _).mp g4
  refine ⟨reports, g6, ?_⟩
  show gets s.lines.length ops r.1 = _
  rw [g2, ← g5, g7, MiniSrc.toListener_map, List.map_map]
  rfl

/-- **C112** (a message is kept): a message, from a stream or not, changes only by its own setters: whatever the program does with streams, parsers and other
messages, the variable holds the same message at the end, and `String` prints the same text. -/
theorem C112_kept (ho : ∀ xs, (order xs).Perm xs) (ops : List LOp) (vs : LVars) (s : LVals) (h : LHolds w vs s) (hr : Room s (volumes ops)) (hv : volumes ops < 2 ^ 63) (j b : Nat) (m : SyslogMessage) (hb : vs.base.msgs[j]? = some b)
    (hm : s.base.msgs[j]? = some m) (hn : ∀ c, LOp.api (.set j c) ∉ ops) :
    RunLOps (lineX extra order left d) ops vs w fun _ _ w' => RepMsg w' b m ∧ Prints (lineX extra order left d) w' b m := by
  refine RunLOps.mono ops ?_ (RunLOps.grows ops (C112_values extra order left d w ho ops vs s h hr hv))
  rintro obs vs' w' ⟨⟨s', h1, h2⟩, h3⟩
  have hr := h2.base.msg j b m (h3.msg hb) (runLOps_msg ops h1 hn hm)
  exact ⟨hr, Strm.Does.env parser_below (C104_string extra order _ w' ho b m hr.msg)⟩

/-! ## Instances -/

namespace Lns

/-- nothing there yet -/
def bareLines : W EN :=
  { heap := fun _ => .nil, next := 0, glob := fun x => if x = .currentid then .str [] else if x = .currentparamname then .str [] else .nil
    ext := { stream := [], stop := .unexpectedEOF, out := [] } }

/-- the loop of ragel-machinery of these instances -/
def exLoop : Driver := ⟨false, false, false⟩

/-- A strict parser of LF lines and a best-effort one of NUL lines without a listener; the first gets two messages, the second of which it holds back until the end of the stream;
its first message is changed; the other parser gets a stream nobody listens to, then a listener, then a bad message; a line is parsed by a parser of `rfc5424`; then the messages are
printed. -/
def progL : List LOp :=
  [.newLines [.listener], .newLines [.trailer 1, .bestEffort], .lines 0 (ascii "<1>1 - h - - - [x k=\"v\"] hi\n<2>1 - - - - - -\n") .unexpectedEOF,
   .api (.set 0 (.parameter (ascii "x") (ascii "k") (ascii "new"))), .hasBestEffort 1, .lines 1 (ascii "<3>1 - - - - - -" ++ [0]) .unexpectedEOF, .option 1 .listener,
   .lines 1 (ascii "<4>1 - bad " ++ [0]) (.other 5),
   .api (.newParser []), .api (.parse 0 (ascii "<6>1 - - - - - -")), .api (.set 1 (.message (ascii "m"))),
   .api (.string 0), .api (.string 1), .api (.string 2)]

def seenL : List LObs :=
  [.nothing, .nothing, .heard [(true, none), (true, none)], .api .nothing, .flag true, .heard [], .nothing, .heard [(true, none), (true, some (.message ⟨.appname, 11⟩))],
   .api .nothing, .api (.parsed true none), .api .nothing,
   .api (.text (some (ascii "<1>1 - h - - - [x k=\"new\"] hi"))), .api (.text (some (ascii "<2>1 - - - - - - m"))), .api (.text (some (ascii "<3>1 - - - - - -")))]

end Lns

set_option maxRecDepth 100000 in
/-- what that program sees, executed -/
example : RunLOps (lineX extra List.reverse left exLoop) progL {} bareLines fun obs _ _ => obs = seenL := by
  have hrun : (runLOps exLoop progL {}).map Prod.fst = some seenL := by decide +kernel
  refine RunLOps.mono progL ?_ (C112_program extra List.reverse left exLoop bareLines (fun xs => List.reverse_perm xs) progL (by decide +kernel) {} ⟨rfl, rfl⟩)
  rintro obs vs' w' ⟨s', h1, -⟩
  rw [h1] at hrun
  exact Option.some.inj hrun

set_option maxRecDepth 100000 in
/-- a memory that holds two parsers of lines and two messages: the one after the first stream; the messages are kept when the rest of the program without the setters runs, and a third
parser of lines gets what it gets alone -/
example : RunLOps (lineX extra List.reverse left exLoop) (progL.take 3) {} bareLines fun _ vs w => ∃ s b m, LHolds w vs s ∧ s.lines.length = 2 ∧ vs.base.msgs[0]? = some b ∧ s.base.msgs[0]? = some m ∧
    m.hostname = some (ascii "h") ∧ RunLOps (lineX extra List.reverse left exLoop) (progL.drop 4) vs w (fun _ _ w' => RepMsg w' b m ∧ Prints (lineX extra List.reverse left exLoop) w' b m) ∧
    RunLOps (lineX extra List.reverse left exLoop) (.newLines [.listener] :: progL.drop 4 ++ [.lines 2 (ascii "<5>1\n") .unexpectedEOF]) vs w fun obs _ _ =>
      ∃ reports, Spec.Calls (NT.loopOf exLoop) 10 {} [.parse (ascii "<5>1\n") .unexpectedEOF] reports ∧
        gets 2 (.newLines [.listener] :: progL.drop 4 ++ [.lines 2 (ascii "<5>1\n") .unexpectedEOF]) obs = (MiniSrc.toListener [.parse (ascii "<5>1\n") .unexpectedEOF] true reports).map fun r => ((NT.resultFor false r).msg.isSome, (NT.resultFor false r).err) := by
  have hrun : (runLOps exLoop (progL.take 3) {}).map (fun r => (r.2.lines.map (·.1.candidate.length), (r.2.base.msgs[0]?).map (·.hostname))) = some ([16, 0], some (some (ascii "h"))) := by decide +kernel
  refine RunLOps.mono (progL.take 3) ?_ (C112_program extra List.reverse left exLoop bareLines (fun xs => List.reverse_perm xs) (progL.take 3) (by decide +kernel) {} ⟨rfl, rfl⟩)
  rintro obs vs' w' ⟨s', h1, h2⟩
  rw [h1] at hrun
  have hrun := Option.some.inj hrun
  simp only [Prod.mk.injEq] at hrun
  obtain ⟨h3, h4⟩ := hrun
  obtain ⟨m, hm, hh⟩ := Option.map_eq_some_iff.mp h4
  obtain ⟨b, hb⟩ := MiniSrc.getElem?_other h2.base.mlen.symm hm
  have hlen : s'.lines.length = 2 := by simpa using congrArg List.length h3
  have room : ∀ n, n < 2 ^ 62 → Room s' n := by
    intro n hn q hq
    have : q.1.candidate.length ∈ s'.lines.map (·.1.candidate.length) := List.mem_map_of_mem (f := fun q : Machine × Bool => q.1.candidate.length) hq
    rw [h3] at this
    have : q.1.candidate.length = 16 ∨ q.1.candidate.length = 0 := by simpa using this
    omega
  refine ⟨s', b, m, h2, hlen, hb, hm, hh, C112_kept extra List.reverse left exLoop w' (fun xs => List.reverse_perm xs) (progL.drop 4) vs' s' h2 (room _ (by decide +kernel)) (by decide +kernel) 0 b m hb hm ?_, ?_⟩
  · intro c hc
    simp [progL] at hc
  · have := C112_own extra List.reverse left exLoop w' (fun xs => List.reverse_perm xs) [.listener] (progL.drop 4 ++ [.lines 2 (ascii "<5>1\n") .unexpectedEOF]) vs' s' h2 (room _ (by decide +kernel)) (by decide +kernel)
    rw [hlen] at this
    exact this

end Verif.Props
