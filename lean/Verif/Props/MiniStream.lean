import Verif.Mini.OctetMem
import Verif.Mini.Mono
import Verif.Props.MiniOctetHistory
import Verif.Props.MiniParse
import Verif.Octet.Late

/-!
# Streams, parsers and messages in one program (C111)

A program makes octet-counting parsers, with or without a listener, and gives them readers and further options; the listener keeps the messages it gets. In between, and afterwards, the program uses those messages, and
parsers and messages of `rfc5424`, in any order. Everything is executed over one memory: the functions of `octetcounting`, `syslog` and the hand-written ones of
`rfc5424` statement by statement (`Verif.Gen.Mini.prog`), the generated `Parse` and `set` block by block. The theorems compare that with the same operations on values.
-/

set_option linter.constructorNameAsVariable false

namespace Verif.Props
open Verif.Mini Verif.Gen.Mini
open Verif.Builder (Globals Entry Call)
open Verif.Rfc5424 (SyslogMessage)

namespace Strm
open MiniSrc

/-! ## The environment -/

/-- `Parse` of `rfc5424/machine.go` over memory; it calls functions of its own package only -/
def memParse (extra : Nat → Nat) (order : List Bytes → List Bytes) (left : W EO → Go.GS Go.R5.V) : List Val → M EO Val :=
  parseMem (call (libX extra order fun _ _ => M.stuck) 3) left

/-- the program, with the functions of other packages that `rfc5424` and `octetcounting` use -/
def streamX (extra : Nat → Nat) (order : List Bytes → List Bytes) (left : W EO → Go.GS Go.R5.V) : Env0 EO :=
  { extra := extra, order := order, meth := meth, prog := prog
    call := fun f args => match f with
      | .bufio_NewReaderSize => xNewReaderSize args
      | .bufio_ReadByte => xReadByte args
      | .bufio_UnreadByte => xUnreadByte args
      | .bufio_Peek => xPeek args
      | .bufio_Discard => xDiscard args
      | .bytes_WriteByte => xWriteByte args
      | .bytes_String => xBuffer args
      | .bytes_Bytes => xBuffer args
      | .strconv_ParseUint => xParseUint args
      | .emit => xEmit args
      | .rfc5424_machine_Parse => memParse extra order left args
      | f => (parserX extra order left).call f args }

variable {extra : Nat → Nat} {order : List Bytes → List Bytes} {left : W EO → Go.GS Go.R5.V}

theorem stuck_le {E α : Type} (m : M E α) : Le M.stuck m := fun _ _ h => by cases h

theorem oct_below : Below (octXP extra order (memParse extra order left)) (streamX extra order left) := by
  refine ⟨rfl, rfl, rfl, rfl, fun f args => ?_⟩
  cases f
  case fmt_Errorf =>
    show Le (xErrorf args) (xError args)
    cases args with
    | nil => exact stuck_le _
    | cons v args => cases v <;> first | exact stuck_le _ | exact .refl _
  all_goals first | exact .refl _ | exact stuck_le _

theorem parser_below : Below (parserX extra order left) (streamX extra order left) := by
  refine ⟨rfl, rfl, rfl, rfl, fun f args => ?_⟩
  cases f
  case rfc5424_machine_Parse =>
    show Le (parseGo (call (libX extra order fun _ _ => M.stuck) 3) left args) (memParse extra order left args)
    intro w r h
    cases args with
    | nil => cases h
    | cons v args =>
      cases v with
      | ptr mi path =>
        cases path with
        | nil =>
          cases args with
          | nil => cases h
          | cons i args =>
            cases args with
            | nil =>
              cases i with
              | str s => exact h
              | _ => cases h
            | cons => cases i <;> cases h
        | cons => cases h
      | _ => cases h
  all_goals first | exact .refl _ | exact stuck_le _

theorem Does.env {E : Type} {X X' : Env0 E} (hX : Below X X') {f : Nm} {args : List Val} {w : W E} {P : Out E Val → Prop} (h : Does X f args w P) : Does X' f args w P := by
  obtain ⟨d, h⟩ := h
  refine ⟨d, fun n hn => ?_⟩
  obtain ⟨o, e, p⟩ := h n hn
  exact ⟨o, call_le hX n 0 f args w o e, p⟩

theorem RunOp.env {E : Type} {X X' : Env0 E} (hX : Below X X') {op : ApiOp} {vs : Vars} {w : W E} {P : Obs → Vars → W E → Prop} (h : RunOp X op vs w P) : RunOp X' op vs w P := by
  cases op with
  | newParser os => exact Does.env hX h
  | withBestEffort i =>
    cases hv : vs.parsers[i]? <;> simp only [RunOp, hv] at h ⊢
    · exact h
    · exact ⟨h.1, Does.env hX h.2⟩
  | hasBestEffort i =>
    cases hv : vs.parsers[i]? <;> simp only [RunOp, hv] at h ⊢
    · exact h
    · exact Does.env hX h
  | parse i input =>
    cases hv : vs.parsers[i]? <;> simp only [RunOp, hv] at h ⊢
    · exact h
    · exact Does.env hX h
  | newMessage => exact h
  | set j c =>
    cases hv : vs.msgs[j]? <;> simp only [RunOp, hv] at h ⊢
    · exact h
    · exact Does.env hX h
  | string j =>
    cases hv : vs.msgs[j]? <;> simp only [RunOp, hv] at h ⊢
    · exact h
    · exact Does.env hX h

/-! ## Operations on values -/

/-- what a program does; octet-counting parsers are numbered in the order in which it got them -/
inductive SOp where
  /-- an operation on parsers and messages of `rfc5424` -/
  | api (op : ApiOp)
  /-- `octetcounting.NewParser(opts...)`, `syslog.WithListener(f)` among them or not -/
  | newStream (opts : List SOpt)
  /-- `p.Parse(r)`, where `r` delivers `reads` -/
  | stream (k : Nat) (reads : List Octet.Read)
  /-- an option, applied to `p` -/
  | option (k : Nat) (o : SOpt)
  /-- `p.HasBestEffort()` -/
  | hasBestEffort (k : Nat)

/-- what it sees: of the results that the listener gets, whether there is a message, and the error -/
inductive SObs where
  | api (ob : Obs)
  | nothing
  | heard (rs : List (Bool × Option Octet.Error))
  | flag (b : Bool)
deriving DecidableEq

/-- the values of its variables; of an octet-counting parser, the options it was made with and those applied since. The messages that the listener gets are kept with the others. -/
structure SVals where
  base : Vals := {}
  streams : List (List SOpt × List SOpt) := []

/-- the results of a new parser made with the options `opts` that gets the options `late` next, and then a stream -/
def lateResults (opts late : List SOpt) (reads : List Octet.Read) : Option (List Octet.Result) :=
  (((SOpt.model late).foldl Octet.applyOpt (Octet.newParser (SOpt.model opts))).parse reads).map Prod.fst

/-- an operation on values; with a number that is not there it does nothing. Without a listener nothing is seen of a stream. -/
def SOp.run : SOp → SVals → Option (SObs × SVals)
  | .api op, s => (op.run s.base).map fun r => (.api r.1, { s with base := r.2 })
  | .newStream opts, s => some (.nothing, { s with streams := s.streams ++ [(opts, [])] })
  | .stream k reads, s => match s.streams[k]? with
    | some (opts, late) => match lateResults opts late reads with
      | some rs =>
        if SOpt.listener ∈ opts ++ late then some (.heard (rs.map fun r => (r.msg.isSome, r.err)), { s with base := { s.base with msgs := s.base.msgs ++ rs.filterMap (·.msg) } })
        else some (.heard [], s)
      | none => none
    | none => some (.nothing, s)
  | .option k o, s => match s.streams[k]? with
    | some (opts, late) => some (.nothing, { s with streams := s.streams.set k (opts, late ++ [o]) })
    | none => some (.nothing, s)
  | .hasBestEffort k, s => match s.streams[k]? with
    | some (opts, late) => some (.flag (SOpt.bestEffort ∈ opts ++ late), s)
    | none => some (.nothing, s)

/-- one after the other; `none`: a panic -/
def runSOps : List SOp → SVals → Option (List SObs × SVals)
  | [], s => some ([], s)
  | op :: ops, s => match op.run s with
    | some (ob, s') => (runSOps ops s').map fun r => (ob :: r.1, r.2)
    | none => none

/-! ## The same operations on memory -/

/-- the variables of the program: `base` as in C109, and the addresses of octet-counting parsers (with the machine of each) -/
structure SVars where
  base : Vars := {}
  streams : List (Nat × Nat) := []

/-- what the listener got, as the two fields of `syslog.Result`: the error, and nil or a pointer to a message; `bs` are the messages -/
def Heard : List (Val × Val) → List (Bool × Option Octet.Error) → List Nat → Prop
  | [], [], [] => True
  | v :: vs, (false, e) :: es, bs => v.1 = .nil ∧ ErrRep v.2 e ∧ Heard vs es bs
  | v :: vs, (true, e) :: es, b :: bs => v.1 = .ptr b [] ∧ ErrRep v.2 e ∧ Heard vs es bs
  | _, _, _ => False

/-- an operation, executed from the memory `w`; `P` describes what is seen, the variables and the memory then -/
def RunSOp (X : Env0 EO) : SOp → SVars → W EO → (SObs → SVars → W EO → Prop) → Prop
  | .api op, vs, w, P => RunOp X op vs.base w fun ob vs' w' => P (.api ob) { vs with base := vs' } w'
  | .newStream opts, vs, w, P => Does X .octetcounting_NewParser [.slice w.next 0 opts.length opts.length] (newVar w (.arr (opts.map SOpt.val))) fun o =>
    ∃ a mi w', o = .ok (.ptr a []) w' ∧ (w'.heap a).get .internal = some (.ptr mi []) ∧ P .nothing { vs with streams := vs.streams ++ [(a, mi)] } w'
  | .stream k reads, vs, w, P => match vs.streams[k]? with
    | some (a, _) => Does X .octetcounting_parser_Parse [.ptr a [], .ext (.obj 0)] (reading w reads) fun o => ∃ w' outs seen bs, o = .ok (.tuple []) w' ∧
      w'.ext.out = w.ext.out ++ outs ∧ Heard outs seen bs ∧ P (.heard seen) { vs with base := { vs.base with msgs := vs.base.msgs ++ bs } } w'
    | none => P .nothing vs w
  | .option k opt, vs, w, P => match vs.streams[k]? with
    | some (a, _) => ∃ f caps, opt.val = .clo f caps ∧ Does X f (caps ++ [.ptr a []]) w fun o => ∃ w', o = .ok (.ptr a []) w' ∧ w'.ext = w.ext ∧ P .nothing vs w'
    | none => P .nothing vs w
  | .hasBestEffort k, vs, w, P => match vs.streams[k]? with
    | some (a, _) => Does X .octetcounting_parser_HasBestEffort [.ptr a []] w fun o => ∃ b w', o = .ok (.bool b) w' ∧ w'.ext = w.ext ∧ P (.flag b) vs w'
    | none => P .nothing vs w

/-- one after the other -/
def RunSOps (X : Env0 EO) : List SOp → SVars → W EO → (List SObs → SVars → W EO → Prop) → Prop
  | [], vs, w, P => P [] vs w
  | op :: ops, vs, w, P => RunSOp X op vs w fun ob vs' w' => RunSOps X ops vs' w' fun obs vs'' w'' => P (ob :: obs) vs'' w''

/-- what the parser of the model has of its options -/
def Cfg (o : List SOpt × List SOpt) (p : Octet.Parser) : Prop := Octet.IdleB (SOpt.bestEffort ∈ o.1 ++ o.2) (SOpt.bestEffort ∈ o.1) (maximum (o.1 ++ o.2)) p

/-- The memory holds the values, in variables that share nothing. -/
structure SHolds (w : W EO) (vs : SVars) (s : SVals) : Prop where
  base : Holds w vs.base s.base
  len : vs.streams.length = s.streams.length
  stream : ∀ (k : Nat) (q : Nat × Nat) opts, vs.streams[k]? = some q → s.streams[k]? = some opts →
    ∃ p, Rep0 (SOpt.muted (opts.1 ++ opts.2) w.ext.out) w q.1 q.2 p w.ext.out ∧ Cfg opts p
  streams : ∀ (k k' : Nat) (q q' : Nat × Nat), k ≠ k' → vs.streams[k]? = some q → vs.streams[k']? = some q' → q.1 ≠ q'.1 ∧ q.1 ≠ q'.2
  parsers : ∀ q ∈ vs.streams, ∀ p ∈ vs.base.parsers, q.1 ≠ p.1 ∧ q.1 ≠ p.2 ∧ q.2 ≠ p.2
  msgs : ∀ q ∈ vs.streams, ∀ b ∈ vs.base.msgs, ¬ Reaches w b q.1 ∧ ¬ Reaches w b q.2

theorem SHolds.rep0 {w : W EO} {vs : SVars} {s : SVals} (h : SHolds w vs s) {q : Nat × Nat} (hq : q ∈ vs.streams) : ∃ L p, Rep0 L w q.1 q.2 p w.ext.out := by
  obtain ⟨k, hk⟩ := List.getElem?_of_mem hq
  obtain ⟨o, ho⟩ := getElem?_other h.len hk
  obtain ⟨p, hp, -⟩ := h.stream k q o hk ho
  exact ⟨_, p, hp⟩

theorem muted_emit (os : List SOpt) (b b' : List (Val × Val)) : octEmitVal (SOpt.muted os b) = octEmitVal (SOpt.muted os b') := by
  unfold SOpt.muted; split <;> rfl

theorem muted_out (os : List SOpt) (b : List (Val × Val)) : (SOpt.muted os b).getD b = b := by
  unfold SOpt.muted; split <;> rfl

/-- the parser is as before if its two variables are -/
theorem rep0_move {w w' : W EO} {a mi : Nat} {p : Octet.Parser} {os : List SOpt} {b out : List (Val × Val)} (h : Rep0 (SOpt.muted os b) w a mi p out) (hn : w.next ≤ w'.next) (h1 : w'.heap a = w.heap a) (h2 : w'.heap mi = w.heap mi) :
    Rep0 (SOpt.muted os w'.ext.out) w' a mi p w'.ext.out :=
  ⟨by rw [h1, muted_emit os _ b]; exact h.heap, Nat.lt_of_lt_of_le h.lt hn, Nat.lt_of_lt_of_le h.mlt hn, h.ne, by rw [h2]; exact h.mbe, by rw [h2]; exact h.mco, by rw [h2]; exact h.mty, (muted_out os _).symm⟩

/-- what is written down of the others' reports does not matter for the parser itself -/
theorem muted_any {w : W EO} {a mi : Nat} {p : Octet.Parser} {os : List SOpt} {b out : List (Val × Val)} (h : Rep0 (SOpt.muted os b) w a mi p out) :
    Rep0 (SOpt.muted os w.ext.out) w a mi p w.ext.out :=
  rep0_move h (Nat.le_refl _) rfl rfl

section
variable {E : Type}

/-- the values are as before if the variables are -/
theorem Holds.same {w w' : W E} {vs : Vars} {s : Vals} (h : Holds w vs s) (hn : w.next ≤ w'.next) (hg : w'.glob = w.glob)
    (hp : ∀ p ∈ vs.parsers, w'.heap p.1 = w.heap p.1 ∧ w'.heap p.2 = w.heap p.2) (hm : ∀ b ∈ vs.msgs, ∀ x, Reaches w b x → w'.heap x = w.heap x) : Holds w' vs s := by
  have hre : ∀ b ∈ vs.msgs, ∀ x, Reaches w' b x → Reaches w b x := fun b hb x hx => by
    obtain ⟨m, hr⟩ := h.rep hb
    exact hr.reaches_congr (fun y _ hy => hm b hb y hy) hx
  refine ⟨h.plen, h.mlen, ?_, ?_, ?_, h.parsers, ?_, ?_⟩
  · intro i p o h1 h2
    have := hp p (List.mem_of_getElem? h1)
    exact live_keeps (h.parser i p o h1 h2) hn this.1 this.2
  · intro j b m h1 h2
    exact (h.msg j b m h1 h2).congr hn fun x _ hx => hm b (List.mem_of_getElem? h1) x hx
  · rw [HasGlob, hg]; exact h.glob
  · intro j j' b b' hne h1 h2 x hx hx'
    exact h.msgs j j' b b' hne h1 h2 x (hre b (List.mem_of_getElem? h1) x hx) (hre b' (List.mem_of_getElem? h2) x hx')
  · intro i j p b h1 h2
    have := h.apart i j p b h1 h2
    exact ⟨fun hx => this.1 (hre b (List.mem_of_getElem? h2) _ hx), fun hx => this.2 (hre b (List.mem_of_getElem? h2) _ hx)⟩

/-- one message more -/
theorem Holds.addMsg {w : W E} {vs : Vars} {s : Vals} (h : Holds w vs s) {b : Nat} {m : SyslogMessage} (hr : RepMsg w b m) (h1 : ∀ b' ∈ vs.msgs, ∀ x, Reaches w b' x → ¬ Reaches w b x)
    (h2 : ∀ p ∈ vs.parsers, ¬ Reaches w b p.1 ∧ ¬ Reaches w b p.2) : Holds w { vs with msgs := vs.msgs ++ [b] } { s with msgs := s.msgs ++ [m] } := by
  refine ⟨h.plen, by simp [h.mlen], h.parser, ?_, h.glob, h.parsers, ?_, ?_⟩
  · intro j b' m' hb hm
    rcases getElem?_snoc hb with hb | ⟨hj, rfl⟩
    · rcases getElem?_snoc hm with hm | ⟨hj, rfl⟩
      · exact h.msg j b' m' hb hm
      · have := getElem?_lt hb; have := h.mlen; omega
    · rcases getElem?_snoc hm with hm | ⟨_, rfl⟩
      · have := getElem?_lt hm; have := h.mlen; omega
      · exact hr
  · intro j j' b1 b2 hne hb1 hb2 x hx1 hx2
    rcases getElem?_snoc hb1 with k1 | ⟨hj1, rfl⟩
    · rcases getElem?_snoc hb2 with k2 | ⟨hj2, rfl⟩
      · exact h.msgs j j' b1 b2 hne k1 k2 x hx1 hx2
      · exact h1 b1 (List.mem_of_getElem? k1) x hx1 hx2
    · rcases getElem?_snoc hb2 with k2 | ⟨hj2, rfl⟩
      · exact h1 b2 (List.mem_of_getElem? k2) x hx2 hx1
      · omega
  · intro i j p b' hp hb
    rcases getElem?_snoc hb with hb | ⟨_, rfl⟩
    · exact h.apart i j p b' hp hb
    · exact h2 p (List.mem_of_getElem? hp)

end

/-- the messages of a stream, one after the other -/
theorem Holds.addAll {w : W EO} {hi : Nat} : ∀ {outs : List (Val × Val)} {rs : List Octet.Result} {lo : Nat} {vs : Vars} {s : Vals}, OutRepP MemRel lo hi w outs rs → Holds w vs s →
    (∀ b ∈ vs.msgs, ∀ x, Reaches w b x → x < lo) → (∀ p ∈ vs.parsers, p.1 < lo ∧ p.2 < lo) →
    ∃ bs, Heard outs (rs.map fun r => (r.msg.isSome, r.err)) bs ∧ (∀ b ∈ bs, ∀ x, Reaches w b x → lo ≤ x) ∧
      Holds w { vs with msgs := vs.msgs ++ bs } { s with msgs := s.msgs ++ rs.filterMap (·.msg) }
  | [], [], lo, vs, s, _, h, _, _ => ⟨[], trivial, (fun _ hb => by cases hb), by simpa using h⟩
  | [], _ :: _, _, _, _, ho, _, _, _ => ho.elim
  | _ :: _, [], _, _, _, ho, _, _, _ => ho.elim
  | v :: outs, ⟨none, e⟩ :: rs, lo, vs, s, ⟨mid, ho, ho'⟩, h, hm, hp => by
    obtain ⟨bs, h1, h2, h3⟩ := Holds.addAll ho' h (fun b hb x hx => Nat.lt_of_lt_of_le (hm b hb x hx) ho.1) fun p h' => ⟨Nat.lt_of_lt_of_le (hp p h').1 ho.1, Nat.lt_of_lt_of_le (hp p h').2 ho.1⟩
    exact ⟨bs, ⟨ho.2.1, ho.2.2, h1⟩, fun b hb x hx => Nat.le_trans ho.1 (h2 b hb x hx), h3⟩
  | v :: outs, ⟨some m, e⟩ :: rs, lo, vs, s, ⟨mid, ho, ho'⟩, h, hm, hp => by
    obtain ⟨b, hb, hr, hx⟩ := ho.2.1
    have h' := Holds.addMsg h hr (fun b' hb' x hx1 hx2 => by have := hm b' hb' x hx1; have := (hx x hx2).1; omega)
      fun p hp' => ⟨fun hc => by have := (hp p hp').1; have := (hx _ hc).1; omega, fun hc => by have := (hp p hp').2; have := (hx _ hc).1; omega⟩
    obtain ⟨bs, h1, h2, h3⟩ := Holds.addAll ho' h' (fun b' hb' x hx' => by
      rcases List.mem_append.mp hb' with hb' | hb'
      · exact Nat.lt_of_lt_of_le (hm b' hb' x hx') ho.1
      · obtain rfl : b' = b := by simpa using hb'
        exact (hx x hx').2) fun p h' => ⟨Nat.lt_of_lt_of_le (hp p h').1 ho.1, Nat.lt_of_lt_of_le (hp p h').2 ho.1⟩
    refine ⟨b :: bs, ⟨hb, ho.2.2, h1⟩, fun b' hb' x hx' => ?_, by simpa using h3⟩
    rcases List.mem_cons.mp hb' with rfl | hb'
    · exact (hx x hx').1
    · exact Nat.le_trans ho.1 (h2 b' hb' x hx')

/-! ## Each operation -/

theorem SHolds.lt {w : W EO} {vs : SVars} {s : SVals} (h : SHolds w vs s) {q : Nat × Nat} (hq : q ∈ vs.streams) : q.1 < w.next ∧ q.2 < w.next ∧ q.2 ≠ q.1 := by
  obtain ⟨_, p, hp⟩ := SHolds.rep0 h hq
  exact ⟨hp.lt, hp.mlt, hp.ne⟩

theorem parsers_lt {E : Type} {w : W E} {vs : Vars} {s : Vals} (h : Holds w vs s) {p : Nat × Nat} (hp : p ∈ vs.parsers) : p.1 < w.next ∧ p.2 < w.next := by
  obtain ⟨i, hi⟩ := List.getElem?_of_mem hp
  obtain ⟨o, ho⟩ := getElem?_other h.plen hi
  exact ⟨(h.parser i p o hi ho).lt, (h.parser i p o hi ho).mlt⟩

/-- an operation on parsers and messages of `rfc5424` leaves the octet-counting parsers alone -/
theorem SHolds.api {w w' : W EO} {vs : SVars} {s : SVals} (h : SHolds w vs s) {b : Vars} {sb : Vals} (hb : Holds w' b sb) (hf : Frm w w' vs.base b) : SHolds w' { vs with base := b } { s with base := sb } := by
  have hsame : ∀ q ∈ vs.streams, w'.heap q.1 = w.heap q.1 ∧ w'.heap q.2 = w.heap q.2 := by
    intro q hq
    have hl := SHolds.lt h hq
    exact ⟨hf.same _ hl.1 (fun p hp => (h.parsers q hq p hp).2.1) fun c hc => (h.msgs q hq c hc).1, hf.same _ hl.2.1 (fun p hp => (h.parsers q hq p hp).2.2) fun c hc => (h.msgs q hq c hc).2⟩
  refine ⟨hb, h.len, ?_, h.streams, ?_, ?_⟩
  · intro k q opts h1 h2
    obtain ⟨p, hp, hi⟩ := h.stream k q opts h1 h2
    have hs := hsame q (List.mem_of_getElem? h1)
    exact ⟨p, rep0_move hp hf.next hs.1 hs.2, hi⟩
  · intro q hq p hp
    have hl := SHolds.lt h hq
    rcases hf.parsers p hp with hp | hp
    · exact h.parsers q hq p hp
    · exact ⟨by omega, by omega, by omega⟩
  · intro q hq c hc
    have hl := SHolds.lt h hq
    refine ⟨fun hr => ?_, fun hr => ?_⟩
    · obtain ⟨c0, h0, hr0⟩ := hf.reach c hc _ hl.1 hr
      exact (h.msgs q hq c0 h0).1 hr0
    · obtain ⟨c0, h0, hr0⟩ := hf.reach c hc _ hl.2.1 hr
      exact (h.msgs q hq c0 h0).2 hr0

/-- a new octet-counting parser, in new variables -/
theorem SHolds.newStream {w w' : W EO} {vs : SVars} {s : SVals} (h : SHolds w vs s) (hk : Keeps w w') {a mi : Nat} {p : Octet.Parser} {opts : List SOpt} (hp : Rep0 (SOpt.muted opts w'.ext.out) w' a mi p w'.ext.out)
    (hi : Cfg (opts, []) p) (ha : w.next ≤ a) (hm : w.next ≤ mi) :
    SHolds w' { vs with streams := vs.streams ++ [(a, mi)] } { s with streams := s.streams ++ [(opts, [])] } := by
  have h' := SHolds.api h (h.base.keeps hk) (.keeps h.base hk)
  refine ⟨h'.base, by simp [h.len], ?_, ?_, ?_, ?_⟩
  · intro k q o h1 h2
    rcases getElem?_snoc h1 with h1 | ⟨hk1, rfl⟩
    · rcases getElem?_snoc h2 with h2 | ⟨hk2, rfl⟩
      · exact h'.stream k q o h1 h2
      · have := getElem?_lt h1; have := h.len; omega
    · rcases getElem?_snoc h2 with h2 | ⟨hk2, rfl⟩
      · have := getElem?_lt h2; have := h.len; omega
      · exact ⟨p, by show Rep0 (SOpt.muted (opts ++ []) _) _ _ _ _ _; rw [List.append_nil]; exact hp, hi⟩
  · intro k k' q q' hne h1 h2
    rcases getElem?_snoc h1 with k1 | ⟨hk1, rfl⟩
    · rcases getElem?_snoc h2 with k2 | ⟨hk2, rfl⟩
      · exact h'.streams k k' q q' hne k1 k2
      · have := SHolds.lt h (List.mem_of_getElem? k1)
        exact ⟨by show q.1 ≠ a; omega, by show q.1 ≠ mi; omega⟩
    · rcases getElem?_snoc h2 with k2 | ⟨hk2, rfl⟩
      · have := SHolds.lt h (List.mem_of_getElem? k2)
        exact ⟨by show a ≠ q'.1; omega, by show a ≠ q'.2; omega⟩
      · omega
  · intro q hq c hc
    rcases List.mem_append.mp hq with hq | hq
    · exact h'.parsers q hq c hc
    · obtain rfl : q = (a, mi) := by simpa using hq
      have := parsers_lt h.base hc
      exact ⟨by show a ≠ c.1; omega, by show a ≠ c.2; omega, by show mi ≠ c.2; omega⟩
  · intro q hq c hc
    rcases List.mem_append.mp hq with hq | hq
    · exact h'.msgs q hq c hc
    · obtain rfl : q = (a, mi) := by simpa using hq
      obtain ⟨m, hr⟩ := h.base.rep hc
      have hlt : ∀ x, Reaches w' c x → x < w.next := fun x hx => hr.reaches_lt (hr.reaches_congr (fun y hy _ => hk.1 y hy) hx)
      exact ⟨fun hx => by have := hlt _ hx; simp only at this; omega, fun hx => by have := hlt _ hx; simp only at this; omega⟩

theorem set_same {α : Type} {l : List α} {k : Nat} {x : α} (h : l[k]? = some x) : l.set k x = l := by
  refine List.ext_getElem? fun i => ?_
  rw [List.getElem?_set]
  split
  · rename_i e; subst e; rw [if_pos (getElem?_lt h), h]
  · rfl

/-- one of the octet-counting parsers changes, there may be new messages -/
theorem SHolds.heard {w w' : W EO} {vs : SVars} {s : SVals} (h : SHolds w vs s) {k : Nat} {q : Nat × Nat} (hq : vs.streams[k]? = some q) {o' : List SOpt × List SOpt} (ho : k < s.streams.length)
    (hs : ∀ c, c < w.next → c ≠ q.1 → w'.heap c = w.heap c) (hn : w.next ≤ w'.next) (hg : w'.glob = w.glob) {p : Octet.Parser} (hp : Rep0 (SOpt.muted (o'.1 ++ o'.2) w'.ext.out) w' q.1 q.2 p w'.ext.out) (hi : Cfg o' p)
    {outs : List (Val × Val)} {rs : List Octet.Result} (hout : OutRepP MemRel w.next w'.next w' outs rs) :
    ∃ bs, Heard outs (rs.map fun r => (r.msg.isSome, r.err)) bs ∧
      SHolds w' { vs with base := { vs.base with msgs := vs.base.msgs ++ bs } } { s with base := { s.base with msgs := s.base.msgs ++ rs.filterMap (·.msg) }, streams := s.streams.set k o' } := by
  have hqm := List.mem_of_getElem? hq
  have hmsame : ∀ b ∈ vs.base.msgs, ∀ x, Reaches w b x → w'.heap x = w.heap x := by
    intro b hb x hx
    obtain ⟨m, hr⟩ := h.base.rep hb
    exact hs x (hr.reaches_lt hx) fun e => (h.msgs q hqm b hb).1 (e ▸ hx)
  have hb := Holds.same h.base hn hg (fun c hc => by
    have hl := parsers_lt h.base hc
    have hne := h.parsers q hqm c hc
    exact ⟨hs _ hl.1 (Ne.symm hne.1), hs _ hl.2 (Ne.symm hne.2.1)⟩) hmsame
  have hre : ∀ b ∈ vs.base.msgs, ∀ x, Reaches w' b x → Reaches w b x := fun b hb x hx => by
    obtain ⟨m, hr⟩ := h.base.rep hb
    exact hr.reaches_congr (fun y _ hy => hmsame b hb y hy) hx
  obtain ⟨bs, h1, h2, h3⟩ := Holds.addAll hout hb (fun b hb x hx => by
    obtain ⟨m, hr⟩ := h.base.rep hb
    exact hr.reaches_lt (hre b hb x hx)) fun c hc => parsers_lt h.base hc
  refine ⟨bs, h1, h3, by simp [h.len], ?_, h.streams, h.parsers, ?_⟩
  · intro k' q' o2 g1 g2
    simp only [List.getElem?_set] at g2
    by_cases hk : k = k'
    · subst hk
      obtain rfl : q = q' := by rw [hq] at g1; exact Option.some.inj g1
      rw [if_pos rfl, if_pos ho] at g2
      obtain rfl : o' = o2 := Option.some.inj g2
      exact ⟨p, hp, hi⟩
    · rw [if_neg hk] at g2
      obtain ⟨p', hp', hi'⟩ := h.stream k' q' o2 g1 g2
      have hne := h.streams k k' q q' hk hq g1
      exact ⟨p', rep0_move hp' hn (hs _ hp'.lt (Ne.symm hne.1)) (hs _ hp'.mlt (Ne.symm hne.2)), hi'⟩
  · intro q' hq' c hc
    have hl := SHolds.lt h hq'
    rcases List.mem_append.mp hc with hc | hc
    · have := h.msgs q' hq' c hc
      exact ⟨fun hx => this.1 (hre c hc _ hx), fun hx => this.2 (hre c hc _ hx)⟩
    · exact ⟨fun hx => by have := h2 c hc _ hx; omega, fun hx => by have := h2 c hc _ hx; omega⟩

theorem model_fold (os : List SOpt) (p : Octet.Parser) : (SOpt.model os).foldl Octet.applyOpt p = os.foldl SOpt.ap p := by
  induction os generalizing p with
  | nil => rfl
  | cons o os ih => cases o <;> exact ih _

theorem fold_config (opts late : List SOpt) : Cfg (opts, late) (late.foldl SOpt.ap (Octet.newParser (SOpt.model opts))) := by
  have h : ∀ (late done : List SOpt) (p : Octet.Parser), Cfg (opts, done) p → Cfg (opts, done ++ late) (late.foldl SOpt.ap p) := by
    intro late
    induction late with
    | nil => intro done p hp; rw [List.append_nil]; exact hp
    | cons o late ih =>
      intro done p hp
      have := ih (done ++ [o]) (o.ap p) (by
        have := ap_config o hp
        unfold Cfg
        rw [← List.append_assoc]
        exact this)
      rw [List.append_assoc] at this
      exact this
  exact h late [] _ (by have := new_config opts; unfold Cfg; simpa using this)

theorem lateResults_cap (opts late : List SOpt) (reads : List Octet.Read) :
    lateResults opts late reads = some (Octet.pruncL (SOpt.bestEffort ∈ opts ++ late) (SOpt.bestEffort ∈ opts) (maximum (opts ++ late)) (Octet.bufSize (maximum (opts ++ late))) (Octet.delivered reads)).1 := by
  obtain ⟨p', h, -⟩ := Octet.parse_idle_capL (fold_config opts late) reads
  rw [lateResults, model_fold, h]
  rfl

/-- an operation -/
theorem sop_ok (extra : Nat → Nat) (order : List Bytes → List Bytes) (ho : ∀ xs, (order xs).Perm xs) (left : W EO → Go.GS Go.R5.V) (op : SOp) {w : W EO} {vs : SVars} {s : SVals} (h : SHolds w vs s) :
    ∃ ob s', op.run s = some (ob, s') ∧ RunSOp (streamX extra order left) op vs w fun ob' vs' w' => ob' = ob ∧ SHolds w' vs' s' := by
  cases op with
  | api op =>
    obtain ⟨ob, s1, h1, h2⟩ := op_ok extra order ho left op h.base
    refine ⟨.api ob, { s with base := s1 }, by simp [SOp.run, h1], ?_⟩
    refine RunOp.mono (RunOp.env parser_below h2) ?_
    rintro ob' vs' w' ⟨rfl, h3, h4⟩
    exact ⟨rfl, SHolds.api h h3 h4⟩
  | newStream opts =>
    refine ⟨_, _, rfl, does 5 fun n => ?_⟩
    have hs : IsSlice (newVar w (.arr (opts.map SOpt.val))) (.slice w.next 0 opts.length opts.length) (opts.map SOpt.val) :=
      Or.inr ⟨w.next, 0, _, _, opts.map SOpt.val, rfl, newVar_same w _, Nat.lt_succ_self _, by simp, Nat.le_refl _, by rw [List.drop_zero, List.take_of_length_le (by simp)]⟩
    obtain ⟨w', e, ⟨mi, hmi, R⟩, hx, hk⟩ := newParser_call (extra := extra) (order := order) n hs
    obtain ⟨last, sv, g1, -⟩ := R.heap
    refine ⟨_, call_le oct_below (n + 5) 0 _ _ _ _ e, _, mi, w', rfl, by rw [g1]; rfl, rfl, ?_⟩
    have hk' := (newVar_keeps w (.arr (opts.map SOpt.val))).trans hk
    have hn1 : (newVar w (.arr (opts.map SOpt.val))).next = w.next + 1 := rfl
    exact SHolds.newStream h hk' (by rw [hx]; exact R) (fold_config opts []) (by omega) (by omega)
  | stream k reads =>
    cases hq : vs.streams[k]? with
    | none => simp only [SOp.run, RunSOp, hq, getElem?_none h.len hq]; exact ⟨_, _, rfl, rfl, h⟩
    | some q =>
      obtain ⟨⟨opts, late⟩, hso⟩ := getElem?_other h.len hq
      have er := lateResults_cap opts late reads
      simp only [SOp.run, RunSOp, hq, hso, er]
      obtain ⟨p, R, hi⟩ := h.stream k q _ hq hso
      obtain ⟨p', e, hi'⟩ := Octet.parse_idle_capL hi reads
      by_cases hl : SOpt.listener ∈ opts ++ late
      · rw [if_pos hl]
        refine ⟨_, _, rfl, does 7 fun n => ?_⟩
        obtain ⟨w', outs, e1, v1, R1, S1⟩ := parse_call (extra := extra) (order := order) (parseMem_ok (packageOk (X := libX extra order fun _ _ => M.stuck) rfl 0) left) n (w := reading w reads) e (rep_reading R reads) Guard.plain trivial
        have hout : w'.ext.out = w.ext.out ++ outs := by rw [R1.out]; simp [SOpt.muted, (SOpt.hears_iff _).mpr hl]
        obtain ⟨bs, g1, g2⟩ := SHolds.heard h hq (getElem?_lt hso) S1.1 S1.2.1 S1.2.2.1 (muted_any R1.idle) hi' v1
        rw [set_same hso] at g2
        exact ⟨_, call_le oct_below (n + 7) 0 _ _ _ _ e1, w', outs, _, bs, rfl, hout, g1, rfl, g2⟩
      · rw [if_neg hl]
        refine ⟨_, _, rfl, does 7 fun n => ?_⟩
        obtain ⟨w', outs, e1, v1, R1, S1⟩ := parse_call (extra := extra) (order := order) (parseMem_ok (packageOk (X := libX extra order fun _ _ => M.stuck) rfl 0) left) n (w := reading w reads) e (rep_reading R reads) Guard.plain trivial
        have hh : SOpt.hears (opts ++ late) = false := by
          cases hx : SOpt.hears (opts ++ late) with
          | true => exact absurd ((SOpt.hears_iff _).mp hx) hl
          | false => rfl
        have hout : w'.ext.out = w.ext.out := by rw [R1.out]; simp [SOpt.muted, hh]
        obtain ⟨bs, g1, g2⟩ := SHolds.heard h hq (getElem?_lt hso) S1.1 S1.2.1 S1.2.2.1 (muted_any R1.idle) hi' (outs := []) (rs := []) S1.2.1
        rw [set_same hso] at g2
        have hbs : bs = [] := by cases bs with | nil => rfl | cons => exact g1.elim
        subst hbs
        exact ⟨_, call_le oct_below (n + 7) 0 _ _ _ _ e1, w', [], [], [], rfl, by simpa using hout, trivial, rfl, by simpa using g2⟩
  | option k o =>
    cases hq : vs.streams[k]? with
    | none => simp only [SOp.run, RunSOp, hq, getElem?_none h.len hq]; exact ⟨_, _, rfl, rfl, h⟩
    | some q =>
      obtain ⟨⟨opts, late⟩, hso⟩ := getElem?_other h.len hq
      simp only [SOp.run, RunSOp, hq, hso]
      obtain ⟨p, R, hi⟩ := h.stream k q _ hq hso
      obtain ⟨f, caps, hc⟩ := o.val_clo
      obtain ⟨last, sv, h1, h2⟩ := R.heap
      refine ⟨_, _, rfl, f, caps, hc, does 2 fun n => ?_⟩
      obtain ⟨w', hw'⟩ : ∃ w' : W EO, w' = { w with heap := upd w.heap q.1 (parserVal0 (.ptr q.2 []) sv last (o.em (octEmitVal (SOpt.muted (opts ++ late) w.ext.out))) (o.ap p)) } := ⟨_, rfl⟩
      have e := sopt_call (extra := extra) (order := order) (other := octCallE (memParse extra order left) xEmit) n h1 o hc
      rw [← hw'] at e
      have hext : w'.ext = w.ext := by rw [hw']
      have hne := R.ne
      have hmi : w'.heap q.2 = w.heap q.2 := by rw [hw']; simp [upd_apply, hne]
      have R' : Rep0 (SOpt.muted (opts ++ (late ++ [o])) w'.ext.out) w' q.1 q.2 (o.ap p) w'.ext.out := by
        refine ⟨⟨last, sv, ?_, ?_⟩, ?_, ?_, hne, ?_, ?_, ?_, ?_⟩
        · rw [hext, ← List.append_assoc, ← em_muted, hw']; simp
        · cases o <;> exact h2
        · rw [hw']; exact R.lt
        · rw [hw']; exact R.mlt
        · rw [hmi]; cases o <;> exact R.mbe
        · rw [hmi]; cases o <;> exact R.mco
        · rw [hmi]; exact R.mty
        · exact (muted_getD _ _).symm
      have hi' : Cfg (opts, late ++ [o]) (o.ap p) := by
        have := ap_config o hi
        unfold Cfg
        rw [← List.append_assoc]
        exact this
      obtain ⟨bs, g1, g2⟩ := SHolds.heard h hq (o' := (opts, late ++ [o])) (getElem?_lt hso) (fun c _ hc => by rw [hw']; simp [upd_apply, hc]) (by rw [hw']; exact Nat.le_refl _) (by rw [hw']) R' hi' (outs := []) (rs := [])
        (by rw [hw']; exact Nat.le_refl _)
      have hbs : bs = [] := by cases bs with | nil => rfl | cons => exact g1.elim
      subst hbs
      exact ⟨_, call_le oct_below (n + 2) 0 _ _ _ _ e, w', rfl, hext, rfl, by simpa using g2⟩
  | hasBestEffort k =>
    cases hq : vs.streams[k]? with
    | none => simp only [SOp.run, RunSOp, hq, getElem?_none h.len hq]; exact ⟨_, _, rfl, rfl, h⟩
    | some q =>
      obtain ⟨⟨opts, late⟩, hso⟩ := getElem?_other h.len hq
      simp only [SOp.run, RunSOp, hq, hso]
      obtain ⟨p, R, hi⟩ := h.stream k q _ hq hso
      refine ⟨_, _, rfl, does 1 fun n => ?_⟩
      have e : call (octXP extra order (memParse extra order left)) (n + 1) .octetcounting_parser_HasBestEffort [.ptr q.1 []] w = some (.ok (.bool (SOpt.bestEffort ∈ opts ++ late)) w) := by
        obtain ⟨last, sv, h1, _⟩ := R.heap
        rw [call_fn (oct_prog _ _ _ _) prog_octetcounting_parser_HasBestEffort]
        simp only [parserVal0] at h1
        have hgo : p.bestEffort = decide (SOpt.bestEffort ∈ opts ++ late) := hi.hgo
        simp [octetcounting_parser_HasBestEffort, h1, hgo]
      exact ⟨_, call_le oct_below (n + 1) 0 _ _ _ _ e, _, w, rfl, rfl, rfl, h⟩

theorem RunSOp.mono {X : Env0 EO} {op : SOp} {vs : SVars} {w : W EO} {P Q : SObs → SVars → W EO → Prop} (h : RunSOp X op vs w P) (hpq : ∀ ob vs w, P ob vs w → Q ob vs w) : RunSOp X op vs w Q := by
  cases op with
  | api op => exact RunOp.mono (P := fun ob vs' w' => P (.api ob) { vs with base := vs' } w') h fun _ _ _ h' => hpq _ _ _ h'
  | newStream opts => exact does_mono h fun o ⟨a, mi, w', h1, h2, h3⟩ => ⟨a, mi, w', h1, h2, hpq _ _ _ h3⟩
  | stream k reads =>
    cases hv : vs.streams[k]? <;> simp only [RunSOp, hv] at h ⊢
    · exact hpq _ _ _ h
    · exact does_mono h fun o ⟨w', outs, seen, bs, h1, h2, h3, h4⟩ => ⟨w', outs, seen, bs, h1, h2, h3, hpq _ _ _ h4⟩
  | option k opt =>
    cases hv : vs.streams[k]? <;> simp only [RunSOp, hv] at h ⊢
    · exact hpq _ _ _ h
    · obtain ⟨f, caps, hc, h⟩ := h
      exact ⟨f, caps, hc, does_mono h fun o ⟨w', h1, h2, h3⟩ => ⟨w', h1, h2, hpq _ _ _ h3⟩⟩
  | hasBestEffort k =>
    cases hv : vs.streams[k]? <;> simp only [RunSOp, hv] at h ⊢
    · exact hpq _ _ _ h
    · exact does_mono h fun o ⟨b, w', h1, h2, h3⟩ => ⟨b, w', h1, h2, hpq _ _ _ h3⟩

theorem RunSOps.mono {X : Env0 EO} : ∀ (ops : List SOp) {vs : SVars} {w : W EO} {P Q : List SObs → SVars → W EO → Prop}, (∀ ob vs w, P ob vs w → Q ob vs w) → RunSOps X ops vs w P → RunSOps X ops vs w Q
  | [], _, _, _, _, hpq, h => hpq _ _ _ h
  | _ :: ops, _, _, _, _, hpq, h => RunSOp.mono h fun _ _ _ h' => RunSOps.mono ops (fun _ _ _ h'' => hpq _ _ _ h'') h'

/-- the messages that the program has stay where they are, it gets new ones -/
theorem RunSOp.grows {X : Env0 EO} {op : SOp} {vs : SVars} {w : W EO} {P : SObs → SVars → W EO → Prop} (h : RunSOp X op vs w P) :
    RunSOp X op vs w fun ob vs' w' => P ob vs' w' ∧ vs.base.Grows vs'.base := by
  cases op with
  | api op => exact RunOp.grows (P := fun ob vs' w' => P (.api ob) { vs with base := vs' } w') h
  | newStream opts => exact does_mono h fun o ⟨a, mi, w', h1, h2, h3⟩ => ⟨a, mi, w', h1, h2, h3, .refl _⟩
  | stream k reads =>
    cases hv : vs.streams[k]? <;> simp only [RunSOp, hv] at h ⊢
    · exact ⟨h, .refl _⟩
    · exact does_mono h fun o ⟨w', outs, seen, bs, h1, h2, h3, h4⟩ => ⟨w', outs, seen, bs, h1, h2, h3, h4, ⟨[], by simp⟩, ⟨bs, rfl⟩⟩
  | option k opt =>
    cases hv : vs.streams[k]? <;> simp only [RunSOp, hv] at h ⊢
    · exact ⟨h, .refl _⟩
    · obtain ⟨f, caps, hc, h⟩ := h
      exact ⟨f, caps, hc, does_mono h fun o ⟨w', h1, h2, h3⟩ => ⟨w', h1, h2, h3, .refl _⟩⟩
  | hasBestEffort k =>
    cases hv : vs.streams[k]? <;> simp only [RunSOp, hv] at h ⊢
    · exact ⟨h, .refl _⟩
    · exact does_mono h fun o ⟨b, w', h1, h2, h3⟩ => ⟨b, w', h1, h2, h3, .refl _⟩

theorem RunSOps.grows {X : Env0 EO} : ∀ (ops : List SOp) {vs : SVars} {w : W EO} {P : List SObs → SVars → W EO → Prop}, RunSOps X ops vs w P →
    RunSOps X ops vs w fun obs vs' w' => P obs vs' w' ∧ vs.base.Grows vs'.base
  | [], _, _, _, h => ⟨h, .refl _⟩
  | _ :: ops, _, _, _, h => RunSOp.mono (RunSOp.grows h) fun _ _ _ ⟨h1, h2⟩ => RunSOps.mono ops (fun _ _ _ ⟨h3, h4⟩ => ⟨h3, h2.trans h4⟩) (RunSOps.grows ops h1)

/-- on values, a message is changed by its own setters only -/
theorem SOp.run_msg {j : Nat} {op : SOp} {s s' : SVals} {ob : SObs} {m : SyslogMessage} (h : op.run s = some (ob, s')) (hn : ∀ c, op ≠ .api (.set j c)) (hm : s.base.msgs[j]? = some m) : s'.base.msgs[j]? = some m := by
  cases op with
  | api op =>
    simp only [SOp.run, Option.map_eq_some_iff, Prod.mk.injEq] at h
    obtain ⟨r, h1, -, rfl⟩ := h
    refine runOps_msg [op] (s := s.base) (obs := [r.1]) (by simp [runOps, h1]) (fun c hc => hn c ?_) hm
    rw [List.mem_singleton] at hc
    rw [← hc]
  | newStream opts =>
    obtain ⟨-, rfl⟩ : _ ∧ _ = s' := by simpa [SOp.run] using h
    exact hm
  | stream k reads =>
    simp only [SOp.run] at h
    split at h
    · split at h
      · split at h
        · obtain ⟨-, rfl⟩ : _ ∧ _ = s' := by simpa using h
          show (s.base.msgs ++ _)[j]? = _
          rw [List.getElem?_append_left (getElem?_lt hm)]
          exact hm
        · obtain ⟨-, rfl⟩ : _ ∧ _ = s' := by simpa using h
          exact hm
      · cases h
    · obtain ⟨-, rfl⟩ : _ ∧ _ = s' := by simpa using h
      exact hm
  | option k o =>
    simp only [SOp.run] at h
    split at h
    all_goals
      obtain ⟨-, rfl⟩ : _ ∧ _ = s' := by simpa using h
      exact hm
  | hasBestEffort k =>
    simp only [SOp.run] at h
    split at h
    all_goals
      obtain ⟨-, rfl⟩ : _ ∧ _ = s' := by simpa using h
      exact hm

theorem runSOps_msg {j : Nat} : ∀ (ops : List SOp) {s s' : SVals} {obs : List SObs} {m : SyslogMessage}, runSOps ops s = some (obs, s') → (∀ c, SOp.api (.set j c) ∉ ops) → s.base.msgs[j]? = some m → s'.base.msgs[j]? = some m
  | [], s, s', obs, m, h, _, hm => by
    obtain ⟨rfl, rfl⟩ : [] = obs ∧ s = s' := by simpa [runSOps] using h
    exact hm
  | op :: ops, s, s', obs, m, h, hn, hm => by
    rw [runSOps] at h
    cases h1 : op.run s with
    | none => rw [h1] at h; cases h
    | some r =>
      obtain ⟨ob, s1⟩ := r
      rw [h1] at h
      cases h2 : runSOps ops s1 with
      | none => simp [h2] at h
      | some r =>
        simp only [h2, Option.map_some, Option.some.injEq, Prod.mk.injEq] at h
        obtain ⟨-, h3⟩ := h
        exact runSOps_msg ops (s := s1) (obs := r.1) (by rw [h2, ← h3]) (fun c hc => hn c (by simp [hc])) (SOp.run_msg h1 (fun c hc => hn c (by simp [hc])) hm)

end Strm

open Strm
open MiniSrc (Holds ApiOp Vars Vals Obs Prints buildX parserX maximum maximum_fits)

variable (extra : Nat → Nat) (order : List Bytes → List Bytes) (left : W EO → Go.GS Go.R5.V) (w : W EO)

/-- **C111** (programs on values): any sequence of operations, streams among them, from a memory that holds values in variables that share nothing: every
operation ends without a panic, the program sees what the operations on values give, and the memory holds the new values then, again in variables that share
nothing. -/
theorem C111_values (ho : ∀ xs, (order xs).Perm xs) (ops : List SOp) (vs : SVars) (s : SVals) (h : SHolds w vs s) :
    RunSOps (streamX extra order left) ops vs w fun obs vs' w' => ∃ s', runSOps ops s = some (obs, s') ∧ SHolds w' vs' s' := by
  induction ops generalizing vs s w with
  | nil => exact ⟨s, rfl, h⟩
  | cons op ops ih =>
    obtain ⟨ob, s1, h1, h2⟩ := sop_ok extra order ho left op h
    refine RunSOp.mono h2 ?_
    rintro ob' vs' w' ⟨rfl, h3⟩
    refine RunSOps.mono ops ?_ (ih w' vs' s1 h3)
    rintro obs vs2 w2 ⟨s', h4, h5⟩
    exact ⟨s', by simp only [runSOps, h1, h4, Option.map_some], h5⟩

/-- **C111** (what the operations on values give for a stream): for the bytes that the reader delivers, what the specification says of a parser that goes on after wrong
messages if best effort was asked for at any time, keeps incomplete messages if it was asked for when the parser was made, and has the last maximum (smaller than the
largest `int` by 20, C71). -/
theorem C111_results (opts late : List SOpt) (hfit : ∀ n, SOpt.maxLength n ∈ opts ++ late → n < 2 ^ 63 - 20) (reads : List Octet.Read) (bytes : Bytes) (hb : Spec.Delivers reads bytes)
    (rs : List Octet.Result) :
    lateResults opts late reads = some rs ↔ Spec.EmitsOn 64 (SOpt.bestEffort ∈ opts ++ late) (SOpt.bestEffort ∈ opts) (maximum (opts ++ late)) bytes rs := by
  obtain ⟨p', e, -⟩ := Octet.parseB_idle (bits := 64) (fold_config opts late) (wrap_fits (Or.inr rfl) (maximum_fits _ hfit)) reads
  rw [Octet.parseB_64] at e
  rw [lateResults, model_fold, e, Octet.emitsOn_iff, Octet.delivers_delivered hb]
  exact ⟨fun h => Option.some.inj h, fun h => congrArg some h⟩

/-- **C111** (a whole program): it begins with no parsers and no messages, in any memory. -/
theorem C111_program (ho : ∀ xs, (order xs).Perm xs) (ops : List SOp) (g : Globals) (hg : HasGlob w g) :
    RunSOps (streamX extra order left) ops {} w fun obs vs' w' => ∃ s', runSOps ops { base := { glob := g } } = some (obs, s') ∧ SHolds w' vs' s' :=
  C111_values extra order left w ho ops {} { base := { glob := g } }
    ⟨⟨rfl, rfl, fun _ _ _ h => (by cases h), fun _ _ _ h => (by cases h), hg, fun _ _ _ _ _ h => (by cases h), fun _ _ _ _ _ h => (by cases h), fun _ _ _ _ h => (by cases h)⟩,
      rfl, fun _ _ _ h => (by cases h), fun _ _ _ _ _ h => (by cases h), fun _ h => (by cases h), fun _ h => (by cases h)⟩

/-- **C111** (a message is kept): a message, from a stream or not, changes only by its own setters: whatever the program does with streams, parsers and other
messages, the variable holds the same message at the end, and `String` prints the same text. -/
theorem C111_kept (ho : ∀ xs, (order xs).Perm xs) (ops : List SOp) (vs : SVars) (s : SVals) (h : SHolds w vs s) (j b : Nat) (m : SyslogMessage) (hb : vs.base.msgs[j]? = some b)
    (hm : s.base.msgs[j]? = some m) (hn : ∀ c, SOp.api (.set j c) ∉ ops) :
    RunSOps (streamX extra order left) ops vs w fun _ _ w' => RepMsg w' b m ∧ Prints (streamX extra order left) w' b m := by
  refine RunSOps.mono ops ?_ (RunSOps.grows ops (C111_values extra order left w ho ops vs s h))
  rintro obs vs' w' ⟨⟨s', h1, h2⟩, h3⟩
  have hr := h2.base.msg j b m (h3.msg hb) (runSOps_msg ops h1 hn hm)
  exact ⟨hr, Does.env parser_below (C104_string extra order _ w' ho b m hr.msg)⟩

/-! ## Instances -/

namespace Strm

def oneRead (s : String) : Octet.Read := ⟨ascii s, false⟩

/-- nothing there yet -/
def bareStream : W EO :=
  { heap := fun _ => .nil, next := 0, glob := fun x => if x = .currentid then .str [] else if x = .currentparamname then .str [] else .nil
    ext := { src := [], rd := Octet.newReader 0 [], out := [] } }

/-- A strict stream parser, a best-effort one, and one without a listener (which gets a stream too, and another one when it has a listener, best effort and a smaller maximum); the first gets three messages, the third not complete; the second message is changed; the same parser gets another stream, the
best-effort one a bad message; a line is parsed by a parser of `rfc5424`; then the messages are printed. -/
def progS : List SOp :=
  [.newStream [.listener], .newStream [.bestEffort, .listener, .maxLength 64], .stream 0 [oneRead "16 <1>1 - - - - - -30 <2>1 - ho", oneRead "st a - - [x k=\"v\"] hi20 <3>1 - -"],
   .api (.set 1 (.parameter (ascii "x") (ascii "k") (ascii "new"))), .stream 0 [oneRead "16 <4>1 - - - - - -"], .stream 1 [oneRead "12 <34>1 - bad 16 <5>1 - - - - - -"],
   .newStream [], .stream 2 [oneRead "16 <7>1 - - - - - -"], .api (.newParser []), .api (.parse 0 (ascii "<6>1 - - - - - -")), .api (.set 2 (.message (ascii "m"))),
   .api (.string 0), .api (.string 1), .api (.string 2), .api (.string 3),
   .hasBestEffort 2, .option 2 .listener, .option 2 .bestEffort, .option 2 (.maxLength 16), .hasBestEffort 2, .stream 2 [oneRead "16 <8>1 - - - - - -12 <34>1 - bad 16 <9>1 - - - - - -17 <9>1 - - - - - - x"],
   .option 9 .listener, .api (.string 5)]

def seenS : List SObs :=
  [.nothing, .nothing, .heard [(true, none), (true, none), (false, some (.notMsg ⟨.EOF, ascii "<3>1 - -"⟩ 20))], .api .nothing, .heard [(true, none)],
   .heard [(true, some (.message ⟨.appname, 12⟩)), (true, none)], .nothing, .heard [], .api .nothing, .api (.parsed true none), .api .nothing,
   .api (.text (some (ascii "<1>1 - - - - - -"))), .api (.text (some (ascii "<2>1 - host a - - [x k=\"new\"] hi"))), .api (.text (some (ascii "<4>1 - - - - - - m"))),
   .api (.text (some (ascii "<34>1 - bad - - - -"))),
   .flag false, .nothing, .nothing, .nothing, .flag true,
   .heard [(true, none), (false, some (.message ⟨.appname, 12⟩)), (true, none), (false, some (.tooLong 17 16))], .nothing, .api (.text (some (ascii "<6>1 - - - - - -")))]

end Strm

set_option maxRecDepth 100000 in
/-- best effort asked for late, and a late maximum: the incomplete message is refused, the parser goes on -/
example : Spec.EmitsOn 64 true false 16 (ascii "12 <34>1 - bad 16 <9>1 - - - - - -") ((lateResults [.listener] [.bestEffort, .maxLength 16] [⟨ascii "12 <34>1 - bad 16 <9>1 - - - - - -", true⟩]).getD []) ∧
    ((lateResults [.listener] [.bestEffort, .maxLength 16] [⟨ascii "12 <34>1 - bad 16 <9>1 - - - - - -", true⟩]).getD []).map (fun r => (r.msg.isSome, r.err)) = [(false, some (.message ⟨.appname, 12⟩)), (true, none)] := by
  refine ⟨?_, by decide +kernel⟩
  have hl : lateResults [.listener] [.bestEffort, .maxLength 16] [⟨ascii "12 <34>1 - bad 16 <9>1 - - - - - -", true⟩] = some ((lateResults [.listener] [.bestEffort, .maxLength 16] [⟨ascii "12 <34>1 - bad 16 <9>1 - - - - - -", true⟩]).getD []) := by
    rw [lateResults_cap]; rfl
  have hd : Spec.Delivers [⟨ascii "12 <34>1 - bad 16 <9>1 - - - - - -", true⟩] (ascii "12 <34>1 - bad 16 <9>1 - - - - - -") := delivers_whole _ (by decide +kernel)
  have := (C111_results [.listener] [.bestEffort, .maxLength 16] (fun n h => by simp at h; omega) _ _ hd _).mp hl
  simpa [maximum] using this

set_option maxRecDepth 100000 in
/-- what that program sees, executed -/
example : RunSOps (streamX extra List.reverse left) progS {} bareStream fun obs _ _ => obs = seenS := by
  have hrun : (runSOps progS {}).map Prod.fst = some seenS := by decide +kernel
  refine RunSOps.mono progS ?_ (C111_program extra List.reverse left bareStream (fun xs => List.reverse_perm xs) progS {} ⟨rfl, rfl⟩)
  rintro obs vs' w' ⟨s', h1, -⟩
  rw [h1] at hrun
  exact Option.some.inj hrun

set_option maxRecDepth 100000 in
/-- a memory that holds two octet-counting parsers and two messages: the one after the first stream; the messages are kept when the rest of the program without the setters runs -/
example : RunSOps (streamX extra List.reverse left) (progS.take 3) {} bareStream fun _ vs w => ∃ s b m, SHolds w vs s ∧ s.streams.length = 2 ∧ vs.base.msgs[1]? = some b ∧ s.base.msgs[1]? = some m ∧
    m.hostname = some (ascii "host") ∧ RunSOps (streamX extra List.reverse left) (progS.drop 4) vs w fun _ _ w' => RepMsg w' b m ∧ Prints (streamX extra List.reverse left) w' b m := by
  have hrun : (runSOps (progS.take 3) {}).map (fun r => (r.2.streams.length, (r.2.base.msgs[1]?).map (·.hostname))) = some (2, some (some (ascii "host"))) := by decide +kernel
  refine RunSOps.mono (progS.take 3) ?_ (C111_program extra List.reverse left bareStream (fun xs => List.reverse_perm xs) (progS.take 3) {} ⟨rfl, rfl⟩)
  rintro obs vs' w' ⟨s', h1, h2⟩
  rw [h1] at hrun
  have hrun := Option.some.inj hrun
  simp only [Prod.mk.injEq] at hrun
  obtain ⟨h3, h4⟩ := hrun
  obtain ⟨m, hm, hh⟩ := Option.map_eq_some_iff.mp h4
  obtain ⟨b, hb⟩ := MiniSrc.getElem?_other h2.base.mlen.symm hm
  refine ⟨s', b, m, h2, h3, hb, hm, hh, C111_kept extra List.reverse left w' (fun xs => List.reverse_perm xs) (progS.drop 4) vs' s' h2 1 b m hb hm ?_⟩
  intro c hc
  simp [progS] at hc

end Verif.Props
