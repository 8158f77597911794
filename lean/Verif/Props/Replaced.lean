import Verif.Octet.Replace
import Verif.NonTransparent.Replace
import Verif.Props.NonTransparentCalls
import Verif.Props.Octet

/-!
# C117: a listener is replaced

Listeners have numbers; `f` says which listener is installed by the one who just heard a result, if any (any deterministic listeners can be described like this).
-/

namespace Verif.Props
open Verif.Spec

namespace Repl

/-! ## Octet counting -/

/-- what a program does with an octet-counting parser -/
inductive Act where
  /-- `p.WithListener(listener k)` -/
  | listener (k : Nat)
  /-- another option -/
  | opt (o : Octet.Opt)
  /-- `p.Parse(r)` -/
  | parse (reads : List Octet.Read)

/-- the options of `NewParser`: listeners among them -/
abbrev OctOpt := Nat ⊕ Octet.Opt

/-- `NewParser` (octetcounting/parser.go:26-44): the options are applied in their order; listener 0 is there before -/
def newOctet (opts : List OctOpt) : Ears Octet.Result × Octet.Parser :=
  let x : Nat × Octet.Parser := opts.foldl (fun x o => match o with | .inl k => (k, x.2) | .inr o => (x.1, Octet.applyOpt x.2 o)) (0, {})
  (⟨x.1, []⟩, { x.2 with internal := Rfc5424.newMachine { bestEffort := x.2.bestEffort } })

/-- one after the other (`WithListener`: octetcounting/parser.go:65-67) -/
def runOctet (f : Installs Octet.Result) : List Act → Ears Octet.Result → Octet.Parser → Option (Ears Octet.Result × Octet.Parser)
  | [], e, p => some (e, p)
  | .listener k :: acts, e, p => runOctet f acts { e with emit := k } p
  | .opt o :: acts, e, p => runOctet f acts e (Octet.applyOpt p o)
  | .parse reads :: acts, e, p => match p.parseR f e reads with
    | none => none
    | some (e, p) => runOctet f acts e p

/-- the results of each call of `Parse`, whoever the listener is -/
def octetResults : Octet.Parser → List Act → Option (List (List Octet.Result))
  | _, [] => some []
  | p, .listener _ :: acts => octetResults p acts
  | p, .opt o :: acts => octetResults (Octet.applyOpt p o) acts
  | p, .parse reads :: acts => match p.parse reads with
    | none => none
    | some (rs, p) => (octetResults p acts).map (rs :: ·)

/-- the calls of `WithListener` and `Parse` among the acts -/
def octetCalls : List Act → List (Option Nat)
  | [] => []
  | .listener k :: acts => some k :: octetCalls acts
  | .opt _ :: acts => octetCalls acts
  | .parse _ :: acts => none :: octetCalls acts

/-- the listeners among the options -/
def listenersIn {α : Type} : List (Nat ⊕ α) → List Nat := List.filterMap fun o => match o with | .inl k => some k | .inr _ => none
/-- the other options -/
def othersIn {α : Type} : List (Nat ⊕ α) → List α := List.filterMap fun o => match o with | .inl _ => none | .inr o => some o

theorem run_octet (f : Installs Octet.Result) (acts : List Act) (e : Ears Octet.Result) (p : Octet.Parser) (h : ∃ go be max, Octet.IdleB go be max p) :
    ∃ rss e' p', octetResults p acts = some rss ∧ runOctet f acts e p = some (e', p') ∧ e'.heard = attended f e.emit e.heard (turns (octetCalls acts) rss) := by
  induction acts generalizing e p with
  | nil => exact ⟨[], e, p, rfl, rfl, rfl⟩
  | cons act acts ih =>
    cases act with
    | listener k => exact ih { e with emit := k } p h
    | opt o =>
      obtain ⟨go, be, max, h⟩ := h
      refine ih e (Octet.applyOpt p o) ?_
      cases o with
      | bestEffort => exact ⟨true, be, max, rfl, h.hmax, h.ibe, h.ico, h.step⟩
      | maxMessageLength n => exact ⟨go, be, n, h.hgo, rfl, h.ibe, h.ico, h.step⟩
    | parse reads =>
      obtain ⟨go, be, max, h⟩ := h
      obtain ⟨p', e1, h1⟩ := Octet.parse_idle_capL h reads
      simp only [octetResults, runOctet, Octet.parseR_eq, e1, Option.map_some]
      generalize (Octet.pruncL go be max (Octet.bufSize max) (Octet.delivered reads)).1 = rs
      obtain ⟨rss, e', p2, h2, h3, h4⟩ := ih (rs.foldl (Ears.hear f) e) p' ⟨go, be, max, h1⟩
      refine ⟨rs :: rss, e', p2, by rw [h2]; rfl, h3, ?_⟩
      rw [h4, octetCalls, turns, hear_attended]

theorem new_octet (opts : List OctOpt) :
    newOctet opts = (⟨(listenersIn opts).getLast?.getD 0, []⟩, Octet.newParser (othersIn opts)) := by
  have h : ∀ (opts : List OctOpt) (k : Nat) (p : Octet.Parser),
      opts.foldl (fun (x : Nat × Octet.Parser) o => match o with | .inl k => (k, x.2) | .inr o => (x.1, Octet.applyOpt x.2 o)) (k, p) =
        ((listenersIn opts).getLast?.getD k, (othersIn opts).foldl Octet.applyOpt p) := by
    intro opts
    induction opts with
    | nil => intro k p; rfl
    | cons o opts ih =>
      intro k p
      cases o with
      | inl j =>
        rw [List.foldl_cons, ih]
        simp only [listenersIn, othersIn, List.filterMap_cons, List.getLast?_cons, Option.getD_some]
      | inr o => rw [List.foldl_cons, ih]; rfl
  rw [newOctet, h]
  rfl

/-! ## Non-transparent framing -/

/-- what a program does with a parser of non-transparent framing -/
inductive LAct where
  /-- `p.WithListener(listener k)` -/
  | listener (k : Nat)
  /-- `Parse`, or another option -/
  | other (a : NT.Do)

abbrev LineOpt := Nat ⊕ NonTransparent.Opt

/-- `NewParser` (nontransparent/parser.go:198-219): the options are applied in their order; listener 0 is there before -/
def newLines (opts : List LineOpt) : Ears NonTransparent.Result × NonTransparent.Machine :=
  let x : Nat × NonTransparent.Machine := opts.foldl (fun x o => match o with | .inl k => (k, x.2) | .inr o => (x.1, NonTransparent.applyOpt x.2 o)) (0, {})
  (⟨x.1, []⟩, { x.2 with trailer := (NonTransparent.TrailerType.value x.2.trailertyp).getD 255, internal := Rfc5424.newMachine { bestEffort := x.2.bestEffort } })

/-- one after the other (`WithListener`: nontransparent/parser.go:250-252) -/
def runLines (f : Installs NonTransparent.Result) (d : NonTransparent.Driver) : List LAct → Ears NonTransparent.Result → NonTransparent.Machine → Option NonTransparent.Heard
  | [], e, m => some (e, m)
  | .listener k :: acts, e, m => runLines f d acts { e with emit := k } m
  | .other (.opt o) :: acts, e, m => runLines f d acts e (NonTransparent.applyOpt m o)
  | .other (.parse bytes end_) :: acts, e, m => match NonTransparent.Machine.parseR f d e { m with out := [] } bytes end_ with
    | none => none
    | some (e, m) => runLines f d acts e m

/-- the acts but for `WithListener` -/
def others : List LAct → List NT.Do
  | [] => []
  | .listener _ :: acts => others acts
  | .other a :: acts => a :: others acts

/-- the calls of `WithListener` and `Parse` among the acts -/
def lineCalls : List LAct → List (Option Nat)
  | [] => []
  | .listener k :: acts => some k :: lineCalls acts
  | .other (.opt _) :: acts => lineCalls acts
  | .other (.parse _ _) :: acts => none :: lineCalls acts

theorem run_lines (f : Installs NonTransparent.Result) (d : NonTransparent.Driver) (acts : List LAct) (e : Ears NonTransparent.Result) (m : NonTransparent.Machine) (rss : List (List NonTransparent.Result))
    (h : NT.calls d m (others acts) = some rss) :
    ∃ e' m', runLines f d acts e m = some (e', m') ∧ e'.heard = attended f e.emit e.heard (turns (lineCalls acts) rss) := by
  induction acts generalizing e m rss with
  | nil => exact ⟨e, m, rfl, rfl⟩
  | cons act acts ih =>
    cases act with
    | listener k => exact ih { e with emit := k } m rss h
    | other a =>
      cases a with
      | opt o => exact ih e _ rss h
      | parse bytes end_ =>
        rw [others, NT.calls] at h
        rcases NonTransparent.parseR_eq f d e { m with out := [] } bytes end_ with ⟨h1, h2⟩ | ⟨n, rs, h1, h2, h3⟩
        · rw [h2] at h; cases h
        · rw [h1] at h
          obtain ⟨rss', h4, rfl⟩ := Option.map_eq_some_iff.mp h
          obtain ⟨e', m', h5, h6⟩ := ih (rs.foldl (Ears.hear f) e) n rss' h4
          refine ⟨e', m', by rw [runLines, h3]; exact h5, ?_⟩
          have h2 : n.out = rs := h2
          rw [h6, lineCalls, turns, h2, hear_attended]

theorem new_lines (opts : List LineOpt) :
    newLines opts = (⟨(listenersIn opts).getLast?.getD 0, []⟩, NonTransparent.newParser (othersIn opts)) := by
  have h : ∀ (opts : List LineOpt) (k : Nat) (p : NonTransparent.Machine),
      opts.foldl (fun (x : Nat × NonTransparent.Machine) o => match o with | .inl k => (k, x.2) | .inr o => (x.1, NonTransparent.applyOpt x.2 o)) (k, p) =
        ((listenersIn opts).getLast?.getD k, (othersIn opts).foldl NonTransparent.applyOpt p) := by
    intro opts
    induction opts with
    | nil => intro k p; rfl
    | cons o opts ih =>
      intro k p
      cases o with
      | inl j =>
        rw [List.foldl_cons, ih]
        simp only [listenersIn, othersIn, List.filterMap_cons, List.getLast?_cons, Option.getD_some]
      | inr o => rw [List.foldl_cons, ih]; rfl
  rw [newLines, h]
  rfl

theorem octet_calls : ∀ (acts : List Act) (p : Octet.Parser) (rss : List (List Octet.Result)), octetResults p acts = some rss → ((octetCalls acts).filter Option.isNone).length = rss.length
  | [], _, rss, h => by cases h; rfl
  | .listener _ :: acts, p, rss, h => octet_calls acts p rss h
  | .opt o :: acts, p, rss, h => octet_calls acts _ rss h
  | .parse reads :: acts, p, rss, h => by
    rw [octetResults] at h
    split at h
    · cases h
    · rename_i rs p' _
      obtain ⟨rss', h2, rfl⟩ := Option.map_eq_some_iff.mp h
      simp [octetCalls, octet_calls acts p' rss' h2]

theorem line_calls (d : NonTransparent.Driver) : ∀ (acts : List LAct) (m : NonTransparent.Machine) (rss : List (List NonTransparent.Result)), NT.calls d m (others acts) = some rss →
    ((lineCalls acts).filter Option.isNone).length = rss.length
  | [], _, rss, h => by cases h; rfl
  | .listener _ :: acts, m, rss, h => line_calls d acts m rss h
  | .other (.opt o) :: acts, m, rss, h => line_calls d acts _ rss h
  | .other (.parse bytes end_) :: acts, m, rss, h => by
    rw [others, NT.calls] at h
    split at h
    · cases h
    · rename_i m' _
      obtain ⟨rss', h2, rfl⟩ := Option.map_eq_some_iff.mp h
      simp [lineCalls, line_calls d acts m' rss' h2]

end Repl

open Repl

/-- **C117**: every result is heard by exactly one listener, in the order of the reports. -/
theorem C117_everything_once {R : Type} (f : Installs R) (first : Nat) (ts : List (Turn R)) : (attended f first [] ts).map Prod.snd = reported ts := by
  have h : ∀ (ts : List (Turn R)) (cur : Nat) (heard : List (Nat × R)), (attended f cur heard ts).map Prod.snd = heard.map Prod.snd ++ reported ts := by
    intro ts
    induction ts with
    | nil => intro cur heard; simp [attended, reported]
    | cons t ts ih => cases t <;> intro cur heard <;> simp [attended, reported, ih]
  simpa using h ts first []

/-- the results of calls of `Parse`, one after the other, are what is reported -/
theorem C117_reported {R : Type} (acts : List (Option Nat)) (rss : List (List R)) (h : (acts.filter Option.isNone).length = rss.length) : reported (turns acts rss) = rss.flatten := by
  have hr : ∀ (rs : List R) (ts : List (Turn R)), reported (rs.map Turn.got ++ ts) = rs ++ reported ts := by
    intro rs ts
    induction rs with
    | nil => rfl
    | cons r rs ih => simp [reported, ih]
  induction acts generalizing rss with
  | nil => cases rss with
    | nil => rfl
    | cons => simp at h
  | cons a acts ih =>
    cases a with
    | some k => rw [turns, reported]; exact ih rss (by simpa using h)
    | none => cases rss with
      | nil => simp at h
      | cons rs rss => rw [turns, hr, ih rss (by simpa using h), List.flatten_cons]

/-- **C117** (octet counting): a parser is made with options, listeners among them (the last one counts), then `Parse`, options and `WithListener` are called in any
order, and listeners install others while `Parse` runs: every call returns, and each result goes to the listener that there is at that moment, and to nobody else.
The results of each call are those that one listener gets who only listens. -/
theorem C117_octet_every_history (f : Installs Octet.Result) (opts : List OctOpt) (acts : List Act) :
    ∃ rss e p, octetResults (Octet.newParser (othersIn opts)) acts = some rss ∧ runOctet f acts (newOctet opts).1 (newOctet opts).2 = some (e, p) ∧
      e.heard = attended f ((listenersIn opts).getLast?.getD 0) [] (turns (octetCalls acts) rss) ∧ e.heard.map Prod.snd = rss.flatten := by
  rw [new_octet]
  obtain ⟨rss, e, p, h1, h2, h3⟩ := run_octet f acts ⟨(listenersIn opts).getLast?.getD 0, []⟩ _ ⟨_, _, _, Octet.IdleB.mk rfl rfl rfl (idle_new (othersIn opts)).ico (idle_new _).step⟩
  exact ⟨rss, e, p, h1, h2, h3, by rw [h3, C117_everything_once, C117_reported _ _ (octet_calls acts _ rss h1)]⟩

/-- **C117** (octet counting): the results of a call of `Parse` on a new parser are those of the other theorems. -/
theorem C117_octet_results (opts : List Octet.Opt) (reads : List Octet.Read) :
    octetResults (Octet.newParser opts) [.parse reads] = (results opts reads).map ([·]) := by
  simp only [octetResults, results]
  cases (Octet.newParser opts).parse reads with
  | none => rfl
  | some x => obtain ⟨rs, p⟩ := x; rfl

/-- **C117** (non-transparent framing): the same, for every behaviour of the external loop; the results of the calls are those of C73. -/
theorem C117_lines_every_history (f : Installs NonTransparent.Result) (d : NonTransparent.Driver) (opts : List LineOpt) (acts : List LAct) :
    ∃ rss e m, NT.calls d (NonTransparent.newParser (othersIn opts)) (others acts) = some rss ∧ runLines f d acts (newLines opts).1 (newLines opts).2 = some (e, m) ∧
      e.heard = attended f ((listenersIn opts).getLast?.getD 0) [] (turns (lineCalls acts) rss) ∧ e.heard.map Prod.snd = rss.flatten := by
  rw [new_lines]
  obtain ⟨rss, h, -⟩ := C73_one_outcome d (othersIn opts) (others acts)
  obtain ⟨e, m, h1, h2⟩ := run_lines f d acts ⟨(listenersIn opts).getLast?.getD 0, []⟩ _ rss h
  exact ⟨rss, e, m, h, h1, h2, by rw [h2, C117_everything_once, C117_reported _ _ (line_calls d acts _ rss h)]⟩

/-! ## What that means -/

/-- **C117**: when listeners install nothing, the results after a call of `WithListener` go to the listener of the last such call, those before to others as if
it had not come. -/
theorem C117_last_one_set {R : Type} (first : Nat) (before : List (Turn R)) (k : Nat) (rs : List R) :
    attended (fun _ => none) first [] (before ++ .set k :: rs.map .got) = attended (fun _ => none) first [] before ++ rs.map (k, ·) := by
  have h1 : ∀ (rs : List R) (heard : List (Nat × R)), attended (fun _ => none) k heard (rs.map .got) = heard ++ rs.map (k, ·) := by
    intro rs
    induction rs with
    | nil => intro heard; simp [attended]
    | cons r rs ih => intro heard; simp [attended, ih]
  have h2 : ∀ (before : List (Turn R)) (cur : Nat) (heard : List (Nat × R)),
      attended (fun _ => none) cur heard (before ++ .set k :: rs.map .got) = attended (fun _ => none) cur heard before ++ rs.map (k, ·) := by
    intro before
    induction before with
    | nil => intro cur heard; simp [attended, h1]
    | cons t before ih => cases t <;> intro cur heard <;> simp [attended, ih]
  exact h2 before first []

/-- **C117**: the listener that hears the `n`-th result installs `j`: the results up to that one are its own, the following ones are for `j`. -/
theorem C117_from_inside {R : Type} (k j n : Nat) (hn : 0 < n) (rs : List R) :
    attended (fun heard => if heard.length = n then some j else none) k [] (rs.map .got) = (rs.take n).map (k, ·) ++ (rs.drop n).map (j, ·) := by
  have h1 : ∀ (rs : List R) (heard : List (Nat × R)), n ≤ heard.length →
      attended (fun heard => if heard.length = n then some j else none) j heard (rs.map .got) = heard ++ rs.map (j, ·) := by
    intro rs
    induction rs with
    | nil => intro heard _; simp [attended]
    | cons r rs ih =>
      intro heard hh
      rw [List.map_cons, attended, if_neg (by simp; omega), Option.getD_none, ih _ (by simp; omega)]
      simp
  have h2 : ∀ (rs : List R) (heard : List (Nat × R)), heard.length < n →
      attended (fun heard => if heard.length = n then some j else none) k heard (rs.map .got) = heard ++ ((rs.take (n - heard.length)).map (k, ·) ++ (rs.drop (n - heard.length)).map (j, ·)) := by
    intro rs
    induction rs with
    | nil => intro heard _; simp [attended]
    | cons r rs ih =>
      intro heard hh
      rw [List.map_cons, attended]
      by_cases c : heard.length + 1 = n
      · rw [if_pos (by simpa using c), Option.getD_some, h1 _ _ (by simp; omega), show n - heard.length = 1 by omega]
        simp
      · obtain ⟨q, hq⟩ : ∃ q, n - heard.length = q + 1 := ⟨n - heard.length - 1, by omega⟩
        rw [if_neg (by simpa using c), Option.getD_none, ih _ (by simp; omega), hq]
        have : n - (heard ++ [(k, r)]).length = q := by simp; omega
        rw [this]
        simp
  simpa using h2 rs [] (by simp; omega)

/-! ## Instances -/

/-- Two listeners among the options (1, then 2), 2 installs 3 at the second result of all, the program sets 4 between two calls: octet counting. -/
def swapAt2 : Installs Octet.Result := fun heard => if heard.length = 2 then some 3 else none

set_option maxRecDepth 100000 in
example : ((runOctet swapAt2 [.parse [⟨ascii "16 <1>1 - - - - - -16 <2>1 - - - - - -16 <3>1 - - - - - -", true⟩], .opt (.maxMessageLength 15), .listener 4, .parse [⟨ascii "16 <4>1 - - - - - -", true⟩]]
      (newOctet [.inl 1, .inr .bestEffort, .inl 2]).1 (newOctet [.inl 1, .inr .bestEffort, .inl 2]).2).map fun x => x.1.heard.map fun h => (h.1, h.2.msg.isSome, h.2.err)) =
    some [(2, true, none), (2, true, none), (3, true, none), (4, false, some (.tooLong 16 15))] := by decide +kernel

set_option maxRecDepth 100000 in
/-- lines: the first listener installs itself out (the parser's own listener, which does nothing) at its first result -/
example (d : NonTransparent.Driver) : ∃ e m, runLines (fun heard => if heard.length = 1 then some 0 else none) d [.other (.parse (ascii "<1>1 - - - - - -\n<2>1 - - - - - -\n") .unexpectedEOF)] (newLines [.inl 7]).1 (newLines [.inl 7]).2 = some (e, m) ∧
    e.heard.map (fun h => (h.1, h.2.msg.isSome)) = [(7, true), (0, true)] := by
  have h : ∀ d : NonTransparent.Driver, (runLines (fun heard => if heard.length = 1 then some 0 else none) d [.other (.parse (ascii "<1>1 - - - - - -\n<2>1 - - - - - -\n") .unexpectedEOF)] (newLines [.inl 7]).1 (newLines [.inl 7]).2).map
      (fun x => x.1.heard.map (fun h => (h.1, h.2.msg.isSome))) = some [(7, true), (0, true)] := by
    rintro ⟨_ | _, _ | _, _ | _⟩ <;> decide +kernel
  obtain ⟨⟨e, m⟩, h1, h2⟩ := Option.map_eq_some_iff.mp (h d)
  exact ⟨e, m, h1, h2⟩

end Verif.Props
