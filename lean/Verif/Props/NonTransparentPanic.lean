import Verif.Props.NonTransparentPanicRun

/-!
# C92: a non-transparent parser whose listener panics

`callsP d p acts` runs a sequence of acts (calls of `Parse` on any streams with listeners that may panic, options applied in between) on one
parser; the caller recovers from the panics. It gives what the listener got in each call, and whether it panicked.
Specification: `Verif/Spec/NonTransparentPanic.lean`.
-/

namespace Verif.Props
open NT Verif.Spec Verif.NonTransparent
namespace NT

/-- what a caller can do with a parser: `Parse` on a stream, with a listener that panics when `stop` says so; an option applied to it -/
inductive DoP where
  | parse (bytes : Bytes) (e : ReadErr) (stop : Stop)
  | opt (o : Opt)

/-- what the listener gets in each call of `Parse`, and whether it panics -/
def callsP (d : Driver) : Machine → List DoP → Option (List (List Result × Bool))
  | _, [] => some []
  | m, .parse bytes e stop :: acts =>
    match Machine.parseP stop d { m with out := [] } bytes e with
    | .crash => none
    | .panic m' => (callsP d m' acts).map ((m'.out, true) :: ·)
    | .ok m' => (callsP d m' acts).map ((m'.out, false) :: ·)
  | m, .opt o :: acts => callsP d (applyOpt m o) acts

/-- an act in the terms of the specification -/
def actsOfP (be : Bool) : DoP → List (PAct ReadErr)
  | .parse bytes e stop => [.parse bytes e fun rs => stop (rs.map (resultFor be))]
  | .opt (.trailer t) => if t = LF then [.trailer 10] else if t = NUL then [.trailer 0] else []
  | .opt .bestEffort => [.bestEffort]
  | .opt (.maxMessageLength _) => []

/-- results for reports -/
def resultsFor (be : Bool) (x : List (Report ReadErr) × Bool) : List Result × Bool := (x.1.map (resultFor be), x.2)

theorem noPanic_iff {stop : Stop} {be : Bool} {rs : List (Report ReadErr)} :
    NoPanic (fun rs => stop (rs.map (resultFor be))) rs ↔ Calm stop [] (rs.map (resultFor be)) := by
  constructor
  · intro h p hp hpre
    obtain ⟨q, hq⟩ := hpre
    obtain ⟨p', q', h1, h2, h3⟩ := List.map_eq_append_iff.mp hq.symm
    have := h p' (by rintro rfl; exact hp (by simpa using h2.symm)) ⟨q', h1.symm⟩
    have this : stop (p'.map (resultFor be)) = false := this
    rw [h2] at this
    exact this
  · intro h p hp hpre
    have := h (p.map (resultFor be)) (by simpa using hp) (hpre.map _)
    exact this

theorem firstStop_unique {stop : List (Report ReadErr) → Bool} {a b : List (Report ReadErr)} {r r' : Report ReadErr} {x y : List (Report ReadErr)}
    (h : (a ++ [r]) ++ x = (b ++ [r']) ++ y) (h1 : NoPanic stop a) (h1' : stop (a ++ [r]) = true) (h2 : NoPanic stop b)
    (h2' : stop (b ++ [r']) = true) : a = b ∧ r = r' := by
  have key : ∀ {a b : List (Report ReadErr)} {r r' : Report ReadErr} {x y : List (Report ReadErr)}, (a ++ [r]) ++ x = (b ++ [r']) ++ y →
      stop (a ++ [r]) = true → NoPanic stop b → ¬ a.length < b.length := by
    intro a b r r' x y h h1' h2 hlt
    have hp : (a ++ [r]) <+: b := by
      refine List.prefix_of_prefix_length_le (List.prefix_append _ x) ?_ (by simp; omega)
      rw [h, List.append_assoc]; exact List.prefix_append _ _
    rw [h2 _ (by simp) hp] at h1'
    cases h1'
  have hlen : a.length = b.length := by
    have h3 := key h h1' h2
    have h4 := key h.symm h2' h1
    omega
  have := List.append_inj h (by simp [hlen])
  have := List.append_inj' this.1 rfl
  exact ⟨this.1, by simpa using this.2⟩

theorem noPanic_prefix {stop : List (Report ReadErr) → Bool} {rs p : List (Report ReadErr)} (h : NoPanic stop rs) (hp : p <+: rs) : NoPanic stop p :=
  fun q hq hpre => h q hq (hpre.trans hp)

/-- the acts on a parser that keeps `k`, by the specification -/
theorem callsP_spec {be : Bool} (d : Driver) (acts : List DoP) {t : UInt8} (m : Machine) (h : Inv be t m) (hl : Lt m) :
    ∃ rss, PCalls (loopOf d) t (keptOf m) (acts.flatMap (actsOfP be)) rss ∧ callsP d m acts = some (rss.map (resultsFor be)) := by
  induction acts generalizing t m with
  | nil => exact ⟨[], .done t _, rfl⟩
  | cons a acts ih =>
    cases a with
    | parse bytes e stop =>
      have h0 : Inv be t { m with out := [] } := ⟨h.tr, h.typ, h.ibe, h.ico⟩
      obtain ⟨reps, k', c1, m', c2, c3, c4, c5, c6, c7⟩ := call_panics stop d e bytes { m with out := [] } h0 hl
      rcases c7 with ⟨c7, c8⟩ | ⟨a, r, b, y, c7, c8, c9, c10, c11, c12, c13⟩
      · obtain ⟨rss, i1, i2⟩ := ih m' c4 c5
        refine ⟨(reps, false) :: rss, ?_, ?_⟩
        · exact .returns (c3 ▸ c1) (noPanic_iff.mpr c7) i1
        · simp only [callsP, c8, i2, Option.map_some, c6]
          rfl
      · obtain ⟨rss, i1, i2⟩ := ih y c11 c12
        refine ⟨(a ++ [r], true) :: rss, ?_, ?_⟩
        · refine .panics c8 (noPanic_iff.mpr c9.1) ?_ i1
          have := c9.2
          simpa using this
        · simp only [callsP, c10, i2, Option.map_some, c13]
          rfl
    | opt o =>
      cases o with
      | bestEffort =>
        obtain ⟨rss, i1, i2⟩ := ih (applyOpt m .bestEffort) (t := t) ⟨h.tr, h.typ, h.ibe, h.ico⟩ hl
        exact ⟨rss, .bestEffort i1, i2⟩
      | maxMessageLength n => exact ih m h hl
      | trailer t' =>
        simp only [List.flatMap_cons, actsOfP]
        rcases value_iff t' with ⟨hv, rfl⟩ | ⟨hv, rfl⟩ | ⟨hv, h0, h1⟩
        · rw [if_pos rfl]
          obtain ⟨rss, i1, i2⟩ := ih { m with trailer := 10, trailertyp := LF } (t := 10) ⟨rfl, Or.inl ⟨rfl, rfl⟩, h.ibe, h.ico⟩ hl
          exact ⟨rss, .trailer i1, by rw [← i2]; simp only [callsP, applyOpt, hv]⟩
        · rw [if_neg (by decide), if_pos rfl]
          obtain ⟨rss, i1, i2⟩ := ih { m with trailer := 0, trailertyp := NUL } (t := 0) ⟨rfl, Or.inr ⟨rfl, rfl⟩, h.ibe, h.ico⟩ hl
          exact ⟨rss, .trailer i1, by rw [← i2]; simp only [callsP, applyOpt, hv]⟩
        · rw [if_neg h0, if_neg h1]
          obtain ⟨rss, i1, i2⟩ := ih m h hl
          exact ⟨rss, i1, by rw [← i2]; simp only [callsP, applyOpt, hv]⟩

/-- the specification leaves no choice -/
theorem pcalls_unique {l : Loop} {acts : List (PAct ReadErr)} (hacts : ∀ t, PAct.trailer t ∈ acts → t ≠ 60) {t : UInt8} (ht : t ≠ 60)
    {k : Kept ReadErr} {r₁ r₂ : List (List (Report ReadErr) × Bool)} (h₁ : PCalls l t k acts r₁) (h₂ : PCalls l t k acts r₂) : r₁ = r₂ := by
  induction h₁ generalizing r₂ with
  | done t k => cases h₂; rfl
  | @returns t k k' bytes e stop rs acts rss c1 c2 _ ih =>
    have hacts' : ∀ t, PAct.trailer t ∈ acts → t ≠ 60 := fun t h => hacts t (by simp [h])
    cases h₂ with
    | returns d1 d2 d3 =>
      obtain ⟨rfl, rfl⟩ := call_unique ht c1 d1
      rw [ih hacts' ht d3]
    | @panics _ _ k'' _ _ _ rs' r _ rss' d1 d2 d3 d4 =>
      obtain ⟨more, k3, d5⟩ := panic_prefix d1
      obtain ⟨rfl, -⟩ := call_unique ht c1 d5
      rw [c2 _ (by simp) (List.prefix_append _ _)] at d3
      cases d3
  | @panics t k k' bytes e stop rs r acts rss c1 c2 c3 _ ih =>
    have hacts' : ∀ t, PAct.trailer t ∈ acts → t ≠ 60 := fun t h => hacts t (by simp [h])
    cases h₂ with
    | returns d1 d2 d3 =>
      obtain ⟨more, k3, d5⟩ := panic_prefix c1
      obtain ⟨rfl, -⟩ := call_unique ht d1 d5
      rw [d2 _ (by simp) (List.prefix_append _ _)] at c3
      cases c3
    | @panics _ _ k'' _ _ _ rs' r' _ rss' d1 d2 d3 d4 =>
      obtain ⟨more, k3, d5⟩ := panic_prefix d1
      obtain ⟨more', k4, c5⟩ := panic_prefix c1
      have hh := (call_unique ht c5 d5).1
      obtain ⟨rfl, rfl⟩ := firstStop_unique hh c2 c3 d2 d3
      have := panic_unique ht c1 d1
      subst this
      rw [ih hacts' ht d4]
  | trailer _ ih =>
    cases h₂ with
    | trailer d1 => exact ih (fun t h => hacts t (by simp [h])) (hacts _ (by simp)) d1
  | bestEffort _ ih =>
    cases h₂ with
    | bestEffort d1 => exact ih (fun t h => hacts t (by simp [h])) ht d1

theorem actsOfP_trailers {be : Bool} (acts : List DoP) (t : UInt8) (h : PAct.trailer t ∈ acts.flatMap (actsOfP be)) : t ≠ 60 := by
  obtain ⟨a, -, ha⟩ := List.mem_flatMap.mp h
  cases a with
  | parse bytes e stop => simp [actsOfP] at ha
  | opt o =>
    cases o with
    | bestEffort => simp [actsOfP] at ha
    | maxMessageLength n => simp [actsOfP] at ha
    | trailer t' =>
      simp only [actsOfP] at ha
      split at ha
      · simp at ha; rw [ha]; decide
      · split at ha
        · simp at ha; rw [ha]; decide
        · simp at ha

end NT

/-- C92: for every sequence of calls of `Parse`, on all streams, with listeners that panic at any results (and callers that recover), and of
options applied in between, the listener gets what the specification says. -/
theorem C92_every_history (d : Driver) (opts : List Opt) (acts : List DoP) (rss : List (List Result × Bool)) :
    NT.callsP d (newParser opts) acts = some rss ↔
      ∃ reports, PCalls (NT.loopOf d) (trailerByte opts) {} (acts.flatMap (NT.actsOfP (NT.isBestEffort opts))) reports ∧
        rss = reports.map (NT.resultsFor (NT.isBestEffort opts)) := by
  obtain ⟨hi, h1, h2, h3, h4⟩ := NT.new_inv opts
  have hk : NT.keptOf (newParser opts) = {} := by simp [NT.keptOf, h1, h2]
  have ht : trailerByte opts ≠ 60 := by
    rcases hi.typ with ⟨-, h⟩ | ⟨-, h⟩ <;> rw [h] <;> decide
  obtain ⟨reports, c1, c2⟩ := NT.callsP_spec d acts (newParser opts) hi (Or.inl h1)
  rw [hk] at c1
  rw [c2]
  constructor
  · intro h
    exact ⟨reports, c1, (Option.some.inj h).symm⟩
  · rintro ⟨reports', c1', rfl⟩
    rw [NT.pcalls_unique (NT.actsOfP_trailers acts) ht c1 c1']

/-- C92: a listener that never panics gets what C73 says. -/
theorem C92_without_panic (d : Driver) (opts : List Opt) (calls : List (Bytes × ReadErr)) :
    NT.callsP d (newParser opts) (calls.map fun c => .parse c.1 c.2 fun _ => false) =
      (NT.calls d (newParser opts) (calls.map fun c => .parse c.1 c.2)).map (List.map fun rs => (rs, false)) := by
  generalize newParser opts = m
  induction calls generalizing m with
  | nil => rfl
  | cons c cs ih =>
    simp only [List.map_cons, NT.callsP, NT.calls, parseP_calm]
    cases Machine.parse d { m with out := [] } c.1 c.2 with
    | none => rfl
    | some m' =>
      simp only [Ran.of, ih]
      cases NT.calls d m' (cs.map fun c => .parse c.1 c.2) <;> rfl

/-- C92: when the listener panics at a message, the next call of `Parse` reports that message again, before those of its own stream. The
messages after it in the first stream are lost. -/
theorem C92_redelivered (d : Driver) (opts : List Opt) (before after ms : List Bytes) (m : Bytes) (e e' : ReadErr)
    (hm : ∀ x ∈ before ++ m :: after, Framable (trailerByte opts) x) (hms : ∀ x ∈ ms, Framable (trailerByte opts) x) :
    NT.callsP d (newParser opts)
        [.parse (framed (trailerByte opts) (before ++ m :: after)) e fun got => got.length == before.length + 1,
         .parse (framed (trailerByte opts) ms) e' fun _ => false] =
      some [((before ++ [m]).map (NT.alone (NT.isBestEffort opts)), true),
        ((without (trailerByte opts) m :: ms).map (NT.alone (NT.isBestEffort opts)), false)] := by
  rw [C92_every_history]
  refine ⟨[((before ++ [m]).map Report.whole, true), ((without (trailerByte opts) m :: ms).map Report.whole, false)], ?_, by
    simp only [List.map_cons, List.map_nil, List.map_append, NT.resultsFor, List.map_map]; rfl⟩
  have hk : PanicCall (NT.loopOf d) (trailerByte opts) e ({} : Kept ReadErr) (framed (trailerByte opts) (before ++ m :: after) ++ [])
      (before.map Report.whole ++ [.whole m]) ⟨some m, none⟩ := by
    have heq : again (trailerByte opts) ({} : Kept ReadErr) ++ (before ++ m :: after).map Report.whole =
        before.map Report.whole ++ .whole m :: after.map Report.whole := by simp [again]
    by_cases ha : after = []
    · subst ha
      have := PanicCall.lastMessage (l := NT.loopOf d) (t := trailerByte opts) (e := e) ({} : Kept ReadErr) (before ++ [m]) [] hm (by simp) heq (by simp)
      have hr : nextRest (NT.loopOf d) e ({} : Kept ReadErr) [] = none := by simp [nextRest]
      rw [hr] at this
      exact this
    · exact PanicCall.message ({} : Kept ReadErr) (before ++ m :: after) [] hm (by simp) heq (Or.inl (by simpa using ha))
  rw [List.append_nil] at hk
  have hc := Call.messages (l := NT.loopOf d) (t := trailerByte opts) (e := e') (⟨some m, none⟩ : Kept ReadErr) ms [] hms (by simp)
  have hl : lastReport (NT.loopOf d) e' (⟨some m, none⟩ : Kept ReadErr) [] = [] := by simp [lastReport]
  rw [hl, List.append_nil, List.append_nil] at hc
  simp only [List.flatMap_cons, NT.actsOfP, List.flatMap_nil, List.cons_append, List.nil_append, List.map_append, List.map_cons, List.map_nil]
  refine PCalls.panics hk ?_ (by simp) (PCalls.returns hc (fun _ _ _ => rfl) (.done _ _))
  intro p hp hpre
  have := hpre.length_le
  simp at this ⊢
  omega

/-- C92: a listener that panics whenever it gets the result of a message makes every later call of `Parse` panic with that result, whatever
the later streams are: nothing else is ever reported. -/
theorem C92_poison (d : Driver) (opts : List Opt) (m : Bytes) (e : ReadErr) (later : List (Bytes × ReadErr)) (stop : Stop)
    (hm : Framable (trailerByte opts) m) (hlast : m.getLast? ≠ some (trailerByte opts))
    (hstop : ∀ got, stop (got ++ [NT.alone (NT.isBestEffort opts) m]) = true) :
    NT.callsP d (newParser opts) (((framed (trailerByte opts) [m], e) :: later).map fun c => .parse c.1 c.2 stop) =
      some (((framed (trailerByte opts) [m], e) :: later).map fun _ => ([NT.alone (NT.isBestEffort opts) m], true)) := by
  rw [C92_every_history]
  have ht : trailerByte opts = 10 ∨ trailerByte opts = 0 := by
    rcases (NT.new_inv opts).1.typ with ⟨-, h⟩ | ⟨-, h⟩ <;> simp [h]
  have hw : without (trailerByte opts) m = m := by rw [without, if_neg hlast]
  have hs : (fun rs : List (Report ReadErr) => stop (rs.map (NT.resultFor (NT.isBestEffort opts)))) ([] ++ [.whole m]) = true := hstop []
  have hn : NoPanic (fun rs : List (Report ReadErr) => stop (rs.map (NT.resultFor (NT.isBestEffort opts)))) [] := by
    intro p hp hpre
    exact (hp (by simpa using hpre)).elim
  have step : ∀ (later : List (Bytes × ReadErr)) (kr : Option (Bytes × ReadErr)),
      PCalls (NT.loopOf d) (trailerByte opts) (⟨some m, kr⟩ : Kept ReadErr)
        ((later.map fun c => DoP.parse c.1 c.2 stop).flatMap (NT.actsOfP (NT.isBestEffort opts)))
        (later.map fun _ => ([.whole m], true)) := by
    intro later
    induction later with
    | nil => intro kr; exact .done _ _
    | cons c later ih =>
      intro kr
      simp only [List.map_cons, List.flatMap_cons, NT.actsOfP, List.cons_append, List.nil_append]
      have hk : ∃ kr', PanicCall (NT.loopOf d) (trailerByte opts) c.2 (⟨some m, kr⟩ : Kept ReadErr) c.1 ([] ++ [.whole m]) ⟨some m, kr'⟩ := by
        obtain ⟨rs, k', h⟩ := NT.call_total (NT.loopOf d) ht c.2 (⟨some m, kr⟩ : Kept ReadErr) c.1
        generalize c.1 = bytes at h ⊢
        cases h with
        | messages ms rest hms hr =>
          have heq : again (trailerByte opts) (⟨some m, kr⟩ : Kept ReadErr) ++ ms.map Report.whole = [] ++ .whole m :: ms.map Report.whole := by
            simp [again, hw]
          by_cases hb : ms.map Report.whole ≠ ([] : List (Report ReadErr)) ∨ ((NT.loopOf d).runsRest = true ∧ rest.head? = some 60)
          · exact ⟨_, PanicCall.message _ ms rest hms hr heq hb⟩
          · have h0 : ms.map Report.whole = ([] : List (Report ReadErr)) := by
              by_cases h : ms.map Report.whole = ([] : List (Report ReadErr))
              · exact h
              · exact (hb (Or.inl h)).elim
            have heq : again (trailerByte opts) (⟨some m, kr⟩ : Kept ReadErr) ++ ms.map Report.whole = [] ++ [.whole m] := by
              rw [heq, h0]
            exact ⟨_, PanicCall.lastMessage _ ms rest hms hr heq fun h => hb (Or.inr h)⟩
        | dropped w rest h60 hr =>
          have := PanicCall.dropped (l := NT.loopOf d) (e := c.2) (⟨some m, kr⟩ : Kept ReadErr) w rest h60 hr (m := m) rfl
          rw [hw] at this
          exact ⟨_, this⟩
      obtain ⟨kr', hk⟩ := hk
      exact PCalls.panics hk hn hs (ih kr')
  refine ⟨((framed (trailerByte opts) [m], e) :: later).map fun _ => ([.whole m], true), ?_, by
    rw [List.map_map]; rfl⟩
  have hk : PanicCall (NT.loopOf d) (trailerByte opts) e ({} : Kept ReadErr) (framed (trailerByte opts) [m] ++ []) ([] ++ [.whole m])
      ⟨some m, nextRest (NT.loopOf d) e ({} : Kept ReadErr) []⟩ := by
    refine PanicCall.lastMessage _ [m] [] ?_ (by simp) (by simp [again]) (by simp)
    intro x hx
    have : x = m := by simpa using hx
    rw [this]; exact hm
  rw [List.append_nil] at hk
  simp only [List.map_cons, List.flatMap_cons, NT.actsOfP, List.cons_append, List.nil_append]
  exact PCalls.panics hk hn hs (step later _)

-- the listener panics at the second of three messages; the next stream has one message, the one after is empty
example : (NT.callsP ⟨true, true, false⟩ (newParser [])
      [.parse (ascii "<1>1 - - - - - -\n<2>1 - - - - - -\n<3>1 - - - - - -\n") .unexpectedEOF fun got => got.length == 2,
       .parse (ascii "<4>1 - - - - - -\n") .unexpectedEOF fun _ => false,
       .parse [] .unexpectedEOF fun _ => true]).map
    (List.map fun x => (x.1.map fun r => r.msg.bind fun m => m.priority, x.2)) =
    some [([some 1, some 2], true), ([some 2, some 4], false), ([some 4], true)] := by decide +kernel

-- a listener that panics whenever it gets a message of priority 2
example : (NT.callsP ⟨true, true, false⟩ (newParser [])
      [.parse (ascii "<2>1 - - - - - -\n") .unexpectedEOF fun got => (got.getLast?.bind fun r => r.msg.bind fun m => m.priority) == some 2,
       .parse (ascii "<4>1 - - - - - -\n") .unexpectedEOF fun got => (got.getLast?.bind fun r => r.msg.bind fun m => m.priority) == some 2,
       .parse (ascii "x\n") .unexpectedEOF fun got => (got.getLast?.bind fun r => r.msg.bind fun m => m.priority) == some 2]).map
    (List.map fun x => (x.1.map fun r => r.msg.bind fun m => m.priority, x.2)) =
    some [([some 2], true), ([some 2], true), ([some 2], true)] := by decide +kernel

example : ∀ got : List Result, (fun got : List Result => (got.getLast?.bind fun r => r.msg.bind fun m => m.priority) == some 2)
    (got ++ [NT.alone false (ascii "<2>1 - - - - - -")]) = true := by
  intro got
  simp only [List.getLast?_append, List.getLast?_singleton, Option.some_or]
  decide +kernel

end Verif.Props
