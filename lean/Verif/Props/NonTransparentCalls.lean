import Verif.Props.NonTransparent
import Verif.NonTransparent.Calls
import Verif.Spec.NonTransparentCalls

/-!
# C73: every history of a non-transparent parser

`calls d p acts` runs a sequence of acts (calls of `Parse` on any streams, options applied to the existing parser) on one parser and
gives what the listener got in each call of `Parse`. Specification: `Verif/Spec/NonTransparentCalls.lean`.
-/

namespace Verif.Props
open NT Verif.Spec Verif.NonTransparent
open Verif.Rfc5424 (parse1 SyslogMessage)
namespace NT

/-- what a caller can do with a parser: `Parse` on a stream, an option applied to it -/
inductive Do where
  | parse (bytes : Bytes) (e : ReadErr)
  | opt (o : Opt)

/-- the results the listener gets in each call of `Parse` -/
def calls (d : Driver) : Machine → List Do → Option (List (List Result))
  | _, [] => some []
  | m, .parse bytes e :: acts =>
    match Machine.parse d { m with out := [] } bytes e with
    | none => none
    | some m' => (calls d m' acts).map (m'.out :: ·)
  | m, .opt o :: acts => calls d (applyOpt m o) acts

/-- an act in the terms of the specification: unknown trailers and the maximum length are ignored -/
def actsOf : Do → List (Act ReadErr)
  | .parse bytes e => [.parse bytes e]
  | .opt (.trailer t) => if t = LF then [.trailer 10] else if t = NUL then [.trailer 0] else []
  | .opt .bestEffort => [.bestEffort]
  | .opt (.maxMessageLength _) => []

/-- the result for a report -/
def resultFor (be : Bool) : Report ReadErr → Result
  | .whole w => alone be w
  | .cut w e => aloneUnterminated be e w

/-- the external loop, in the terms of the specification -/
def loopOf (d : Driver) : Loop := ⟨d.stopOnFail, d.execLast, d.errOnEmpty⟩

/-- what the machine keeps -/
def keptOf (m : Machine) : Kept ReadErr :=
  ⟨if m.candidate = [] then none else some m.candidate,
    match m.readError with
    | none => none
    | some e => if m.lastChunk = [] then none else some (m.lastChunk, e)⟩

theorem pend_again (be : Bool) (t : UInt8) (m : Machine) : pend be t m.candidate = (again t (keptOf m)).map (resultFor be) := by
  by_cases h : m.candidate = [] <;> simp [pend, again, keptOf, h, resultFor] <;> rfl

theorem stale_eq (be : Bool) (m : Machine) : staleRes be m.readError m.lastChunk =
    ((keptOf m).rest.map fun p => Report.cut p.1 p.2).toList.map (resultFor be) := by
  simp only [staleRes, keptOf]
  cases m.readError with
  | none => rfl
  | some e => by_cases h : m.lastChunk = [] <;> simp [h, resultFor] <;> rfl

theorem tail_eq (be : Bool) (d : Driver) (e : ReadErr) (rest : Bytes) (m : Machine) :
    tailRes be d e rest m.readError m.lastChunk = (lastReport (loopOf d) e (keptOf m) rest).map (resultFor be) := by
  have := stale_eq be m
  simp only [staleRes] at this
  simp only [tailRes, lastReport]
  by_cases h : rest = []
  · simp only [h, ne_eq, not_true_eq_false, if_false]
    by_cases hd : d.errOnEmpty = true
    · rw [if_pos hd, if_pos (show (loopOf d).reportsEmpty = true from hd)]; rfl
    · rw [if_neg hd, if_neg (show ¬ (loopOf d).reportsEmpty = true from hd)]; exact this
  · simp only [ne_eq, h, not_false_eq_true, if_true]; rfl

theorem kept_rest (d : Driver) (e : ReadErr) (rest : Bytes) (m m' : Machine)
    (h : (m'.readError, m'.lastChunk) =
        (if rest ≠ [] then (some e, rest) else if d.errOnEmpty then (some e, []) else (m.readError, m.lastChunk))) :
    (keptOf m').rest = nextRest (loopOf d) e (keptOf m) rest := by
  have h1 := congrArg Prod.fst h
  have h2 := congrArg Prod.snd h
  simp only at h1 h2
  simp only [keptOf, nextRest, h1, h2, loopOf]
  by_cases hr : rest = []
  · simp only [hr, ne_eq, not_true_eq_false, if_false]
    by_cases hd : d.errOnEmpty = true <;> simp [hd]
  · simp [hr]

theorem strip_without (t : UInt8) (w : Bytes) : strip t w = without t w := rfl

/-- a call on any state, by the specification -/
theorem call_of_spec {be : Bool} {t : UInt8} {d : Driver} {e : ReadErr} {k k' : Kept ReadErr} {bytes : Bytes} {rs : List (Report ReadErr)}
    (hc : Call (loopOf d) t e k bytes rs k') (m : Machine) (h : Inv be t m) (hk : keptOf m = k)
    (hcand : m.candidate = [] ∨ m.candidate.head? = some 60) :
    ∃ m', m.parse d bytes e = some m' ∧ Inv be t m' ∧ m'.out = m.out ++ rs.map (resultFor be) ∧ keptOf m' = k' ∧
      (m'.candidate = [] ∨ m'.candidate.head? = some 60) := by
  have ht : t ≠ 60 := fun hh => (lt_ne h) hh.symm
  have hst : ∀ c : Bytes, (c = [] ∨ c.head? = some 60) → (strip t c = [] ∨ (strip t c).head? = some 60) ∧ (strip t c = [] → c = []) := by
    intro c hc
    unfold strip
    by_cases hl : c.getLast? = some t
    · rw [if_pos hl]
      rcases hc with rfl | hc
      · simp at hl
      · match c, hc with
        | [x], hc => simp at hc hl; exact absurd (hl.symm.trans hc) ht
        | x :: y :: z, hc => refine ⟨Or.inr ?_, by simp⟩; simpa using hc
    · rw [if_neg hl]; exact ⟨hc, id⟩
  subst hk
  cases hc with
  | messages ms rest hm hr =>
    obtain ⟨gs, g1, g2⟩ := groups_of_frames ht ms hm
    obtain ⟨m', a1, a2, a3, a4, a5⟩ := parse_groups d e gs rest g1 hr m h
    have hbytes : framed t ms = gs.flatten.flatten := by
      rw [flatten_flatten, g2, framed, List.flatMap_def]
    have hmap : (gs.map fun g => pmsg be (strip t g.flatten)) = (ms.map Report.whole).map (resultFor be) := by
      have : (gs.map fun g => pmsg be (strip t g.flatten)) = (gs.map List.flatten).map fun w => pmsg be (strip t w) := by simp
      rw [this, g2, List.map_map, List.map_map]
      apply List.map_congr_left
      intro m _
      simp only [Function.comp, strip_frame]
      rfl
    have hlast : ((gs.map List.flatten).getLast?).getD m.candidate = match ms.getLast? with | some x => x ++ [t] | none => m.candidate := by
      rw [g2, List.getLast?_map]
      cases ms.getLast? <;> rfl
    rw [hlast] at a4
    refine ⟨m', by rw [hbytes]; exact a1, a2, ?_, ?_, ?_⟩
    · rw [a3, hmap, tail_eq, pend_again]; simp only [List.map_append]
    · have hkr := kept_rest d e rest m m' a5
      have : keptOf m' = ⟨(keptOf m').message, (keptOf m').rest⟩ := rfl
      rw [this, hkr]
      congr 1
      simp only [keptOf, a4]
      by_cases hx : d.execLast = true ∧ rest.head? = some 60
      · have hx' : (loopOf d).runsRest = true ∧ rest.head? = some 60 := hx
        simp [hx, hx', strip]
      · have hx' : ¬ ((loopOf d).runsRest = true ∧ rest.head? = some 60) := hx
        rw [if_neg hx, if_neg hx']
        cases hg : ms.getLast? with
        | some x =>
          simp only []
          rw [strip_frame]
          have : x ≠ [] := by
            rintro rfl
            have := (hm [] (List.mem_of_getLast? hg)).lt
            simp at this
          rw [if_neg this]
        | none =>
          simp only []
          by_cases hc0 : m.candidate = []
          · simp [hc0, strip]
          · have := (hst m.candidate hcand).2
            rw [if_neg (fun hh => hc0 (this hh)), if_neg hc0]; rfl
    · rw [a4]
      by_cases hx : d.execLast = true ∧ rest.head? = some 60
      · left; simp [hx, strip]
      · rw [if_neg hx]
        cases hg : ms.getLast? with
        | some x =>
          right
          simp only []
          rw [strip_frame]; exact (hm x (List.mem_of_getLast? hg)).lt
        | none => exact (hst m.candidate hcand).1
  | dropped w rest h60 hr =>
    obtain ⟨c1, c2, c3⟩ := chunks_spec t (w ++ [t])
    generalize (chunks t (w ++ [t])).1 = L at *
    generalize hlast : (chunks t (w ++ [t])).2 = last at *
    have hl0 : last = [] := by
      rcases List.eq_nil_or_concat last with rfl | ⟨q, x, rfl⟩
      · rfl
      · rw [List.concat_eq_append, ← List.append_assoc] at c1
        have := (List.append_inj' c1 rfl).2
        simp at this
        simp [this] at c3
    rw [hl0, List.append_nil] at c1
    cases L with
    | nil => simp at c1
    | cons l ls =>
      have hl60 : l.head? ≠ some 60 := by
        obtain ⟨b, rfl, -⟩ := c2 l (by simp)
        rw [c1] at h60
        cases b <;> simpa using h60
      obtain ⟨m', a1, a2, a3, a4, a5⟩ := parse_bad_any d e l ls rest c2 hl60 hr m h
      have hb : w ++ t :: rest = (l :: ls).flatten ++ rest := by rw [← c1]; simp
      refine ⟨m', by rw [hb]; exact a1, a2, ?_, ?_, ?_⟩
      · rw [a3, pend_again]
        cases hs : d.stopOnFail with
        | true => simp only [if_true, stale_eq, List.map_append, loopOf, hs]
        | false => simp only [Bool.false_eq_true, if_false, tail_eq, List.map_append]; simp [loopOf, hs]
      · have hmsg : (keptOf m').message = (keptOf m).message.map (without t) := by
          simp only [keptOf, a4]
          by_cases hc0 : m.candidate = []
          · simp [hc0, strip]
          · have := (hst m.candidate hcand).2
            rw [if_neg (fun hh => hc0 (this hh)), if_neg hc0]; rfl
        have : keptOf m' = ⟨(keptOf m').message, (keptOf m').rest⟩ := rfl
        rw [this, hmsg]
        congr 1
        cases hs : d.stopOnFail with
        | true =>
          rw [hs] at a5
          simp only [if_true, Prod.mk.injEq] at a5
          simp only [keptOf, a5.1, a5.2, loopOf, hs, if_true]
        | false =>
          rw [hs] at a5
          simp only [Bool.false_eq_true, if_false] at a5
          rw [kept_rest d e rest m m' a5]; simp [loopOf, hs]
      · rw [a4]; exact (hst m.candidate hcand).1

/-- every stream is of one of the two shapes -/
theorem call_total (l : Loop) {t : UInt8} (ht : t = 10 ∨ t = 0) (e : ReadErr) (k : Kept ReadErr) (bytes : Bytes) :
    ∃ rs k', Call l t e k bytes rs k' := by
  by_cases h60 : bytes.head? = some 60
  · obtain ⟨ms, rest, h1, h2, h3⟩ : ∃ ms rest, bytes = framed t ms ++ rest ∧ (∀ m ∈ ms, Framable t m) ∧ t ∉ rest := by
      rcases ht with rfl | rfl
      · exact stream_cut [] bytes h60
      · exact stream_cut [.trailer NUL] bytes h60
    rw [h1]
    exact ⟨_, _, .messages k ms rest h2 h3⟩
  · by_cases hmem : t ∈ bytes
    · obtain ⟨c1, c2, c3⟩ := chunks_spec t bytes
      have hne : (chunks t bytes).1 ≠ [] := by
        intro hh
        rw [hh] at c1
        rw [c1] at hmem
        exact c3 (by simpa using hmem)
      obtain ⟨L, x, hx⟩ : ∃ L x, (chunks t bytes).1 = L ++ [x] := by
        rcases List.eq_nil_or_concat (chunks t bytes).1 with h | ⟨L, x, h⟩
        · exact absurd h hne
        · exact ⟨L, x, by rw [h, List.concat_eq_append]⟩
      obtain ⟨body, hb, -⟩ := c2 x (by rw [hx]; simp)
      have hbytes : bytes = (L.flatten ++ body) ++ t :: (chunks t bytes).2 := by
        conv => lhs; rw [c1]
        rw [hx, hb]; simp
      rw [hbytes]
      refine ⟨_, _, .dropped k (L.flatten ++ body) _ ?_ c3⟩
      intro hh
      apply h60
      rw [hbytes]
      generalize L.flatten ++ body = w at *
      cases w <;> simpa using hh
    · have := Call.messages (l := l) (t := t) (e := e) k [] bytes (by simp) hmem
      exact ⟨_, _, this⟩

theorem calls_total (l : Loop) (acts : List (Act ReadErr)) (hacts : ∀ t, Act.trailer t ∈ acts → t = 10 ∨ t = 0)
    {t : UInt8} (ht : t = 10 ∨ t = 0) (k : Kept ReadErr) : ∃ rss, Calls l t k acts rss := by
  induction acts generalizing t k with
  | nil => exact ⟨[], .done t k⟩
  | cons a acts ih =>
    have hacts' : ∀ t, Act.trailer t ∈ acts → t = 10 ∨ t = 0 := fun t h => hacts t (by simp [h])
    cases a with
    | parse bytes e =>
      obtain ⟨rs, k', h⟩ := call_total l ht e k bytes
      obtain ⟨rss, h'⟩ := ih hacts' ht k'
      exact ⟨_, .parse h h'⟩
    | trailer t' =>
      obtain ⟨rss, h'⟩ := ih hacts' (hacts t' (by simp)) k
      exact ⟨_, .trailer h'⟩
    | bestEffort =>
      obtain ⟨rss, h'⟩ := ih hacts' ht k
      exact ⟨_, .bestEffort h'⟩

theorem calls_of_spec {be : Bool} {d : Driver} (acts : List Do) {t : UInt8} {k : Kept ReadErr} {rss : List (List (Report ReadErr))}
    (hc : Calls (loopOf d) t k (acts.flatMap actsOf) rss) (m : Machine) (h : Inv be t m) (hk : keptOf m = k)
    (hcand : m.candidate = [] ∨ m.candidate.head? = some 60) :
    calls d m acts = some (rss.map (List.map (resultFor be))) := by
  induction acts generalizing t k m rss with
  | nil => cases hc; rfl
  | cons a acts ih =>
    cases a with
    | parse bytes e =>
      simp only [List.flatMap_cons, actsOf, List.singleton_append] at hc
      cases hc with
      | parse hc1 hc2 =>
        obtain ⟨m', h1, h2, h3, h4, h5⟩ := call_of_spec hc1 { m with out := [] } ⟨h.tr, h.typ, h.ibe, h.ico⟩ hk hcand
        have := ih hc2 m' h2 h4 h5
        simp only [calls, h1, this, Option.map_some, h3, List.nil_append, List.map_cons]
    | opt o =>
      cases o with
      | bestEffort =>
        simp only [List.flatMap_cons, actsOf, List.singleton_append] at hc
        cases hc with
        | bestEffort hc => exact ih hc (applyOpt m .bestEffort) ⟨h.tr, h.typ, h.ibe, h.ico⟩ hk hcand
      | maxMessageLength n =>
        simp only [List.flatMap_cons, actsOf, List.nil_append] at hc
        exact ih hc m h hk hcand
      | trailer t' =>
        simp only [List.flatMap_cons, actsOf] at hc
        rcases value_iff t' with ⟨hv, rfl⟩ | ⟨hv, rfl⟩ | ⟨hv, h0, h1⟩
        · rw [if_pos rfl] at hc
          cases hc with
          | trailer hc =>
            refine ih hc (applyOpt m (.trailer LF)) ?_ ?_ ?_ <;> simp only [applyOpt, hv]
            · exact ⟨rfl, Or.inl ⟨rfl, rfl⟩, h.ibe, h.ico⟩
            · exact hk
            · exact hcand
        · rw [if_neg (by decide), if_pos rfl] at hc
          cases hc with
          | trailer hc =>
            refine ih hc (applyOpt m (.trailer NUL)) ?_ ?_ ?_ <;> simp only [applyOpt, hv]
            · exact ⟨rfl, Or.inr ⟨rfl, rfl⟩, h.ibe, h.ico⟩
            · exact hk
            · exact hcand
        · rw [if_neg h0, if_neg h1] at hc
          have : applyOpt m (.trailer t') = m := by simp only [applyOpt, hv]
          simp only [calls, this]
          exact ih hc m h hk hcand

theorem actsOf_trailers (acts : List Do) (t : UInt8) (h : Act.trailer t ∈ acts.flatMap actsOf) : t = 10 ∨ t = 0 := by
  obtain ⟨a, -, ha⟩ := List.mem_flatMap.mp h
  cases a with
  | parse b e => simp [actsOf] at ha
  | opt o =>
    cases o with
    | bestEffort => simp [actsOf] at ha
    | maxMessageLength n => simp [actsOf] at ha
    | trailer t' =>
      simp only [actsOf] at ha
      split at ha
      · simp at ha; exact Or.inl ha
      · split at ha
        · simp at ha; exact Or.inr ha
        · simp at ha

end NT

/-- C73: for every sequence of calls of `Parse`, on all streams, and of options applied in between, the results of each call are those of
the specification; for every behaviour of the external loop that the repository leaves open. -/
theorem C73_every_history (d : Driver) (opts : List Opt) (acts : List Do) (rss : List (List Result)) :
    NT.calls d (newParser opts) acts = some rss ↔
      ∃ reports, Calls (NT.loopOf d) (trailerByte opts) {} (acts.flatMap NT.actsOf) reports ∧
        rss = reports.map (List.map (NT.resultFor (NT.isBestEffort opts))) := by
  obtain ⟨hi, h1, h2, h3, h4⟩ := NT.new_inv opts
  have hk : NT.keptOf (newParser opts) = {} := by simp [NT.keptOf, h1, h2]
  have ht : trailerByte opts = 10 ∨ trailerByte opts = 0 := by
    rcases hi.typ with ⟨-, h⟩ | ⟨-, h⟩ <;> simp [h]
  have key : ∀ reports, Calls (NT.loopOf d) (trailerByte opts) {} (acts.flatMap NT.actsOf) reports →
      NT.calls d (newParser opts) acts = some (reports.map (List.map (NT.resultFor (NT.isBestEffort opts)))) :=
    fun reports hr => NT.calls_of_spec acts hr (newParser opts) hi hk (Or.inl h1)
  constructor
  · intro h
    obtain ⟨reports, hr⟩ := NT.calls_total (NT.loopOf d) (acts.flatMap NT.actsOf) (NT.actsOf_trailers acts) ht {}
    refine ⟨reports, hr, ?_⟩
    rw [key reports hr] at h
    exact (Option.some.inj h).symm
  · rintro ⟨reports, hr, rfl⟩
    exact key reports hr

/-- C73: no history panics, and none has two outcomes. -/
theorem C73_one_outcome (d : Driver) (opts : List Opt) (acts : List Do) :
    ∃ rss, NT.calls d (newParser opts) acts = some rss ∧
      ∀ reports, Calls (NT.loopOf d) (trailerByte opts) {} (acts.flatMap NT.actsOf) reports →
        reports.map (List.map (NT.resultFor (NT.isBestEffort opts))) = rss := by
  have ht : trailerByte opts = 10 ∨ trailerByte opts = 0 := by
    rcases (NT.new_inv opts).1.typ with ⟨-, h⟩ | ⟨-, h⟩ <;> simp [h]
  obtain ⟨reports, hr⟩ := NT.calls_total (NT.loopOf d) (acts.flatMap NT.actsOf) (NT.actsOf_trailers acts) ht {}
  refine ⟨_, (C73_every_history d opts acts _).mpr ⟨reports, hr, rfl⟩, ?_⟩
  intro reports' hr'
  have h1 := (C73_every_history d opts acts _).mpr ⟨reports, hr, rfl⟩
  have h2 := (C73_every_history d opts acts _).mpr ⟨reports', hr', rfl⟩
  rw [h1] at h2
  exact (Option.some.inj h2).symm

/-- C73: a message is reported again at the start of every later call, however many there are, even if their streams are empty. -/
theorem C73_repeated_for_ever (d : Driver) (opts : List Opt) (m : Bytes) (hm : Framable (trailerByte opts) m)
    (hlast : m.getLast? ≠ some (trailerByte opts)) (n : Nat) (e : ReadErr) :
    NT.calls d (newParser opts) (.parse (framed (trailerByte opts) [m]) e :: List.replicate n (.parse [] e)) =
      some (List.replicate (n + 1) [NT.alone (NT.isBestEffort opts) m]) := by
  rw [C73_every_history]
  have hw : without (trailerByte opts) m = m := by rw [without, if_neg hlast]
  have step : ∀ n, Calls (NT.loopOf d) (trailerByte opts) (⟨some m, none⟩ : Kept ReadErr)
      ((List.replicate n (Do.parse [] e)).flatMap NT.actsOf) (List.replicate n [.whole m]) := by
    intro n
    induction n with
    | zero => exact .done _ _
    | succ n ih =>
      rw [List.replicate_succ, List.replicate_succ, List.flatMap_cons]
      have hc := Call.messages (l := NT.loopOf d) (t := trailerByte opts) (e := e) ⟨some m, none⟩ [] [] (by simp) (by simp)
      have hr : nextRest (NT.loopOf d) e (⟨some m, none⟩ : Kept ReadErr) [] = none := by simp [nextRest]
      have hl : lastReport (NT.loopOf d) e (⟨some m, none⟩ : Kept ReadErr) [] = [] := by simp [lastReport]
      rw [hr, hl] at hc
      simp [again, framed, hw] at hc
      exact Calls.parse hc ih
  refine ⟨List.replicate (n + 1) [.whole m], ?_, ?_⟩
  · rw [List.flatMap_cons, List.replicate_succ]
    have hc := Call.messages (l := NT.loopOf d) (t := trailerByte opts) (e := e) ({} : Kept ReadErr) [m] []
      (fun x hx => by have : x = m := by simpa using hx
                      rw [this]; exact hm) (by simp)
    have hr : nextRest (NT.loopOf d) e ({} : Kept ReadErr) [] = none := by simp [nextRest]
    have hl : lastReport (NT.loopOf d) e ({} : Kept ReadErr) [] = [] := by simp [lastReport]
    rw [hr, hl] at hc
    simp [again] at hc
    exact Calls.parse hc (step n)
  · rw [List.map_replicate]; rfl

/-- C73: an unterminated rest is reported again by a later call whose stream ends with a trailer, when the loop reports the end of such a
stream with `OnEOF` and not with `OnErr`. -/
theorem C73_rest_repeated (opts : List Opt) (stop run : Bool) (rest : Bytes) (hne : rest ≠ []) (hrest : trailerByte opts ∉ rest)
    (ms : List Bytes) (hms : ∀ m ∈ ms, Framable (trailerByte opts) m) (e e' : ReadErr) :
    NT.calls ⟨stop, run, false⟩ (newParser opts) [.parse rest e, .parse (framed (trailerByte opts) ms) e'] =
      some [[NT.aloneUnterminated (NT.isBestEffort opts) e rest],
        ms.map (NT.alone (NT.isBestEffort opts)) ++ [NT.aloneUnterminated (NT.isBestEffort opts) e rest]] := by
  rw [C73_every_history]
  refine ⟨[[.cut rest e], ms.map .whole ++ [.cut rest e]], ?_, by
    simp only [List.map_cons, List.map_nil, List.map_append, List.map_map]; rfl⟩
  have hc1 := Call.messages (l := NT.loopOf ⟨stop, run, false⟩) (t := trailerByte opts) (e := e) ({} : Kept ReadErr) [] rest (by simp) hrest
  have hc2 := Call.messages (l := NT.loopOf ⟨stop, run, false⟩) (t := trailerByte opts) (e := e') (⟨none, some (rest, e)⟩ : Kept ReadErr) ms []
    hms (by simp)
  simp only [ite_self, List.getLast?_nil, Option.map_none] at hc1
  simp [again, lastReport, nextRest, hne, framed, NT.loopOf] at hc1 hc2
  exact Calls.parse hc1 (Calls.parse hc2 (.done _ _))

/-- a message, an empty stream, another trailer, another stream: the specification and the machine agree on this history, and the first message is
reported three times -/
example : (NT.calls ⟨true, true, false⟩ (newParser []) [.parse (ascii "<1>1 - - - - - -\n") .unexpectedEOF, .parse [] .unexpectedEOF,
      .opt (.trailer NUL), .opt .bestEffort, .parse (ascii "<2>1 - - - - - -") .unexpectedEOF]).map
    (List.map (List.map fun r => (r.msg.bind fun m => m.priority, r.err.isSome))) =
    some [[(some 1, false)], [(some 1, false)], [(some 1, false), (some 2, true)]] := by decide +kernel

example : Framable (trailerByte []) (ascii "<2>1 - - - - - -") ∧ (ascii "<2>1 - - - - - -").getLast? ≠ some (trailerByte []) :=
  ⟨NT.framable_lf.2.1, by decide⟩

end Verif.Props
