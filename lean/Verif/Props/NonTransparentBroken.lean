import Verif.NonTransparent.Broken
import Verif.Spec.NonTransparentBroken
import Verif.Props.NonTransparentPanic

/-!
# C113: a non-transparent parser whose reader panics

`callsB d p acts` runs a sequence of acts (calls of `Parse` whose listener or whose reader may panic, options applied in between) on one
parser; the caller recovers. Specification: `Verif/Spec/NonTransparentBroken.lean`.
-/

namespace Verif.Props
open NT Verif.Spec Verif.NonTransparent
namespace NT

/-- what a caller can do with a parser: as in C92, or `Parse` on a reader that panics when it has delivered these bytes -/
inductive DoB where
  | parse (bytes : Bytes) (e : ReadErr) (stop : Stop)
  | broken (bytes : Bytes)
  | opt (o : Opt)

/-- what the listener gets in each call of `Parse`, and whether it ends with a panic -/
def callsB (d : Driver) : Machine → List DoB → Option (List (List Result × Bool))
  | _, [] => some []
  | m, .parse bytes e stop :: acts =>
    match Machine.parseP stop d { m with out := [] } bytes e with
    | .crash => none
    | .panic m' => (callsB d m' acts).map ((m'.out, true) :: ·)
    | .ok m' => (callsB d m' acts).map ((m'.out, false) :: ·)
  | m, .broken bytes :: acts =>
    match Machine.parseB d { m with out := [] } bytes with
    | none => none
    | some (p, m') => (callsB d m' acts).map ((m'.out, p) :: ·)
  | m, .opt o :: acts => callsB d (applyOpt m o) acts

/-- an act in the terms of the specification -/
def actsOfB (be : Bool) : DoB → List (BAct ReadErr)
  | .parse bytes e stop => [.parse bytes e fun rs => stop (rs.map (resultFor be))]
  | .broken bytes => [.broken bytes]
  | .opt (.trailer t) => if t = LF then [.trailer 10] else if t = NUL then [.trailer 0] else []
  | .opt .bestEffort => [.bestEffort]
  | .opt (.maxMessageLength _) => []

/-- every stream is of one of the shapes -/
theorem broken_total (l : Loop) {t : UInt8} (ht : t = 10 ∨ t = 0) (k : Kept ReadErr) (bytes : Bytes) :
    ∃ rs k' p, BrokenCall l t k bytes rs k' p := by
  obtain ⟨rs, k', h⟩ := call_total l ht .unexpectedEOF k bytes
  cases h with
  | messages ms rest hm hr => exact ⟨_, _, _, .messages k ms rest hm hr⟩
  | dropped w rest h60 hr =>
    cases hs : l.stops with
    | true => exact ⟨_, _, _, .stopped k w rest h60 hr hs⟩
    | false => exact ⟨_, _, _, .dropped k w rest h60 hr hs⟩

/-- a call on any state, by the specification -/
theorem broken_of_spec {be : Bool} {t : UInt8} {d : Driver} {k k' : Kept ReadErr} {bytes : Bytes} {rs : List (Report ReadErr)} {p : Bool}
    (hc : BrokenCall (loopOf d) t k bytes rs k' p) (m : Machine) (h : Inv be t m) (hk : keptOf m = k) (hcand : Lt m) :
    ∃ m', m.parseB d bytes = some (p, m') ∧ Inv be t m' ∧ m'.out = m.out ++ rs.map (resultFor be) ∧ keptOf m' = k' ∧ Lt m' := by
  have ht : t ≠ 60 := fun hh => (lt_ne h) hh.symm
  have hbad : ∀ w rest : Bytes, (w ++ [t]).head? ≠ some 60 → t ∉ rest → ∃ cs l ls, (∀ x ∈ l :: ls, IsLine t x) ∧
      l.head? ≠ some 60 ∧ w ++ t :: rest = (l :: ls).flatten ++ rest ∧ feed d (chunks m.trailer (w ++ t :: rest)).1 1 m = some (cs, !d.stopOnFail, m) := by
    intro w rest h60 hr
    obtain ⟨c1, c2, c3⟩ := chunks_spec t (w ++ [t])
    generalize (chunks t (w ++ [t])).1 = L at *
    generalize hlast : (chunks t (w ++ [t])).2 = last at *
    have hl0 : last = [] := by
      rcases List.eq_nil_or_concat last with rfl | ⟨q, x, rfl⟩
      · rfl
      · rw [List.concat_eq_append, ← List.append_assoc] at c1
        have := (List.append_inj' c1 rfl).2
        simp at this
        simp [this] at c3
    rw [hl0, List.append_nil] at c1
    cases L with
    | nil => simp at c1
    | cons l ls =>
      have hl60 : l.head? ≠ some 60 := by
        obtain ⟨b, rfl, -⟩ := c2 l (by simp)
        rw [c1] at h60
        cases b <;> simpa using h60
      have hb : w ++ t :: rest = (l :: ls).flatten ++ rest := by rw [← c1]; simp
      obtain ⟨cs, hf⟩ := feed_bad d l ls c2 hl60 m h
      refine ⟨cs, l, ls, c2, hl60, hb, ?_⟩
      rw [hb, h.tr, chunks_lines t (l :: ls) rest c2 hr]
      exact hf
  subst hk
  cases hc with
  | messages ms rest hm hr =>
    obtain ⟨gs, g1, g2⟩ := groups_of_frames ht ms hm
    have hbytes : framed t ms = gs.flatten.flatten := by
      rw [flatten_flatten, g2, framed, List.flatMap_def]
    have hmap : (gs.map fun g => pmsg be (strip t g.flatten)) = (ms.map Report.whole).map (resultFor be) := by
      have : (gs.map fun g => pmsg be (strip t g.flatten)) = (gs.map List.flatten).map fun w => pmsg be (strip t w) := by simp
      rw [this, g2, List.map_map, List.map_map]
      apply List.map_congr_left
      intro m _
      simp only [Function.comp, strip_frame]
      rfl
    have hlines : ∀ l ∈ gs.flatten, IsLine t l := by
      intro l hl
      obtain ⟨g, hg', hl⟩ := List.mem_flatten.mp hl
      exact (g1 g hg').lines l hl
    obtain ⟨cs, m', a1, a2, a3, a4, a5, a6⟩ := feed_groups d gs g1 1 (Or.inl rfl) m h
    have hlast : ((gs.map List.flatten).getLast?).getD m.candidate = match ms.getLast? with | some x => x ++ [t] | none => m.candidate := by
      rw [g2, List.getLast?_map]
      cases ms.getLast? <;> rfl
    rw [hlast] at a4
    have hpb : m.parseB d (framed t ms ++ rest) = some (true, m') := by
      simp only [Machine.parseB, hbytes, h.tr, chunks_lines t gs.flatten rest hlines hr, a1]
    have hrest : (keptOf m').rest = (keptOf m).rest := by simp only [keptOf, a5, a6]
    refine ⟨m', hpb, a2, ?_, ?_, ?_⟩
    · rw [hmap, pend_again be t m, ← List.map_append] at a3
      rcases List.eq_nil_or_concat ms with rfl | ⟨q, x, rfl⟩
      · -- nothing complete
        simp only [List.getLast?_nil] at a4
        rw [a4, pend_again be t m] at a3
        simp only [List.map_nil, List.append_nil] at a3 ⊢
        have : m'.out = m.out := List.append_cancel_right a3
        rw [this]
        simp only [again]
        cases (keptOf m).message <;> simp
      · rw [List.concat_eq_append] at a3 a4 ⊢
        simp only [List.getLast?_append, List.getLast?_singleton, Option.some_or] at a4
        have hne : x ++ [t] ≠ [] := by simp
        rw [a4, pend, if_neg hne, strip_frame] at a3
        simp only [List.map_append, List.map_cons, List.map_nil] at a3
        have a3' : m'.out ++ [resultFor be (.whole x)] =
            (m.out ++ ((again t (keptOf m)).map (resultFor be) ++ (q.map Report.whole).map (resultFor be))) ++ [resultFor be (.whole x)] := by
          simp only [List.append_assoc]
          exact a3
        rw [List.append_cancel_right a3']
        simp only [List.map_append, List.map_cons, List.map_nil]
        rw [← List.append_assoc (again t (keptOf m)), List.dropLast_concat, List.map_append]
    · have : keptOf m' = ⟨(keptOf m').message, (keptOf m').rest⟩ := rfl
      rw [this, hrest]
      congr 1
      simp only [keptOf, a4]
      cases ms.getLast? with
      | none => rfl
      | some x => simp
    · rw [Lt, a4]
      rcases hg : ms.getLast? with _ | x
      · exact hcand
      · right
        have := (hm x (List.mem_of_getLast? hg)).lt
        cases x <;> simp_all
  | dropped w rest h60 hr hs =>
    obtain ⟨cs, l, ls, c1, c2, c3, c4⟩ := hbad w rest h60 hr
    have hs' : d.stopOnFail = false := hs
    rw [hs'] at c4
    exact ⟨m, by simp only [Machine.parseB, c4, Bool.not_false], h, by simp, rfl, hcand⟩
  | stopped w rest h60 hr hs =>
    obtain ⟨cs, l, ls, c1, c2, c3, c4⟩ := hbad w rest h60 hr
    have hs' : d.stopOnFail = true := hs
    rw [hs'] at c4
    obtain ⟨m', a1, a2, a3, a4, a5⟩ := call_of_spec (e := .unexpectedEOF) (Call.dropped (l := loopOf d) (e := .unexpectedEOF) (keptOf m) w rest h60 hr) m h rfl hcand
    rw [hs] at a3 a4
    refine ⟨m', ?_, a2, a3, a4, a5⟩
    have hc : m.onCompletion = some m' := by
      rw [c3] at a1
      simp only [Machine.parse, h.tr, chunks_lines t (l :: ls) rest c1 hr, drive, exec_bad m (c1 l (by simp)) c2, hs', and_self, if_true] at a1
      exact a1
    simp only [Machine.parseB, c4, Bool.not_true, hc, Option.map_some]

/-- the specification leaves no choice for a call -/
theorem broken_unique {t : UInt8} (ht : t ≠ 60) {l : Loop} {k k₁ k₂ : Kept ReadErr} {bytes : Bytes} {r₁ r₂ : List (Report ReadErr)} {p₁ p₂ : Bool}
    (h₁ : BrokenCall l t k bytes r₁ k₁ p₁) (h₂ : BrokenCall l t k bytes r₂ k₂ p₂) : r₁ = r₂ ∧ k₁ = k₂ ∧ p₁ = p₂ := by
  generalize hb : bytes = bytes' at h₂
  cases h₁ with
  | messages ms rest hm hr =>
    cases h₂ with
    | messages ms' rest' hm' hr' =>
      obtain ⟨rfl, rfl⟩ := framed_inj ht ms ms' rest rest' hm hm' hr hr' hb
      exact ⟨rfl, rfl, rfl⟩
    | dropped w rest' h60 hr' hs => exact (not_both hm hr h60 hb).elim
    | stopped w rest' h60 hr' hs => exact (not_both hm hr h60 hb).elim
  | dropped w rest h60 hr hs =>
    cases h₂ with
    | messages ms' rest' hm' hr' => exact (not_both hm' hr' h60 hb.symm).elim
    | dropped w' rest' h60' hr' hs' => exact ⟨rfl, rfl, rfl⟩
    | stopped w' rest' h60' hr' hs' => rw [hs] at hs'; cases hs'
  | stopped w rest h60 hr hs =>
    cases h₂ with
    | messages ms' rest' hm' hr' => exact (not_both hm' hr' h60 hb.symm).elim
    | dropped w' rest' h60' hr' hs' => rw [hs] at hs'; cases hs'
    | stopped w' rest' h60' hr' hs' => exact ⟨rfl, rfl, rfl⟩

/-- the acts on a parser that keeps `k`, by the specification -/
theorem callsB_spec {be : Bool} (d : Driver) (acts : List DoB) {t : UInt8} (m : Machine) (h : Inv be t m) (hl : Lt m) :
    ∃ rss, BCalls (loopOf d) t (keptOf m) (acts.flatMap (actsOfB be)) rss ∧ callsB d m acts = some (rss.map (resultsFor be)) := by
  induction acts generalizing t m with
  | nil => exact ⟨[], .done t _, rfl⟩
  | cons a acts ih =>
    have h0 : Inv be t { m with out := [] } := ⟨h.tr, h.typ, h.ibe, h.ico⟩
    cases a with
    | parse bytes e stop =>
      obtain ⟨reps, k', c1, m', c2, c3, c4, c5, c6, c7⟩ := call_panics stop d e bytes { m with out := [] } h0 hl
      rcases c7 with ⟨c7, c8⟩ | ⟨a, r, b, y, c7, c8, c9, c10, c11, c12, c13⟩
      · obtain ⟨rss, i1, i2⟩ := ih m' c4 c5
        refine ⟨(reps, false) :: rss, ?_, ?_⟩
        · exact .returns (c3 ▸ c1) (noPanic_iff.mpr c7) i1
        · simp only [callsB, c8, i2, Option.map_some, c6]
          rfl
      · obtain ⟨rss, i1, i2⟩ := ih y c11 c12
        refine ⟨(a ++ [r], true) :: rss, ?_, ?_⟩
        · refine .panics c8 (noPanic_iff.mpr c9.1) ?_ i1
          have := c9.2
          simpa using this
        · simp only [callsB, c10, i2, Option.map_some, c13]
          rfl
    | broken bytes =>
      have ht2 : t = 10 ∨ t = 0 := by rcases h.typ with ⟨-, h⟩ | ⟨-, h⟩ <;> simp [h]
      obtain ⟨rs, k', p, hc⟩ := broken_total (loopOf d) ht2 (keptOf m) bytes
      obtain ⟨m', c1, c2, c3, c4, c5⟩ := broken_of_spec hc { m with out := [] } h0 rfl hl
      obtain ⟨rss, i1, i2⟩ := ih m' c2 c5
      refine ⟨(rs, p) :: rss, .broken hc (c4 ▸ i1), ?_⟩
      simp only [callsB, c1, i2, Option.map_some, c3]
      rfl
    | opt o =>
      cases o with
      | bestEffort =>
        obtain ⟨rss, i1, i2⟩ := ih (applyOpt m .bestEffort) (t := t) ⟨h.tr, h.typ, h.ibe, h.ico⟩ hl
        exact ⟨rss, .bestEffort i1, i2⟩
      | maxMessageLength n => exact ih m h hl
      | trailer t' =>
        simp only [List.flatMap_cons, actsOfB]
        rcases value_iff t' with ⟨hv, rfl⟩ | ⟨hv, rfl⟩ | ⟨hv, h0, h1⟩
        · rw [if_pos rfl]
          obtain ⟨rss, i1, i2⟩ := ih { m with trailer := 10, trailertyp := LF } (t := 10) ⟨rfl, Or.inl ⟨rfl, rfl⟩, h.ibe, h.ico⟩ hl
          exact ⟨rss, .trailer i1, by rw [← i2]; simp only [callsB, applyOpt, hv]⟩
        · rw [if_neg (by decide), if_pos rfl]
          obtain ⟨rss, i1, i2⟩ := ih { m with trailer := 0, trailertyp := NUL } (t := 0) ⟨rfl, Or.inr ⟨rfl, rfl⟩, h.ibe, h.ico⟩ hl
          exact ⟨rss, .trailer i1, by rw [← i2]; simp only [callsB, applyOpt, hv]⟩
        · rw [if_neg h0, if_neg h1]
          obtain ⟨rss, i1, i2⟩ := ih m h hl
          exact ⟨rss, i1, by rw [← i2]; simp only [callsB, applyOpt, hv]⟩

/-- the specification leaves no choice -/
theorem bcalls_unique {l : Loop} {acts : List (BAct ReadErr)} (hacts : ∀ t, BAct.trailer t ∈ acts → t ≠ 60) {t : UInt8} (ht : t ≠ 60)
    {k : Kept ReadErr} {r₁ r₂ : List (List (Report ReadErr) × Bool)} (h₁ : BCalls l t k acts r₁) (h₂ : BCalls l t k acts r₂) : r₁ = r₂ := by
  induction h₁ generalizing r₂ with
  | done t k => cases h₂; rfl
  | @returns t k k' bytes e stop rs acts rss c1 c2 _ ih =>
    have hacts' : ∀ t, BAct.trailer t ∈ acts → t ≠ 60 := fun t h => hacts t (by simp [h])
    cases h₂ with
    | returns d1 d2 d3 =>
      obtain ⟨rfl, rfl⟩ := call_unique ht c1 d1
      rw [ih hacts' ht d3]
    | @panics _ _ k'' _ _ _ rs' r _ rss' d1 d2 d3 d4 =>
      obtain ⟨more, k3, d5⟩ := panic_prefix d1
      obtain ⟨rfl, -⟩ := call_unique ht c1 d5
      rw [c2 _ (by simp) (List.prefix_append _ _)] at d3
      cases d3
  | @panics t k k' bytes e stop rs r acts rss c1 c2 c3 _ ih =>
    have hacts' : ∀ t, BAct.trailer t ∈ acts → t ≠ 60 := fun t h => hacts t (by simp [h])
    cases h₂ with
    | returns d1 d2 d3 =>
      obtain ⟨more, k3, d5⟩ := panic_prefix c1
      obtain ⟨rfl, -⟩ := call_unique ht d1 d5
      rw [d2 _ (by simp) (List.prefix_append _ _)] at c3
      cases c3
    | @panics _ _ k'' _ _ _ rs' r' _ rss' d1 d2 d3 d4 =>
      obtain ⟨more, k3, d5⟩ := panic_prefix d1
      obtain ⟨more', k4, c5⟩ := panic_prefix c1
      have hh := (call_unique ht c5 d5).1
      obtain ⟨rfl, rfl⟩ := firstStop_unique hh c2 c3 d2 d3
      have := panic_unique ht c1 d1
      subst this
      rw [ih hacts' ht d4]
  | broken c1 _ ih =>
    have hacts' : ∀ t, BAct.trailer t ∈ _ → t ≠ 60 := fun t h => hacts t (List.mem_cons_of_mem _ h)
    cases h₂ with
    | broken d1 d2 =>
      obtain ⟨rfl, rfl, rfl⟩ := broken_unique ht c1 d1
      rw [ih hacts' ht d2]
  | trailer _ ih =>
    cases h₂ with
    | trailer d1 => exact ih (fun t h => hacts t (by simp [h])) (hacts _ (by simp)) d1
  | bestEffort _ ih =>
    cases h₂ with
    | bestEffort d1 => exact ih (fun t h => hacts t (by simp [h])) ht d1

theorem actsOfB_trailers {be : Bool} (acts : List DoB) (t : UInt8) (h : BAct.trailer t ∈ acts.flatMap (actsOfB be)) : t ≠ 60 := by
  obtain ⟨a, -, ha⟩ := List.mem_flatMap.mp h
  cases a with
  | parse bytes e stop => simp [actsOfB] at ha
  | broken bytes => simp [actsOfB] at ha
  | opt o =>
    cases o with
    | bestEffort => simp [actsOfB] at ha
    | maxMessageLength n => simp [actsOfB] at ha
    | trailer t' =>
      simp only [actsOfB] at ha
      split at ha
      · simp at ha; rw [ha]; decide
      · split at ha
        · simp at ha; rw [ha]; decide
        · simp at ha

end NT

/-- C113: for every sequence of calls of `Parse`, with listeners and readers that panic at any points (and callers that recover), and of
options applied in between, the listener gets what the specification says. -/
theorem C113_every_history (d : Driver) (opts : List Opt) (acts : List DoB) (rss : List (List Result × Bool)) :
    NT.callsB d (newParser opts) acts = some rss ↔
      ∃ reports, BCalls (NT.loopOf d) (trailerByte opts) {} (acts.flatMap (NT.actsOfB (NT.isBestEffort opts))) reports ∧
        rss = reports.map (NT.resultsFor (NT.isBestEffort opts)) := by
  obtain ⟨hi, h1, h2, h3, h4⟩ := NT.new_inv opts
  have hk : NT.keptOf (newParser opts) = {} := by simp [NT.keptOf, h1, h2]
  have ht : trailerByte opts ≠ 60 := by
    rcases hi.typ with ⟨-, h⟩ | ⟨-, h⟩ <;> rw [h] <;> decide
  obtain ⟨reports, c1, c2⟩ := NT.callsB_spec d acts (newParser opts) hi (Or.inl h1)
  rw [hk] at c1
  rw [c2]
  constructor
  · intro h
    exact ⟨reports, c1, (Option.some.inj h).symm⟩
  · rintro ⟨reports', c1', rfl⟩
    rw [NT.bcalls_unique (NT.actsOfB_trailers acts) ht c1 c1']

/-- C113: a history without panics of readers gives what C92 says. -/
theorem C113_without_panic (d : Driver) (opts : List Opt) (acts : List DoP) :
    NT.callsB d (newParser opts) (acts.map fun a => match a with
      | .parse b e s => .parse b e s
      | .opt o => .opt o) = NT.callsP d (newParser opts) acts := by
  generalize newParser opts = m
  induction acts generalizing m with
  | nil => rfl
  | cons a acts ih =>
    cases a with
    | parse b e s =>
      simp only [List.map_cons, NT.callsB, NT.callsP]
      cases Machine.parseP s d { m with out := [] } b e <;> simp only [ih]
    | opt o => exact ih _

/-- C113: in every history, what the listener has got when the reader panics is the beginning of what it would have got if the reader had
gone on instead, in any way. -/
theorem C113_prefix (d : Driver) (opts : List Opt) (acts : List DoB) (x y : Bytes) (e : ReadErr) :
    ∃ before got more p, NT.callsB d (newParser opts) (acts ++ [.broken x]) = some (before ++ [(got, p)]) ∧
      NT.callsB d (newParser opts) (acts ++ [.parse (x ++ y) e fun _ => false]) = some (before ++ [(got ++ more, false)]) := by
  obtain ⟨hi, h1, -⟩ := NT.new_inv opts
  have key : ∀ (acts : List DoB) {be : Bool} {t : UInt8} (m : Machine), Inv be t m → NT.Lt m → ∃ before got more p,
      NT.callsB d m (acts ++ [.broken x]) = some (before ++ [(got, p)]) ∧
      NT.callsB d m (acts ++ [.parse (x ++ y) e fun _ => false]) = some (before ++ [(got ++ more, false)]) := by
    intro acts
    induction acts with
    | nil =>
      intro be t m h hl
      have h0 : Inv be t { m with out := [] } := ⟨h.tr, h.typ, h.ibe, h.ico⟩
      obtain ⟨reps, k', c1, m', c2, -⟩ := NT.call_panics (fun _ => false) d e (x ++ y) { m with out := [] } h0 hl
      obtain ⟨p, m1, a1, rest, a2⟩ := parseB_parse c2
      refine ⟨[], m1.out, rest, p, ?_, ?_⟩
      · simp only [List.nil_append, NT.callsB, a1, Option.map_some]
      · simp only [List.nil_append, NT.callsB, parseP_calm, c2, Ran.of, Option.map_some, a2]
    | cons a acts ih =>
      intro be t m h hl
      have h0 : Inv be t { m with out := [] } := ⟨h.tr, h.typ, h.ibe, h.ico⟩
      cases a with
      | parse b e' s =>
        obtain ⟨reps, k', c1, m', c2, c3, c4, c5, c6, c7⟩ := NT.call_panics s d e' b { m with out := [] } h0 hl
        rcases c7 with ⟨c7, c8⟩ | ⟨a, r, b, z, c7, c8, c9, c10, c11, c12, c13⟩
        · obtain ⟨bf, g, mo, p, i1, i2⟩ := ih m' c4 c5
          exact ⟨(m'.out, false) :: bf, g, mo, p, by simp only [List.cons_append, NT.callsB, c8, i1, Option.map_some],
            by simp only [List.cons_append, NT.callsB, c8, i2, Option.map_some]⟩
        · obtain ⟨bf, g, mo, p, i1, i2⟩ := ih z c11 c12
          exact ⟨(z.out, true) :: bf, g, mo, p, by simp only [List.cons_append, NT.callsB, c10, i1, Option.map_some],
            by simp only [List.cons_append, NT.callsB, c10, i2, Option.map_some]⟩
      | broken b =>
        have ht2 : t = 10 ∨ t = 0 := by rcases h.typ with ⟨-, h⟩ | ⟨-, h⟩ <;> simp [h]
        obtain ⟨rs, k', q, hc⟩ := NT.broken_total (NT.loopOf d) ht2 (NT.keptOf m) b
        obtain ⟨m', c1, c2, c3, c4, c5⟩ := NT.broken_of_spec hc { m with out := [] } h0 rfl hl
        obtain ⟨bf, g, mo, p, i1, i2⟩ := ih m' c2 c5
        exact ⟨(m'.out, q) :: bf, g, mo, p, by simp only [List.cons_append, NT.callsB, c1, i1, Option.map_some],
          by simp only [List.cons_append, NT.callsB, c1, i2, Option.map_some]⟩
      | opt o =>
        cases o with
        | bestEffort => exact ih (applyOpt m .bestEffort) (t := t) ⟨h.tr, h.typ, h.ibe, h.ico⟩ hl
        | maxMessageLength n => exact ih m h hl
        | trailer t' =>
          rcases value_iff t' with ⟨hv, rfl⟩ | ⟨hv, rfl⟩ | ⟨hv, -, -⟩
          · have := ih { m with trailer := 10, trailertyp := LF } (t := 10) ⟨rfl, Or.inl ⟨rfl, rfl⟩, h.ibe, h.ico⟩ hl
            simpa only [List.cons_append, NT.callsB, applyOpt, hv] using this
          · have := ih { m with trailer := 0, trailertyp := NUL } (t := 0) ⟨rfl, Or.inr ⟨rfl, rfl⟩, h.ibe, h.ico⟩ hl
            simpa only [List.cons_append, NT.callsB, applyOpt, hv] using this
          · have := ih m h hl
            simpa only [List.cons_append, NT.callsB, applyOpt, hv] using this
  exact key acts _ hi (Or.inl h1)

/-- C113: no message that had come with its trailer is lost: the last of them, which the listener has not got when the reader panics, is the
first result of the next call. What had come of the next line is lost. -/
theorem C113_next_call (d : Driver) (opts : List Opt) (ms ms' : List Bytes) (m rest : Bytes) (e : ReadErr)
    (hm : ∀ x ∈ ms ++ [m], Framable (trailerByte opts) x) (hr : trailerByte opts ∉ rest) (hms' : ∀ x ∈ ms', Framable (trailerByte opts) x) :
    NT.callsB d (newParser opts)
        [.broken (framed (trailerByte opts) (ms ++ [m]) ++ rest), .parse (framed (trailerByte opts) ms') e fun _ => false] =
      some [(ms.map (NT.alone (NT.isBestEffort opts)), true), ((m :: ms').map (NT.alone (NT.isBestEffort opts)), false)] := by
  rw [C113_every_history]
  refine ⟨[(ms.map Report.whole, true), ((m :: ms').map Report.whole, false)], ?_, by
    simp only [List.map_cons, List.map_nil, NT.resultsFor, List.map_map]; rfl⟩
  have hb := BrokenCall.messages (l := NT.loopOf d) (t := trailerByte opts) ({} : Kept ReadErr) (ms ++ [m]) rest hm hr
  simp only [again, Option.map_none, Option.toList_none, List.nil_append, List.map_append, List.map_cons, List.map_nil, List.dropLast_concat,
    List.getLast?_append, List.getLast?_singleton, Option.some_or] at hb
  have hc := Call.messages (l := NT.loopOf d) (t := trailerByte opts) (e := e) (⟨some (m ++ [trailerByte opts]), none⟩ : Kept ReadErr) ms' [] hms' (by simp)
  have hl : lastReport (NT.loopOf d) e (⟨some (m ++ [trailerByte opts]), none⟩ : Kept ReadErr) [] = [] := by simp [lastReport]
  have hw : without (trailerByte opts) (m ++ [trailerByte opts]) = m := NT.strip_frame _ _
  rw [hl, List.append_nil, List.append_nil] at hc
  simp only [again, Option.map_some, hw, Option.toList_some, List.cons_append, List.nil_append] at hc
  simp only [List.flatMap_cons, NT.actsOfB, List.flatMap_nil, List.cons_append, List.nil_append]
  exact BCalls.broken hb (BCalls.returns hc (fun _ _ _ => rfl) (.done _ _))

-- the reader panics in the third line; the next stream has one message
example : (NT.callsB ⟨true, true, false⟩ (newParser [])
      [.broken (ascii "<1>1 - - - - - -\n<2>1 - - - - - -\n<3>1 - - -"),
       .parse (ascii "<4>1 - - - - - -\n") .unexpectedEOF fun _ => false]).map
    (List.map fun x => (x.1.map fun r => r.msg.bind fun m => m.priority, x.2)) =
    some [([some 1], true), ([some 2, some 4], false)] := by decide +kernel

-- readers that panic one after the other: the held message stays
example : (NT.callsB ⟨false, true, false⟩ (newParser [])
      [.broken (ascii "<1>1 - - - - - -\n"), .broken (ascii "<3>1"), .broken (ascii "x\n"), .broken (ascii "<5>1 - - - - - -\n<6"),
       .parse [] .unexpectedEOF fun _ => false]).map
    (List.map fun x => (x.1.map fun r => r.msg.bind fun m => m.priority, x.2)) =
    some [([], true), ([], true), ([], true), ([some 1], true), ([some 5], false)] := by decide +kernel

end Verif.Props
