import Verif.NonTransparent.Panic

/-! # Listeners that panic: whole calls -/

namespace Verif.NonTransparent
open Verif.Rfc5424 (parse1 parse_eq parse1_eq resultOf descend)

/-- the listener does not panic at any of these results, which it gets after `o` -/
def Calm (stop : Stop) (o rs : List Result) : Prop := ∀ p, p ≠ [] → p <+: rs → stop (o ++ p) = false

/-- the listener panics at the last of `a ++ [r]`, and not before -/
def StopsFirst (stop : Stop) (o a : List Result) (r : Result) : Prop := Calm stop o a ∧ stop (o ++ (a ++ [r])) = true

theorem calm_nil (stop : Stop) (o : List Result) : Calm stop o [] := by
  intro p hp h
  exact absurd (List.prefix_nil.mp h) hp

theorem calm_append {stop : Stop} {o a b : List Result} (h1 : Calm stop o a) (h2 : Calm stop (o ++ a) b) : Calm stop o (a ++ b) := by
  intro p hp h
  rcases Nat.le_total p.length a.length with hl | hl
  · exact h1 p hp (List.prefix_of_prefix_length_le h (List.prefix_append a b) hl)
  · obtain ⟨q, rfl⟩ := List.prefix_of_prefix_length_le (List.prefix_append a b) h hl
    replace h : q <+: b := (List.prefix_append_right_inj a).mp h
    by_cases hq : q = []
    · subst hq
      rw [List.append_nil] at hp ⊢
      exact h1 a hp (List.prefix_refl a)
    · rw [← List.append_assoc]; exact h2 q hq h

theorem calm_one {stop : Stop} {o : List Result} {r : Result} (h : stop (o ++ [r]) = false) : Calm stop o [r] := by
  intro p hp hpre
  obtain ⟨q, hq⟩ := hpre
  cases p with
  | nil => exact absurd rfl hp
  | cons x xs =>
    simp only [List.cons_append, List.cons.injEq, List.append_eq_nil_iff] at hq
    rw [hq.1, hq.2.1]; exact h

theorem stopsFirst_append {stop : Stop} {o a b : List Result} {r : Result} (h1 : Calm stop o a) (h2 : StopsFirst stop (o ++ a) b r) :
    StopsFirst stop o (a ++ b) r := by
  refine ⟨calm_append h1 h2.1, ?_⟩
  have := h2.2
  rw [List.append_assoc] at this
  rw [List.append_assoc]; exact this

section
variable {stop : Stop} {be : Bool} {t : UInt8}

/-- the texts that are parsed -/
def texts (c : Bytes) (gs : List (List Bytes)) : List Bytes := (if c = [] then [] else [c]) ++ gs.map List.flatten

/-- the result of a text -/
def res (be : Bool) (t : UInt8) (w : Bytes) : Result := pmsg be (strip t w)

theorem driveP_more (d : Driver) (e : ReadErr) (last : Bytes) (ls more : List Bytes)
    (hl : ∀ l ∈ ls, IsLine t l ∧ l.head? ≠ some 60) (m : Machine) (h : Inv be t m) :
    ∃ m', driveP stop d e last (ls ++ more) 3 m = driveP stop d e last more 3 m' ∧
      drive d e last (ls ++ more) 3 m = drive d e last more 3 m' ∧ Inv be t m' ∧ m'.out = m.out ∧
      m'.candidate = m.candidate ++ ls.flatten ∧ m'.readError = m.readError ∧ m'.lastChunk = m.lastChunk := by
  induction ls generalizing m with
  | nil => exact ⟨m, rfl, rfl, h, rfl, by simp, rfl, rfl⟩
  | cons l ls ih =>
    have hx := exec_more h (hl l (by simp)).1 (hl l (by simp)).2
    have hx' := execP_more (stop := stop) h (hl l (by simp)).1 (hl l (by simp)).2
    rw [hx] at hx'
    obtain ⟨m', h1, h1', h2, h3, h4, h5, h6⟩ := ih (fun x hx => hl x (by simp [hx])) { m with candidate := m.candidate ++ l }
      ⟨h.tr, h.typ, h.ibe, h.ico⟩
    refine ⟨m', ?_, ?_, h2, h3, by rw [h4]; simp, h5, h6⟩
    · simp only [List.cons_append, driveP, hx', Ran.of]
      simp only [Bool.true_eq_false, false_and, if_false]
      exact h1
    · simp only [List.cons_append, drive, hx]
      simp only [Bool.true_eq_false, false_and, if_false]
      exact h1'

/-- the loop over lines: a panic at a text that is not the last one, or all but the last are emitted -/
theorem driveP_groups (d : Driver) (e : ReadErr) (last : Bytes) (gs : List (List Bytes))
    (hg : ∀ g ∈ gs, IsGroup t g) (cs : Nat) (hcs : cs = 1 ∨ cs = 3) (m : Machine) (h : Inv be t m) :
    (∃ a w b y, texts m.candidate gs = a ++ w :: b ∧ b ≠ [] ∧ StopsFirst stop m.out (a.map (res be t)) (res be t w) ∧
      driveP stop d e last gs.flatten cs m = .panic y ∧ Inv be t y ∧ y.out = m.out ++ (a ++ [w]).map (res be t) ∧
      y.candidate = strip t w ∧ y.readError = m.readError ∧ y.lastChunk = m.lastChunk) ∨
    (∃ cs' m', Calm stop m.out ((texts m.candidate gs).dropLast.map (res be t)) ∧
      driveP stop d e last gs.flatten cs m = driveP stop d e last [] cs' m' ∧ drive d e last gs.flatten cs m = drive d e last [] cs' m' ∧
      (cs' = 1 ∨ cs' = 3) ∧ Inv be t m' ∧ m'.out = m.out ++ (texts m.candidate gs).dropLast.map (res be t) ∧
      m'.candidate = (texts m.candidate gs).getLast?.getD [] ∧ m'.readError = m.readError ∧ m'.lastChunk = m.lastChunk) := by
  induction gs generalizing cs m with
  | nil =>
    right
    refine ⟨cs, m, ?_, rfl, rfl, hcs, h, ?_, ?_, rfl, rfl⟩
    · have : (texts m.candidate []).dropLast = [] := by unfold texts; split <;> simp
      rw [this]; exact calm_nil _ _
    · have : (texts m.candidate []).dropLast = [] := by unfold texts; split <;> simp
      rw [this]; simp
    · unfold texts; split <;> simp_all
  | cons g gs ih =>
    have hgg := hg g (by simp)
    obtain ⟨l, ls, rfl, h60, hls⟩ := hgg.first
    obtain ⟨p1, p2⟩ := execP_new (stop := stop) h (hgg.lines l (by simp)) h60 cs hcs
    have hne : (l :: ls).flatten ≠ [] := by
      cases l with
      | nil => simp at h60
      | cons x y => simp
    by_cases hstop : stopsAt stop be t m
    · obtain ⟨i, q1, q2⟩ := p1 hstop
      left
      refine ⟨[], m.candidate, (l :: ls).flatten :: gs.map List.flatten, _, ?_, by simp, ⟨calm_nil _ _, hstop.2⟩, ?_, q2, rfl, rfl, rfl, rfl⟩
      · simp [texts, hstop.1]
      · rw [List.flatten_cons, List.cons_append, driveP, q1]
    · have hx := p2 hstop
      obtain ⟨m1, a1, a2, a3, a4, a5, a6⟩ := exec_new h (hgg.lines l (by simp)) h60 cs hcs
      rw [a1] at hx
      obtain ⟨m2, b1, b1', b2, b3, b4, b5, b6⟩ := driveP_more (stop := stop) d e last ls gs.flatten
        (fun x hx => ⟨hgg.lines x (by simp [hx]), hls x hx⟩) m1 a2
      have hcand : m2.candidate = (l :: ls).flatten := by rw [b4, a3]; rfl
      have hP : driveP stop d e last (((l :: ls) :: gs).flatten) cs m = driveP stop d e last gs.flatten 3 m2 := by
        rw [List.flatten_cons, List.cons_append, driveP, hx]
        simp only [Ran.of, Bool.true_eq_false, false_and, if_false]
        exact b1
      have hD : drive d e last (((l :: ls) :: gs).flatten) cs m = drive d e last gs.flatten 3 m2 := by
        rw [List.flatten_cons, List.cons_append, drive, a1]
        simp only [Bool.true_eq_false, false_and, if_false]
        exact b1'
      have ht2 : texts m2.candidate gs = (l :: ls).flatten :: gs.map List.flatten := by
        simp only [texts, hcand, if_neg hne]; rfl
      have hout : m2.out = m.out ++ (if m.candidate = [] then [] else [m.candidate]).map (res be t) := by
        rw [b3, a4]; unfold pend; split <;> simp [res]
      have ht1 : texts m.candidate ((l :: ls) :: gs) = (if m.candidate = [] then [] else [m.candidate]) ++ texts m2.candidate gs := by
        rw [ht2]; rfl
      have hcalm : Calm stop m.out ((if m.candidate = [] then [] else [m.candidate]).map (res be t)) := by
        by_cases hc : m.candidate = []
        · rw [if_pos hc]; exact calm_nil _ _
        · rw [if_neg hc]
          apply calm_one
          cases hs : stop (m.out ++ [res be t m.candidate]) with
          | false => rfl
          | true => exact absurd ⟨hc, hs⟩ hstop
      generalize (if m.candidate = [] then [] else [m.candidate]) = pre at *
      have htne : texts m2.candidate gs ≠ [] := by rw [ht2]; simp
      rcases ih (fun g hg' => hg g (by simp [hg'])) 3 (Or.inr rfl) m2 b2 with
        ⟨a, w, b, y, c1, c2, c3, c4, c5, c6, c7, c8, c9⟩ | ⟨cs', m3, c0, c1, c1', c2, c3, c4, c5, c6, c7⟩
      · left
        refine ⟨pre ++ a, w, b, y, by rw [ht1, c1]; simp, c2, ?_, by rw [hP, c4], c5, ?_, c7, by rw [c8, b5, a5], by rw [c9, b6, a6]⟩
        · rw [hout] at c3
          rw [List.map_append]
          exact stopsFirst_append hcalm c3
        · rw [c6, hout]; simp
      · right
        refine ⟨cs', m3, ?_, by rw [hP, c1], by rw [hD, c1'], c2, c3, ?_, ?_, by rw [c6, b5, a5], by rw [c7, b6, a6]⟩
        · rw [ht1, List.dropLast_append_of_ne_nil htne, List.map_append]
          rw [hout] at c0
          exact calm_append hcalm c0
        · rw [ht1, List.dropLast_append_of_ne_nil htne, List.map_append, c4, hout]; simp
        · rw [c5, ht1, List.getLast?_append]
          cases hh : (texts m2.candidate gs).getLast? with
          | none => simp at hh; exact absurd hh htne
          | some x => rfl

/-- the results of `OnCompletion`: of the candidate, and of the last chunk -/
theorem onCompletionP_spec {m : Machine} (h : Inv be t m) :
    (stopsAt stop be t m → ∃ i, m.onCompletionP stop = .panic (leftAt be t m i) ∧ Inv be t (leftAt be t m i)) ∧
    (¬ stopsAt stop be t m → ∃ m', m.onCompletion = some m' ∧ Inv be t m' ∧ m'.candidate = strip t m.candidate ∧
      m'.readError = m.readError ∧ m'.lastChunk = m.lastChunk ∧
      m'.out = m.out ++ (pend be t m.candidate ++ staleRes be m.readError m.lastChunk) ∧
      m.onCompletionP stop = (if staleRes be m.readError m.lastChunk ≠ [] ∧ stop m'.out = true then .panic m' else .ok m')) := by
  have h1 : ¬ stopsAt stop be t m → ∃ m1, (if m.candidate.length > 0 then m.process else some m) = some m1 ∧
      (if m.candidate.length > 0 then m.processP stop else .ok m) = .ok m1 ∧ Inv be t m1 ∧
      m1.out = m.out ++ pend be t m.candidate ∧ m1.candidate = strip t m.candidate ∧ m1.readError = m.readError ∧
      m1.lastChunk = m.lastChunk := by
    intro hs
    by_cases hc : m.candidate = []
    · exact ⟨m, by simp [hc], by simp [hc], h, by simp [pend, hc], by simp [hc, strip], rfl, rfl⟩
    · obtain ⟨i, a1, a2, a3, a4⟩ := processP_spec (stop := stop) h hc
      have hpos : m.candidate.length > 0 := List.length_pos_iff.mpr hc
      have : ¬ stop (m.out ++ [pmsg be (strip t m.candidate)]) = true := fun h' => hs ⟨hc, h'⟩
      rw [if_neg this] at a1
      exact ⟨leftAt be t m i, by rw [if_pos hpos, a2], by rw [if_pos hpos, a1], leftAt_inv h a3 a4, by simp [pend, hc, leftAt], rfl, rfl, rfl⟩
  constructor
  · intro hs
    obtain ⟨i, a1, a2, a3, a4⟩ := processP_spec (stop := stop) h hs.1
    have hpos : m.candidate.length > 0 := List.length_pos_iff.mpr hs.1
    rw [if_pos hs.2] at a1
    exact ⟨i, by rw [Machine.onCompletionP, if_pos hpos, a1], leftAt_inv h a3 a4⟩
  · intro hs
    obtain ⟨m1, b1, b2, b3, b4, b5, b6, b7⟩ := h1 hs
    simp only [Machine.onCompletion, Machine.onCompletionP, b1, b2]
    rw [b6, b7]
    cases hre : m.readError with
    | none => exact ⟨m1, rfl, b3, b5, by rw [b6, hre], b7, by simp [b4, staleRes], by simp [staleRes]⟩
    | some re =>
      simp only []
      by_cases hlc : m.lastChunk = []
      · exact ⟨m1, by simp [hlc], b3, b5, by rw [b6, hre], b7, by simp [b4, staleRes, hlc], by simp [staleRes, hlc]⟩
      · have hpos : m.lastChunk.length > 0 := List.length_pos_iff.mpr hlc
        obtain ⟨i, e, e1, e2⟩ := parse_eq m1.internal m.lastChunk
        simp only [hpos, if_true, Machine.parseMsg, e, staleRes, hlc, if_false]
        refine ⟨_, rfl, ⟨b3.tr, b3.typ, e1.trans b3.ibe, e2.trans b3.ico⟩, b5, by rw [← hre]; exact b6, b7, ?_, ?_⟩
        · rw [b4, List.append_assoc]
          congr 2
          simp only [plast, pmsg, parse1_eq, b3.ibe, b3.ico]
          cases (resultOf be (descend false m.lastChunk)).err <;> rfl
        · simp [emitP]
          rfl

end
end Verif.NonTransparent
