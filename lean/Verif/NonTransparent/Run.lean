import Verif.NonTransparent.Model
import Verif.Rfc5424.Wrap

/-! # The non-transparent parser, line by line -/

namespace Verif.NonTransparent
open Verif.Rfc5424 (parse1 parse_eq parse1_eq resultOf descend SyslogMessage)

/-- result of the message parser as the listener sees it -/
def pmsg (be : Bool) (w : Bytes) : Result :=
  match parse1 { bestEffort := be } w with
  | none => {}
  | some r => ⟨r.msg, r.err.map .message⟩

/-- result for a last chunk without trailer -/
def plast (be : Bool) (e : ReadErr) (w : Bytes) : Result :=
  ⟨(pmsg be w).msg, some ((pmsg be w).err.getD (.reading e))⟩

/-- one trailing trailer removed -/
def strip (t : UInt8) (w : Bytes) : Bytes := if w.getLast? = some t then w.dropLast else w

structure Inv (be : Bool) (t : UInt8) (m : Machine) : Prop where
  tr : m.trailer = t
  typ : (m.trailertyp = LF ∧ t = 10) ∨ (m.trailertyp = NUL ∧ t = 0)
  ibe : m.internal.bestEffort = be
  ico : m.internal.compliantMsg = false

theorem widec_trailer {be : Bool} {t : UInt8} {m : Machine} (h : Inv be t m) : next23 (widec m.trailertyp t) = none ∧ widec m.trailertyp t ≠ 60 := by
  rcases h.typ with ⟨h1, h2⟩ | ⟨h1, h2⟩ <;> rw [h1, h2] <;> decide

theorem all_bytes {P : UInt8 → Prop} [DecidablePred P] (h : ∀ n : Fin 256, P (UInt8.ofNat n.val)) : ∀ b, P b := by
  intro b
  have := h ⟨b.toNat, b.toNat_lt⟩
  simpa using this

theorem widec_other {be : Bool} {t : UInt8} {m : Machine} (h : Inv be t m) (b : UInt8) (hb : b ≠ t) :
    next23 (widec m.trailertyp b) = some 2 ∧ (widec m.trailertyp b = 60 ↔ b = 60) := by
  have h1 : ∀ b : UInt8, b ≠ 10 → next23 (widec LF b) = some 2 ∧ (widec LF b = 60 ↔ b = 60) := all_bytes (by decide +kernel)
  have h2 : ∀ b : UInt8, b ≠ 0 → next23 (widec NUL b) = some 2 ∧ (widec NUL b = 60 ↔ b = 60) := all_bytes (by decide +kernel)
  rcases h.typ with ⟨e1, e2⟩ | ⟨e1, e2⟩ <;> rw [e1] <;> rw [e2] at hb
  · exact h1 b hb
  · exact h2 b hb

theorem lt_ne {be : Bool} {t : UInt8} {m : Machine} (h : Inv be t m) : (60 : UInt8) ≠ t := by
  rcases h.typ with ⟨-, e2⟩ | ⟨-, e2⟩ <;> rw [e2] <;> decide

/-- bytes in the middle of a line -/
theorem execLoop_two {be : Bool} {t : UInt8} {m : Machine} (h : Inv be t m) (data body rest : Bytes) (hb : t ∉ body) :
    execLoop data (body ++ rest) 2 m = execLoop data rest 2 m := by
  induction body with
  | nil => rfl
  | cons b body ih =>
    have hbt : b ≠ t := by rintro rfl; simp at hb
    have := (widec_other h b hbt).1
    simp only [List.cons_append, execLoop, stepByte]
    simp only [show (2 : Nat) ≠ 1 by decide, if_false, if_true, this, show (2 : Nat) ≠ 0 by decide]
    exact ih (by intro hh; exact hb (by simp [hh]))

/-- the end of a line -/
theorem execLoop_end {be : Bool} {t : UInt8} {m : Machine} (h : Inv be t m) (data : Bytes) (cs : Nat) (hcs : cs = 2 ∨ cs = 3) :
    execLoop data [t] cs m = some (3, true, { m with candidate := m.candidate ++ data }) := by
  have hw := widec_trailer h
  rcases hcs with rfl | rfl
  · simp [execLoop, stepByte, hw.1]
  · simp [execLoop, stepByte, hw.1, hw.2]

theorem process_spec {be : Bool} {t : UInt8} {m : Machine} (h : Inv be t m) (hc : m.candidate ≠ []) :
    ∃ i, m.process = some { m with candidate := strip t m.candidate, internal := i, out := m.out ++ [pmsg be (strip t m.candidate)] } ∧
      i.bestEffort = be ∧ i.compliantMsg = false := by
  obtain ⟨m', e, e1, e2⟩ := parse_eq m.internal (strip t m.candidate)
  have hp : ∀ w, Rfc5424.parse m.internal w = some (resultOf m.internal.bestEffort (descend m.internal.compliantMsg w), m') →
      (resultOf m.internal.bestEffort (descend m.internal.compliantMsg w)) = (resultOf be (descend false w)) := by
    intro w _; rw [h.ibe, h.ico]
  refine ⟨m', ?_, e1.trans h.ibe, e2.trans h.ico⟩
  obtain ⟨typ, tr, cand, b, i, re, lc, out⟩ := m
  simp only at hc e h
  have htr : tr = t := h.tr
  subst htr
  simp only [Machine.process]
  obtain ⟨l, hl⟩ : ∃ l, cand.getLast? = some l := by
    cases hh : cand.getLast? with
    | none => simp at hh; exact absurd hh hc
    | some l => exact ⟨l, rfl⟩
  simp only [hl]
  by_cases heq : l = tr
  · subst heq
    have hs : strip l cand = cand.dropLast := by rw [strip, if_pos hl]
    rw [hs] at e ⊢
    simp only [if_true, Machine.parseMsg, e, pmsg, parse1_eq, hp _ e]
  · have hs : strip tr cand = cand := by
      rw [strip, if_neg]; rw [hl]; simpa using heq
    rw [hs] at e ⊢
    simp only [if_neg heq, Machine.parseMsg, e, pmsg, parse1_eq, hp _ e]

/-- the result waiting to be emitted -/
def pend (be : Bool) (t : UInt8) (c : Bytes) : List Result := if c = [] then [] else [pmsg be (strip t c)]

theorem tr0_spec {be : Bool} {t : UInt8} {m : Machine} (h : Inv be t m) :
    ∃ m', m.tr0 = some m' ∧ Inv be t m' ∧ m'.candidate = [] ∧ m'.out = m.out ++ pend be t m.candidate ∧
      m'.readError = m.readError ∧ m'.lastChunk = m.lastChunk := by
  by_cases hc : m.candidate = []
  · refine ⟨{ m with candidate := [] }, by simp [Machine.tr0, hc], ⟨h.tr, h.typ, h.ibe, h.ico⟩, rfl, by simp [pend, hc], rfl, rfl⟩
  · obtain ⟨i, h1, h2, h3⟩ := process_spec h hc
    refine ⟨{ m with candidate := [], internal := i, out := m.out ++ [pmsg be (strip t m.candidate)] }, ?_, ?_, ?_, ?_, ?_, ?_⟩
    · have : m.candidate.length > 0 := List.length_pos_iff.mpr hc
      simp only [Machine.tr0, this, if_true, h1]
    · exact ⟨h.tr, h.typ, h2, h3⟩
    · rfl
    · simp [pend, hc]
    · rfl
    · rfl

/-- a line: some bytes, then the trailer -/
def IsLine (t : UInt8) (l : Bytes) : Prop := ∃ body, l = body ++ [t] ∧ t ∉ body

/-- effect of a line starting with `<` -/
theorem exec_new {be : Bool} {t : UInt8} {m : Machine} (h : Inv be t m) {l : Bytes} (hl : IsLine t l) (h60 : l.head? = some 60)
    (cs : Nat) (hcs : cs = 1 ∨ cs = 3) :
    ∃ m', exec l cs m = some (3, true, m') ∧ Inv be t m' ∧ m'.candidate = l ∧ m'.out = m.out ++ pend be t m.candidate ∧
      m'.readError = m.readError ∧ m'.lastChunk = m.lastChunk := by
  obtain ⟨body, rfl, hb⟩ := hl
  obtain ⟨m1, h1, h2, h3, h4, h5, h6⟩ := tr0_spec h
  have hlt := lt_ne h
  obtain ⟨q, rfl⟩ : ∃ q, body = 60 :: q := by
    cases body with
    | nil => simp at h60; exact absurd h60.symm hlt
    | cons c q => simp at h60; exact ⟨q, by rw [h60]⟩
  have hq : t ∉ q := by intro hh; exact hb (by simp [hh])
  have hw := (widec_other h 60 hlt).2.mpr rfl
  have hstep : stepByte (60 :: q ++ [t]) cs 60 m = some (2, m1) := by
    rcases hcs with rfl | rfl <;> simp [stepByte, h1, hw]
  refine ⟨{ m1 with candidate := 60 :: q ++ [t] }, ?_, ⟨h2.tr, h2.typ, h2.ibe, h2.ico⟩, rfl, h4, h5, h6⟩
  rw [exec]
  generalize hd : 60 :: q ++ [t] = data at hstep ⊢
  conv => lhs; arg 2; rw [← hd]
  simp only [List.cons_append, execLoop, hstep, show (2 : Nat) ≠ 0 by decide, if_false]
  rw [execLoop_two h2 _ _ _ hq, execLoop_end h2 _ _ (Or.inl rfl), h3, List.nil_append]

/-- effect of another line after a first one -/
theorem exec_more {be : Bool} {t : UInt8} {m : Machine} (h : Inv be t m) {l : Bytes} (hl : IsLine t l) (h60 : l.head? ≠ some 60) :
    exec l 3 m = some (3, true, { m with candidate := m.candidate ++ l }) := by
  obtain ⟨body, rfl, hb⟩ := hl
  cases body with
  | nil => exact execLoop_end h _ _ (Or.inr rfl)
  | cons c q =>
    have hct : c ≠ t := by rintro rfl; simp at hb
    have hw := widec_other h c hct
    have hc : c ≠ 60 := by simpa using h60
    have hw60 : widec m.trailertyp c ≠ 60 := fun hh => hc (hw.2.mp hh)
    have hq : t ∉ q := by intro hh; exact hb (by simp [hh])
    rw [exec]
    generalize hd : c :: q ++ [t] = data
    conv => lhs; arg 2; rw [← hd]
    simp only [List.cons_append, execLoop, stepByte, show (3 : Nat) ≠ 1 by decide, show (3 : Nat) ≠ 2 by decide, if_false, if_true,
      hw60, hw.1, show (2 : Nat) ≠ 0 by decide]
    rw [execLoop_two h _ _ _ hq, execLoop_end h _ _ (Or.inl rfl)]

/-- a first line that does not start with `<` -/
theorem exec_bad (m : Machine) {t : UInt8} {l : Bytes} (hl : IsLine t l) (h60 : l.head? ≠ some 60) :
    exec l 1 m = some (0, false, m) := by
  obtain ⟨body, rfl, hb⟩ := hl
  cases body with
  | nil =>
    have : t ≠ 60 := by simpa using h60
    simp [exec, execLoop, stepByte, this]
  | cons c q =>
    have : c ≠ 60 := by simpa using h60
    simp [exec, execLoop, stepByte, this]

theorem exec_dead (m : Machine) {l : Bytes} (hl : l ≠ []) : exec l 0 m = some (0, false, m) := by
  cases l with
  | nil => exact absurd rfl hl
  | cons c q => simp [exec, execLoop, stepByte]

/-- an unterminated last chunk given to `Exec` -/
theorem exec_last {be : Bool} {t : UInt8} {m : Machine} (h : Inv be t m) {l : Bytes} (hl : t ∉ l) (hne : l ≠ []) (cs : Nat)
    (hcs : cs = 0 ∨ cs = 1 ∨ cs = 3) :
    ∃ cs' ok m', exec l cs m = some (cs', ok, m') ∧ Inv be t m' ∧
      m'.out ++ pend be t m'.candidate = m.out ++ pend be t m.candidate ∧
      m'.candidate = (if cs ≠ 0 ∧ l.head? = some 60 then [] else m.candidate) ∧
      m'.readError = m.readError ∧ m'.lastChunk = m.lastChunk := by
  obtain ⟨c, q, rfl⟩ : ∃ c q, l = c :: q := by
    cases l with
    | nil => exact absurd rfl hne
    | cons c q => exact ⟨c, q, rfl⟩
  have hct : c ≠ t := by rintro rfl; simp at hl
  have hq : t ∉ q := by intro hh; exact hl (by simp [hh])
  have hw := widec_other h c hct
  by_cases h0 : cs = 0
  · subst h0
    exact ⟨0, false, m, exec_dead m hne, h, rfl, by simp, rfl, rfl⟩
  by_cases hc : c = 60
  · subst hc
    obtain ⟨m1, h1, h2, h3, h4, h5, h6⟩ := tr0_spec h
    have hstep : ∀ d, stepByte d cs 60 m = some (2, m1) := by
      intro d
      rcases hcs with rfl | rfl | rfl <;> simp [stepByte, h1, hw.2.mpr rfl] at h0 ⊢
    refine ⟨2, true, m1, ?_, h2, by rw [h3, h4]; simp [pend], by simp [h0, h3], h5, h6⟩
    simp only [exec, execLoop, hstep, show (2 : Nat) ≠ 0 by decide, if_false]
    have := execLoop_two h2 (60 :: q) q [] hq
    simpa [execLoop] using this
  · have hw60 : widec m.trailertyp c ≠ 60 := fun hh => hc (hw.2.mp hh)
    rcases hcs with rfl | rfl | rfl
    · exact absurd rfl h0
    · exact ⟨0, false, m, by simp [exec, execLoop, stepByte, hc], h, rfl, by simp [hc], rfl, rfl⟩
    · refine ⟨2, true, m, ?_, h, rfl, by simp [hc], rfl, rfl⟩
      simp only [exec, execLoop, stepByte, show (3 : Nat) ≠ 1 by decide, show (3 : Nat) ≠ 2 by decide, if_false, if_true,
        hw60, hw.1, show (2 : Nat) ≠ 0 by decide]
      have := execLoop_two h (c :: q) q [] hq
      simpa [execLoop] using this

/-! ## chunks -/

theorem chunks_line (t : UInt8) (l rest : Bytes) (hl : IsLine t l) :
    chunks t (l ++ rest) = (l :: (chunks t rest).1, (chunks t rest).2) := by
  obtain ⟨body, rfl, hb⟩ := hl
  induction body with
  | nil => simp [chunks]
  | cons c q ih =>
    have hct : c ≠ t := by rintro rfl; simp at hb
    have := ih (by intro hh; exact hb (by simp [hh]))
    simp only [List.cons_append, chunks]
    rw [this]
    simp [hct]

theorem chunks_rest (t : UInt8) (rest : Bytes) (h : t ∉ rest) : chunks t rest = ([], rest) := by
  induction rest with
  | nil => rfl
  | cons c q ih =>
    have hct : c ≠ t := by rintro rfl; simp at h
    simp only [chunks]
    rw [ih (by intro hh; exact h (by simp [hh]))]
    simp [hct]

theorem chunks_lines (t : UInt8) (ls : List Bytes) (rest : Bytes) (hl : ∀ l ∈ ls, IsLine t l) (h : t ∉ rest) :
    chunks t (ls.flatten ++ rest) = (ls, rest) := by
  induction ls with
  | nil => exact chunks_rest t rest h
  | cons l ls ih =>
    rw [List.flatten_cons, List.append_assoc, chunks_line t l _ (hl l (by simp)), ih (fun x hx => hl x (by simp [hx]))]

/-- every stream is a sequence of lines and a rest -/
theorem chunks_spec (t : UInt8) (bytes : Bytes) : bytes = (chunks t bytes).1.flatten ++ (chunks t bytes).2 ∧
    (∀ l ∈ (chunks t bytes).1, IsLine t l) ∧ t ∉ (chunks t bytes).2 := by
  induction bytes with
  | nil => simp [chunks]
  | cons b rest ih =>
    obtain ⟨h1, h2, h3⟩ := ih
    simp only [chunks]
    by_cases hb : b = t
    · subst hb
      simp only [if_true]
      refine ⟨by simp only [List.flatten_cons, List.cons_append, List.nil_append]; rw [← h1], ?_, h3⟩
      intro l hl
      rcases List.mem_cons.mp hl with rfl | hl
      · exact ⟨[], rfl, by simp⟩
      · exact h2 l hl
    · simp only [hb, if_false]
      cases hc : (chunks t rest).1 with
      | nil =>
        rw [hc] at h1
        simp only [List.flatten_nil, List.nil_append] at h1 ⊢
        refine ⟨by rw [← h1], by simp, ?_⟩
        simp only [List.mem_cons, not_or]
        exact ⟨fun hh => hb hh.symm, h3⟩
      | cons c cs =>
        rw [hc] at h1 h2
        simp only []
        refine ⟨by conv => lhs; rw [h1]
                   simp, ?_, h3⟩
        intro l hl
        rcases List.mem_cons.mp hl with rfl | hl
        · obtain ⟨body, rfl, hbody⟩ := h2 c (by simp)
          exact ⟨b :: body, rfl, by simp only [List.mem_cons, not_or]; exact ⟨fun hh => hb hh.symm, hbody⟩⟩
        · exact h2 l (by simp [hl])

/-! ## the loop -/

/-- a group: a line starting with `<` and the lines after it that do not -/
structure IsGroup (t : UInt8) (g : List Bytes) : Prop where
  lines : ∀ l ∈ g, IsLine t l
  first : ∃ l ls, g = l :: ls ∧ l.head? = some 60 ∧ ∀ x ∈ ls, x.head? ≠ some 60

theorem drive_cons (d : Driver) (e : ReadErr) (last c : Bytes) (rest : List Bytes) (cs : Nat) (m : Machine) {cs' : Nat} {ok : Bool}
    {m' : Machine} (h : exec c cs m = some (cs', ok, m')) :
    drive d e last (c :: rest) cs m = if ok = false ∧ d.stopOnFail = true then some m' else drive d e last rest cs' m' := by
  rw [drive, h]

theorem drive_more {be : Bool} {t : UInt8} (d : Driver) (e : ReadErr) (last : Bytes) (ls more : List Bytes)
    (hl : ∀ l ∈ ls, IsLine t l ∧ l.head? ≠ some 60) (m : Machine) (h : Inv be t m) :
    ∃ m', drive d e last (ls ++ more) 3 m = drive d e last more 3 m' ∧ Inv be t m' ∧ m'.out = m.out ∧
      m'.candidate = m.candidate ++ ls.flatten ∧ m'.readError = m.readError ∧ m'.lastChunk = m.lastChunk := by
  induction ls generalizing m with
  | nil => exact ⟨m, rfl, h, rfl, by simp, rfl, rfl⟩
  | cons l ls ih =>
    have hx := exec_more h (hl l (by simp)).1 (hl l (by simp)).2
    obtain ⟨m', h1, h2, h3, h4, h5, h6⟩ := ih (fun x hx => hl x (by simp [hx])) { m with candidate := m.candidate ++ l }
      ⟨h.tr, h.typ, h.ibe, h.ico⟩
    refine ⟨m', ?_, h2, h3, by rw [h4]; simp, h5, h6⟩
    simp only [List.cons_append, drive, hx]
    simp only [Bool.true_eq_false, false_and, if_false]
    exact h1

theorem drive_groups {be : Bool} {t : UInt8} (d : Driver) (e : ReadErr) (last : Bytes) (gs : List (List Bytes))
    (hg : ∀ g ∈ gs, IsGroup t g) (cs : Nat) (hcs : cs = 1 ∨ cs = 3) (m : Machine) (h : Inv be t m) :
    ∃ cs' m', drive d e last gs.flatten cs m = drive d e last [] cs' m' ∧ (cs' = 1 ∨ cs' = 3) ∧ Inv be t m' ∧
      m'.out ++ pend be t m'.candidate = m.out ++ (pend be t m.candidate ++ gs.map fun g => pmsg be (strip t g.flatten)) ∧
      m'.candidate = ((gs.map List.flatten).getLast?).getD m.candidate ∧
      m'.readError = m.readError ∧ m'.lastChunk = m.lastChunk := by
  induction gs generalizing cs m with
  | nil => exact ⟨cs, m, rfl, hcs, h, by simp, by simp, rfl, rfl⟩
  | cons g gs ih =>
    have hgg := hg g (by simp)
    obtain ⟨l, ls, rfl, h60, hls⟩ := hgg.first
    obtain ⟨m1, a1, a2, a3, a4, a5, a6⟩ := exec_new h (hgg.lines l (by simp)) h60 cs hcs
    obtain ⟨m2, b1, b2, b3, b4, b5, b6⟩ := drive_more d e last ls gs.flatten
      (fun x hx => ⟨hgg.lines x (by simp [hx]), hls x hx⟩) m1 a2
    obtain ⟨cs', m3, c1, c2, c3, c4, c5, c6, c7⟩ := ih (fun g hg' => hg g (by simp [hg'])) 3 (Or.inr rfl) m2 b2
    have hcand : m2.candidate = (l :: ls).flatten := by rw [b4, a3]; rfl
    have hne : (l :: ls).flatten ≠ [] := by
      cases l with
      | nil => simp at h60
      | cons x y => simp
    refine ⟨cs', m3, ?_, c2, c3, ?_, ?_, by rw [c6, b5, a5], by rw [c7, b6, a6]⟩
    · rw [List.flatten_cons, List.cons_append]
      rw [drive_cons d e last _ _ _ _ a1]
      simp only [Bool.true_eq_false, false_and, if_false]
      rw [b1, c1]
    · rw [c4, b3, a4, hcand]
      simp only [pend, if_neg hne]
      simp
    · rw [c5, hcand]
      simp only [List.map_cons, List.getLast?_cons, Option.getD_some]

/-- what `OnCompletion` adds for the last chunk -/
def tailRes (be : Bool) (d : Driver) (e : ReadErr) (last : Bytes) (re : Option ReadErr) (lc : Bytes) : List Result :=
  if last ≠ [] then [plast be e last]
  else if d.errOnEmpty then []
  else match re with
    | none => []
    | some re => if lc = [] then [] else [plast be re lc]

theorem onCompletion_spec {be : Bool} {t : UInt8} {m : Machine} (h : Inv be t m) :
    ∃ m', m.onCompletion = some m' ∧ Inv be t m' ∧
      m'.out = m.out ++ (pend be t m.candidate ++ (match m.readError with
        | none => []
        | some re => if m.lastChunk = [] then [] else [plast be re m.lastChunk])) ∧
      m'.candidate = strip t m.candidate ∧ m'.readError = m.readError ∧ m'.lastChunk = m.lastChunk := by
  have h1 : ∃ m1, (if m.candidate.length > 0 then m.process else some m) = some m1 ∧ Inv be t m1 ∧
      m1.out = m.out ++ pend be t m.candidate ∧ m1.candidate = strip t m.candidate ∧ m1.readError = m.readError ∧
      m1.lastChunk = m.lastChunk := by
    by_cases hc : m.candidate = []
    · exact ⟨m, by simp [hc], h, by simp [pend, hc], by simp [hc, strip], rfl, rfl⟩
    · obtain ⟨i, a1, a2, a3⟩ := process_spec h hc
      have : m.candidate.length > 0 := List.length_pos_iff.mpr hc
      refine ⟨{ m with candidate := strip t m.candidate, internal := i, out := m.out ++ [pmsg be (strip t m.candidate)] },
        by rw [if_pos this, a1], ⟨h.tr, h.typ, a2, a3⟩, by simp [pend, hc], rfl, rfl, rfl⟩
  obtain ⟨m1, a1, a2, a3, a4, a5, a6⟩ := h1
  simp only [Machine.onCompletion, a1]
  rw [← a5, ← a6, a5, a6]
  cases hre : m.readError with
  | none => exact ⟨m1, rfl, a2, by simp [a3], a4, by rw [a5, hre], a6⟩
  | some re =>
    simp only []
    by_cases hlc : m.lastChunk = []
    · exact ⟨m1, by simp [hlc], a2, by simp [a3, hlc], a4, by rw [a5, hre], a6⟩
    · have hpos : m.lastChunk.length > 0 := List.length_pos_iff.mpr hlc
      obtain ⟨i, e, e1, e2⟩ := parse_eq m1.internal m.lastChunk
      simp only [hpos, if_true, Machine.parseMsg, e, hlc, if_false]
      refine ⟨_, rfl, ⟨a2.tr, a2.typ, e1.trans a2.ibe, e2.trans a2.ico⟩, ?_, a4, by rw [← hre]; exact a5, a6⟩
      rw [a3, List.append_assoc]
      congr 2
      simp only [plast, pmsg, parse1_eq, a2.ibe, a2.ico]
      cases (resultOf be (descend false m.lastChunk)).err <;> rfl

/-- a whole call of `Parse`, from any state -/
theorem parse_groups {be : Bool} {t : UInt8} (d : Driver) (e : ReadErr) (gs : List (List Bytes)) (last : Bytes)
    (hg : ∀ g ∈ gs, IsGroup t g) (hlast : t ∉ last) (m : Machine) (h : Inv be t m) :
    ∃ m', m.parse d (gs.flatten.flatten ++ last) e = some m' ∧ Inv be t m' ∧
      m'.out = m.out ++ (pend be t m.candidate ++ ((gs.map fun g => pmsg be (strip t g.flatten)) ++
        tailRes be d e last m.readError m.lastChunk)) ∧
      m'.candidate = strip t (if d.execLast = true ∧ last.head? = some 60 then [] else ((gs.map List.flatten).getLast?).getD m.candidate) ∧
      (m'.readError, m'.lastChunk) =
        (if last ≠ [] then (some e, last) else if d.errOnEmpty then (some e, []) else (m.readError, m.lastChunk)) := by
  have hlines : ∀ l ∈ gs.flatten, IsLine t l := by
    intro l hl
    obtain ⟨g, hg', hl⟩ := List.mem_flatten.mp hl
    exact (hg g hg').lines l hl
  obtain ⟨cs', m1, a1, a2, a3, a4, a5, a6, a7⟩ := drive_groups d e last gs hg 1 (Or.inl rfl) m h
  simp only [Machine.parse, h.tr, chunks_lines t gs.flatten last hlines hlast, a1]
  simp only [drive]
  by_cases hl : last = []
  · subst hl
    simp only [if_true]
    cases hd : d.errOnEmpty with
    | true =>
      simp only [if_true]
      obtain ⟨m2, b1, b2, b3, b4, b5, b6⟩ := onCompletion_spec (m := m1.onErr [] e) (be := be) (t := t)
        ⟨a3.tr, a3.typ, a3.ibe, a3.ico⟩
      refine ⟨m2, b1, b2, ?_, ?_, ?_⟩
      · rw [b3]
        simp only [Machine.onErr, if_true, List.append_nil]
        rw [a4]; simp [tailRes, hd]
      · rw [b4]; simp only [Machine.onErr, a5]; simp
      · rw [b5, b6]; simp [Machine.onErr]
    | false =>
      simp only [Bool.false_eq_true, if_false]
      obtain ⟨m2, b1, b2, b3, b4, b5, b6⟩ := onCompletion_spec (m := m1.onEOF []) (be := be) (t := t) a3
      refine ⟨m2, b1, b2, ?_, ?_, ?_⟩
      · rw [b3]
        simp only [Machine.onEOF]
        rw [← List.append_assoc, a4]
        simp only [a6, a7]
        simp [tailRes, hd]
      · rw [b4]; simp only [Machine.onEOF, a5]; simp
      · rw [b5, b6]; simp [Machine.onEOF, a6, a7]
  · simp only [hl, if_false]
    cases hd : d.execLast with
    | true =>
      simp only [if_true]
      obtain ⟨cs2, ok, m2, c1, c2, c3, c4, c5, c6⟩ := exec_last a3 hlast hl cs' (by omega)
      simp only [c1]
      obtain ⟨m3, b1, b2, b3, b4, b5, b6⟩ := onCompletion_spec (m := m2.onErr last e) (be := be) (t := t)
        ⟨c2.tr, c2.typ, c2.ibe, c2.ico⟩
      refine ⟨m3, b1, b2, ?_, ?_, ?_⟩
      · rw [b3]
        simp only [Machine.onErr, hl, if_false]
        rw [← List.append_assoc, c3, a4]
        simp [tailRes, hl]
      · rw [b4]
        simp only [Machine.onErr, c4, a5]
        have : cs' ≠ 0 := by omega
        simp [this]
      · rw [b5, b6]; simp [Machine.onErr, hl]
    | false =>
      simp only [Bool.false_eq_true, if_false]
      obtain ⟨m3, b1, b2, b3, b4, b5, b6⟩ := onCompletion_spec (m := m1.onErr last e) (be := be) (t := t)
        ⟨a3.tr, a3.typ, a3.ibe, a3.ico⟩
      refine ⟨m3, b1, b2, ?_, ?_, ?_⟩
      · rw [b3]
        simp only [Machine.onErr, hl, if_false]
        rw [← List.append_assoc, a4]
        simp [tailRes, hl]
      · rw [b4]
        simp only [Machine.onErr, a5]
        simp
      · rw [b5, b6]; simp [Machine.onErr, hl]

/-- a call of `Parse` on a stream whose first line does not start with `<` -/
theorem parse_bad {be : Bool} {t : UInt8} (d : Driver) (e : ReadErr) (l : Bytes) (ls : List Bytes) (last : Bytes)
    (hl : ∀ x ∈ l :: ls, IsLine t x) (h60 : l.head? ≠ some 60) (hlast : t ∉ last) (m : Machine) (h : Inv be t m)
    (hm : m.candidate = [] ∧ m.readError = none) :
    ∃ m', m.parse d ((l :: ls).flatten ++ last) e = some m' ∧
      m'.out = m.out ++ (if d.stopOnFail = true ∨ last = [] then [] else [plast be e last]) := by
  simp only [Machine.parse, h.tr, chunks_lines t (l :: ls) last hl hlast]
  simp only [drive, exec_bad m (hl l (by simp)) h60]
  by_cases hs : d.stopOnFail = true
  · simp only [hs, and_self, if_true, true_or]
    obtain ⟨m2, b1, b2, b3, -⟩ := onCompletion_spec h
    exact ⟨m2, b1, by rw [b3, hm.1, hm.2]; simp [pend]⟩
  · have hs' : d.stopOnFail = false := by simpa using hs
    have hdead : ∀ ls : List Bytes, (∀ l ∈ ls, IsLine t l) → drive d e last ls 0 m = drive d e last [] 0 m := by
      intro ls hls
      induction ls with
      | nil => rfl
      | cons l ls ih =>
        have : l ≠ [] := by obtain ⟨b, rfl, -⟩ := hls l (by simp); simp
        rw [drive_cons d e last _ _ _ _ (exec_dead m this), hs']
        simp only [Bool.false_eq_true, and_false, if_false]
        exact ih (fun x hx => hls x (by simp [hx]))
    rw [hs']
    simp only [Bool.false_eq_true, and_false, if_false, false_or]
    rw [hdead ls (fun x hx => hl x (by simp [hx]))]
    simp only [drive]
    by_cases hla : last = []
    · subst hla
      simp only [if_true]
      cases d.errOnEmpty with
      | true =>
        simp only [if_true]
        obtain ⟨m2, b1, b2, b3, -⟩ := onCompletion_spec (m := m.onErr [] e) (be := be) (t := t) ⟨h.tr, h.typ, h.ibe, h.ico⟩
        exact ⟨m2, b1, by rw [b3]; simp [Machine.onErr, hm.1, pend]⟩
      | false =>
        simp only [Bool.false_eq_true, if_false]
        obtain ⟨m2, b1, b2, b3, -⟩ := onCompletion_spec h
        exact ⟨m2, b1, by rw [b3, hm.1, hm.2]; simp [pend]⟩
    · simp only [hla, if_false]
      obtain ⟨m2, b1, b2, b3, -⟩ := onCompletion_spec (m := m.onErr last e) (be := be) (t := t) ⟨h.tr, h.typ, h.ibe, h.ico⟩
      have hx : exec last 0 m = some (0, false, m) := exec_dead m hla
      simp only [hx]
      refine ⟨m2, ?_, by rw [b3]; simp [Machine.onErr, hm.1, pend, hla]⟩
      cases d.execLast <;> simpa using b1

end Verif.NonTransparent
