import Verif.NonTransparent.Run

/-!
# The non-transparent parser while the stream is still open

`feed` is the loop over the chunks (`drive`) without the end of the stream.
-/

namespace Verif.NonTransparent

/-- The loop over the chunks read so far (external, as in `drive`): the state after them, and whether the loop goes on -/
def feed (d : Driver) : List Bytes → Nat → Machine → Option (Nat × Bool × Machine)
  | [], cs, m => some (cs, true, m)
  | c :: rest, cs, m =>
    match exec c cs m with
    | none => none
    | some (cs', ok, m') => if ok = false ∧ d.stopOnFail = true then some (cs', false, m') else feed d rest cs' m'

/-- a prefix of the chunks, then the others and the end -/
theorem drive_feed (d : Driver) (e : ReadErr) (last : Bytes) (a b : List Bytes) (cs : Nat) (m : Machine) :
    drive d e last (a ++ b) cs m =
      match feed d a cs m with
      | none => none
      | some (cs', true, m') => drive d e last b cs' m'
      | some (_, false, m') => some m' := by
  induction a generalizing cs m with
  | nil => rfl
  | cons c a ih =>
    simp only [List.cons_append, drive, feed]
    rcases exec c cs m with _ | ⟨cs', ok, m'⟩
    · rfl
    · simp only []
      split
      · rfl
      · exact ih cs' m'

theorem feed_more {be : Bool} {t : UInt8} (d : Driver) (ls more : List Bytes)
    (hl : ∀ l ∈ ls, IsLine t l ∧ l.head? ≠ some 60) (m : Machine) (h : Inv be t m) :
    ∃ m', feed d (ls ++ more) 3 m = feed d more 3 m' ∧ Inv be t m' ∧ m'.out = m.out ∧ m'.candidate = m.candidate ++ ls.flatten ∧
      m'.readError = m.readError ∧ m'.lastChunk = m.lastChunk := by
  induction ls generalizing m with
  | nil => exact ⟨m, rfl, h, rfl, by simp, rfl, rfl⟩
  | cons l ls ih =>
    have hx := exec_more h (hl l (by simp)).1 (hl l (by simp)).2
    obtain ⟨m', h1, h2, h3, h4, h5, h6⟩ := ih (fun x hx => hl x (by simp [hx])) { m with candidate := m.candidate ++ l }
      ⟨h.tr, h.typ, h.ibe, h.ico⟩
    refine ⟨m', ?_, h2, h3, by rw [h4]; simp, h5, h6⟩
    simp only [List.cons_append, feed, hx]
    simp only [Bool.true_eq_false, false_and, if_false]
    exact h1

theorem feed_groups {be : Bool} {t : UInt8} (d : Driver) (gs : List (List Bytes))
    (hg : ∀ g ∈ gs, IsGroup t g) (cs : Nat) (hcs : cs = 1 ∨ cs = 3) (m : Machine) (h : Inv be t m) :
    ∃ cs' m', feed d gs.flatten cs m = some (cs', true, m') ∧ Inv be t m' ∧
      m'.out ++ pend be t m'.candidate = m.out ++ (pend be t m.candidate ++ gs.map fun g => pmsg be (strip t g.flatten)) ∧
      m'.candidate = ((gs.map List.flatten).getLast?).getD m.candidate ∧ m'.readError = m.readError ∧ m'.lastChunk = m.lastChunk := by
  induction gs generalizing cs m with
  | nil => exact ⟨cs, m, rfl, h, by simp, by simp, rfl, rfl⟩
  | cons g gs ih =>
    have hgg := hg g (by simp)
    obtain ⟨l, ls, rfl, h60, hls⟩ := hgg.first
    obtain ⟨m1, a1, a2, a3, a4, a5, a6⟩ := exec_new h (hgg.lines l (by simp)) h60 cs hcs
    obtain ⟨m2, b1, b2, b3, b4, b5, b6⟩ := feed_more d ls gs.flatten
      (fun x hx => ⟨hgg.lines x (by simp [hx]), hls x hx⟩) m1 a2
    obtain ⟨cs', m3, c1, c3, c4, c5, c6, c7⟩ := ih (fun g hg' => hg g (by simp [hg'])) 3 (Or.inr rfl) m2 b2
    have hcand : m2.candidate = (l :: ls).flatten := by rw [b4, a3]; rfl
    have hne : (l :: ls).flatten ≠ [] := by
      cases l with
      | nil => simp at h60
      | cons x y => simp
    refine ⟨cs', m3, ?_, c3, ?_, ?_, by rw [c6, b5, a5], by rw [c7, b6, a6]⟩
    · rw [List.flatten_cons, List.cons_append, feed, a1]
      simp only [Bool.true_eq_false, false_and, if_false]
      rw [b1, c1]
    · rw [c4, b3, a4, hcand]
      simp only [pend, if_neg hne]
      simp
    · rw [c5, hcand]
      simp only [List.map_cons, List.getLast?_cons, Option.getD_some]

/-- first line wrong: nothing, and nothing will come -/
theorem feed_bad {be : Bool} {t : UInt8} (d : Driver) (l : Bytes) (ls : List Bytes) (hl : ∀ x ∈ l :: ls, IsLine t x)
    (h60 : l.head? ≠ some 60) (m : Machine) (_h : Inv be t m) : ∃ cs', feed d (l :: ls) 1 m = some (cs', !d.stopOnFail, m) := by
  have hdead : d.stopOnFail = false → ∀ ls : List Bytes, (∀ l ∈ ls, IsLine t l) → ∃ cs', feed d ls 0 m = some (cs', true, m) := by
    intro hs ls hls
    induction ls with
    | nil => exact ⟨_, rfl⟩
    | cons l ls ih =>
      have : l ≠ [] := by obtain ⟨b, rfl, -⟩ := hls l (by simp); simp
      rw [feed, exec_dead m this]
      simp only [hs, Bool.false_eq_true, and_false, if_false]
      exact ih (fun x hx => hls x (by simp [hx]))
  simp only [feed, exec_bad m (hl l (by simp)) h60]
  cases hs : d.stopOnFail with
  | true => exact ⟨_, rfl⟩
  | false =>
    simp only [Bool.false_eq_true, and_false, if_false]
    exact hdead hs ls (fun x hx => hl x (by simp [hx]))

/-! ## the listener never loses a result -/

theorem process_out {m m' : Machine} (h : m.process = some m') : m.out <+: m'.out := by
  simp only [Machine.process] at h
  split at h
  · simp at h
  · rename_i lb _
    simp only [Machine.parseMsg] at h
    generalize hq : (if lb = m.trailer then { m with candidate := m.candidate.dropLast } else m) = m1 at h
    have ho : m1.out = m.out := by rw [← hq]; split <;> rfl
    cases hp : Rfc5424.parse m1.internal m1.candidate with
    | none => rw [hp] at h; simp at h
    | some q =>
      rw [hp] at h
      simp only [Option.some.injEq] at h
      rw [← h, ← ho]
      exact List.prefix_append _ _

theorem tr0_out {m m' : Machine} (h : m.tr0 = some m') : m.out <+: m'.out := by
  simp only [Machine.tr0] at h
  split at h
  · split at h
    · simp at h
    · rename_i hp
      simp only [Option.some.injEq] at h
      rw [← h]
      have := process_out hp
      exact this
  · simp only [Option.some.injEq] at h
    rw [← h]
    exact List.prefix_refl _

theorem stepByte_out {data : Bytes} {cs : Nat} {b : UInt8} {m m' : Machine} {cs' : Nat} (h : stepByte data cs b m = some (cs', m')) :
    m.out <+: m'.out := by
  simp only [stepByte] at h
  have htr : ∀ {q : Option Machine}, m.tr0 = q → (q.map fun m => (2, m)) = some (cs', m') → m.out <+: m'.out := by
    intro q hq h
    cases q with
    | none => simp at h
    | some m1 =>
      simp only [Option.map_some, Option.some.injEq, Prod.mk.injEq] at h
      rw [← h.2]
      exact tr0_out hq
  repeat' split at h
  all_goals first
    | exact htr rfl h
    | (simp only [Option.some.injEq, Prod.mk.injEq] at h; rw [← h.2]; exact List.prefix_refl _)

theorem execLoop_out {data : Bytes} (bs : Bytes) (cs : Nat) (m : Machine) {cs' : Nat} {ok : Bool} {m' : Machine}
    (h : execLoop data bs cs m = some (cs', ok, m')) : m.out <+: m'.out := by
  induction bs generalizing cs m with
  | nil =>
    simp only [execLoop, Option.some.injEq, Prod.mk.injEq] at h
    rw [← h.2.2]; exact List.prefix_refl _
  | cons b bs ih =>
    simp only [execLoop] at h
    split at h
    · simp at h
    · rename_i hs
      split at h
      · simp only [Option.some.injEq, Prod.mk.injEq] at h
        rw [← h.2.2]
        exact stepByte_out hs
      · exact (stepByte_out hs).trans (ih _ _ h)

theorem drive_out {d : Driver} {e : ReadErr} {last : Bytes} (ls : List Bytes) (cs : Nat) (m : Machine) {m' : Machine}
    (h : drive d e last ls cs m = some m') : m.out <+: m'.out := by
  induction ls generalizing cs m with
  | nil =>
    simp only [drive] at h
    split at h
    · simp only [Option.some.injEq] at h
      rw [← h]; split <;> exact List.prefix_refl _
    · split at h
      · split at h
        · simp at h
        · rename_i hx
          simp only [Option.some.injEq] at h
          rw [← h]
          have := execLoop_out _ _ _ hx
          exact this
      · simp only [Option.some.injEq] at h
        rw [← h]; exact List.prefix_refl _
  | cons l ls ih =>
    simp only [drive] at h
    split at h
    · simp at h
    · rename_i hx
      have h1 := execLoop_out _ _ _ hx
      split at h
      · simp only [Option.some.injEq] at h
        rw [← h]; exact h1
      · exact h1.trans (ih _ _ h)

theorem onCompletion_out {m m' : Machine} (h : m.onCompletion = some m') : m.out <+: m'.out := by
  have h1 : ∀ m1, (if m.candidate.length > 0 then m.process else some m) = some m1 → m.out <+: m1.out := by
    intro m1 h1
    split at h1
    · exact process_out h1
    · simp only [Option.some.injEq] at h1
      rw [← h1]; exact List.prefix_refl _
  simp only [Machine.onCompletion] at h
  split at h
  · simp at h
  · rename_i m1 hm1
    refine (h1 _ hm1).trans ?_
    split at h
    · split at h
      · simp only [Machine.parseMsg] at h
        cases hp : Rfc5424.parse m1.internal m1.lastChunk with
        | none => rw [hp] at h; simp at h
        | some q =>
          rw [hp] at h
          simp only [Option.some.injEq] at h
          rw [← h]
          exact List.prefix_append _ _
      · simp only [Option.some.injEq] at h
        rw [← h]; exact List.prefix_refl _
    · simp only [Option.some.injEq] at h
      rw [← h]; exact List.prefix_refl _

/-- what has been delivered when only the bytes `x` have come is delivered first, whatever comes then -/
theorem feed_parse {d : Driver} {e : ReadErr} {m m' : Machine} {x y : Bytes} (h : m.parse d (x ++ y) e = some m') :
    ∃ cs go m1, feed d (chunks m.trailer x).1 1 m = some (cs, go, m1) ∧ m1.out <+: m'.out := by
  have hc : ∃ more, (chunks m.trailer (x ++ y)).1 = (chunks m.trailer x).1 ++ more := by
    obtain ⟨h1, h2, h3⟩ := chunks_spec m.trailer x
    obtain ⟨k1, k2, k3⟩ := chunks_spec m.trailer ((chunks m.trailer x).2 ++ y)
    generalize (chunks m.trailer x).1 = L at *
    generalize (chunks m.trailer x).2 = l at *
    rw [h1, List.append_assoc, k1, ← List.append_assoc, ← List.flatten_append]
    rw [chunks_lines]
    · exact ⟨_, rfl⟩
    · intro z hz
      rcases List.mem_append.mp hz with hz | hz
      · exact h2 z hz
      · exact k2 z hz
    · exact k3
  obtain ⟨more, hc⟩ := hc
  simp only [Machine.parse] at h
  split at h
  · simp at h
  · rename_i m2 hd
    rw [hc, drive_feed] at hd
    split at hd
    · simp at hd
    · rename_i cs m1 hf
      exact ⟨cs, true, m1, hf, (drive_out _ _ _ hd).trans (onCompletion_out h)⟩
    · rename_i cs m1 hf
      simp only [Option.some.injEq] at hd
      exact ⟨cs, false, m1, hf, by rw [hd]; exact onCompletion_out h⟩

end Verif.NonTransparent
