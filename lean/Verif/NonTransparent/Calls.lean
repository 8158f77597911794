import Verif.NonTransparent.Run

/-! # A call of `Parse` on a stream that does not start with `<`, from any state -/

namespace Verif.NonTransparent

/-- what `OnCompletion` adds for what is left from earlier -/
def staleRes (be : Bool) (re : Option ReadErr) (lc : Bytes) : List Result :=
  match re with
  | none => []
  | some re => if lc = [] then [] else [plast be re lc]

theorem parse_bad_any {be : Bool} {t : UInt8} (d : Driver) (e : ReadErr) (l : Bytes) (ls : List Bytes) (last : Bytes)
    (hl : ∀ x ∈ l :: ls, IsLine t x) (h60 : l.head? ≠ some 60) (hlast : t ∉ last) (m : Machine) (h : Inv be t m) :
    ∃ m', m.parse d ((l :: ls).flatten ++ last) e = some m' ∧ Inv be t m' ∧
      m'.out = m.out ++ (pend be t m.candidate ++
        if d.stopOnFail then staleRes be m.readError m.lastChunk else tailRes be d e last m.readError m.lastChunk) ∧
      m'.candidate = strip t m.candidate ∧
      (m'.readError, m'.lastChunk) =
        (if d.stopOnFail then (m.readError, m.lastChunk)
          else if last ≠ [] then (some e, last) else if d.errOnEmpty then (some e, []) else (m.readError, m.lastChunk)) := by
  simp only [Machine.parse, h.tr, chunks_lines t (l :: ls) last hl hlast]
  simp only [drive, exec_bad m (hl l (by simp)) h60]
  cases hs : d.stopOnFail with
  | true =>
    simp only [and_self, if_true]
    obtain ⟨m2, b1, b2, b3, b4, b5, b6⟩ := onCompletion_spec h
    exact ⟨m2, b1, b2, by rw [b3]; rfl, b4, by rw [b5, b6]⟩
  | false =>
    have hdead : ∀ ls : List Bytes, (∀ l ∈ ls, IsLine t l) → drive d e last ls 0 m = drive d e last [] 0 m := by
      intro ls hls
      induction ls with
      | nil => rfl
      | cons l ls ih =>
        have : l ≠ [] := by obtain ⟨b, rfl, -⟩ := hls l (by simp); simp
        rw [drive_cons d e last _ _ _ _ (exec_dead m this), hs]
        simp only [Bool.false_eq_true, and_false, if_false]
        exact ih (fun x hx => hls x (by simp [hx]))
    simp only [Bool.false_eq_true, and_false, if_false]
    rw [hdead ls (fun x hx => hl x (by simp [hx]))]
    simp only [drive]
    by_cases hla : last = []
    · subst hla
      simp only [if_true]
      cases hd : d.errOnEmpty with
      | true =>
        simp only [if_true]
        obtain ⟨m2, b1, b2, b3, b4, b5, b6⟩ := onCompletion_spec (m := m.onErr [] e) (be := be) (t := t) ⟨h.tr, h.typ, h.ibe, h.ico⟩
        refine ⟨m2, b1, b2, ?_, b4, ?_⟩
        · rw [b3]; simp [Machine.onErr, tailRes, hd]
        · rw [b5, b6]; simp [Machine.onErr]
      | false =>
        simp only [Bool.false_eq_true, if_false]
        obtain ⟨m2, b1, b2, b3, b4, b5, b6⟩ := onCompletion_spec h
        refine ⟨m2, b1, b2, ?_, b4, ?_⟩
        · rw [b3]; simp [tailRes, hd]
        · rw [b5, b6]; simp
    · simp only [hla, if_false]
      obtain ⟨m2, b1, b2, b3, b4, b5, b6⟩ := onCompletion_spec (m := m.onErr last e) (be := be) (t := t) ⟨h.tr, h.typ, h.ibe, h.ico⟩
      have hx : exec last 0 m = some (0, false, m) := exec_dead m hla
      simp only [hx]
      refine ⟨m2, ?_, b2, ?_, b4, ?_⟩
      · cases d.execLast <;> simpa using b1
      · rw [b3]; simp [Machine.onErr, tailRes, hla]
      · rw [b5, b6]; simp [Machine.onErr, hla]

end Verif.NonTransparent
