import Verif.Octet.Model
import Verif.Rfc5424.Wrap

/-!
# The octet counting parser as a function of the delivered bytes

`Reader.abs` is what a `bufio.Reader` will still deliver: bytes (`some b`) and errors (`none`), without trailing errors
(at the end errors repeat for ever). `pscan`/`prun` are the scanner and the parser on that list.
-/

namespace Verif.Octet

/-- bytes and errors -/
abbrev Events := List (Option UInt8)

/-- remove trailing errors -/
def trim : Events → Events
  | [] => []
  | none :: l => if trim l = [] then [] else none :: trim l
  | some b :: l => some b :: trim l

/-- what a list of `Read` calls amounts to; `i` is the number of empty reads still tolerated by `fill` -/
def ev : Nat → List Read → Events
  | _, [] => []
  | i, r :: rs =>
    if r.err then r.data.map some ++ none :: ev 100 rs
    else if r.data ≠ [] then r.data.map some ++ ev 100 rs
    else if i ≤ 1 then none :: ev 100 rs
    else ev (i - 1) rs

/-- what a reader will still deliver -/
def Reader.abs (rd : Reader) : Events :=
  trim (rd.q.map some ++ ((if rd.err then [none] else []) ++ ev 100 rd.sched))

theorem trim_somes (q : Bytes) (l : Events) : trim (q.map some ++ l) = q.map some ++ trim l := by
  induction q with
  | nil => rfl
  | cons b q ih => simp [trim, ih]

theorem trim_none (l : Events) : trim (l ++ [none]) = trim l := by
  induction l with
  | nil => rfl
  | cons x l ih => cases x <;> simp [trim, ih]

theorem trim_trim (l : Events) : trim (trim l) = trim l := by
  induction l with
  | nil => rfl
  | cons x l ih =>
    cases x with
    | none =>
      simp only [trim]
      split
      · rfl
      · rename_i h; simp [trim, ih, h]
    | some b => simp [trim, ih]

theorem trim_append (l l' : Events) (h : trim l = trim l') (x : Events) : trim (x ++ l) = trim (x ++ l') := by
  induction x with
  | nil => exact h
  | cons a x ih => cases a <;> simp [trim, ih]

theorem ev_split (i : Nat) (r : Read) (rs : List Read) (n : Nat) (hn : n < r.data.length) :
    ev i (r :: rs) = (r.data.take n).map some ++ ev 100 (⟨r.data.drop n, r.err⟩ :: rs) := by
  have hne : r.data ≠ [] := by intro h; simp [h] at hn
  have hne2 : r.data.drop n ≠ [] := by simp; omega
  simp only [ev, hne, hne2, ne_eq, not_false_eq_true, if_true]
  have e : r.data.map some = (r.data.take n).map some ++ (r.data.drop n).map some := by
    rw [← List.map_append, List.take_append_drop]
  rw [e]
  split <;> rw [List.append_assoc]

/-- what `fill` does to a reader, started with `i` empty reads to go -/
structure FillSpec (i : Nat) (rd rd' : Reader) : Prop where
  abs : trim (rd'.q.map some ++ ((if rd'.err then [none] else []) ++ ev 100 rd'.sched)) = trim (rd.q.map some ++ ev i rd.sched)
  progress : rd'.err = true ∨ rd.q.length < rd'.q.length
  cap : rd'.cap = rd.cap
  last : rd'.last = rd.last
  room : rd'.q.length ≤ rd.cap
  pre : rd.q <+: rd'.q

theorem fillLoop_spec (i : Nat) (q : Bytes) (r0 cap : Nat) (last : Option UInt8) (sched : List Read) (hi : 1 ≤ i) (hc : q.length < cap) :
    FillSpec i ⟨q, r0, cap, false, last, sched⟩ (fillLoop i ⟨q, r0, cap, false, last, sched⟩) := by
  induction i generalizing sched with
  | zero => omega
  | succ i ih =>
    cases sched with
    | nil =>
      have e : fillLoop (i + 1) ⟨q, r0, cap, false, last, []⟩ = ⟨q, r0, cap, true, last, []⟩ := by
        simp [fillLoop, readCall]
      rw [e]
      refine ⟨?_, Or.inl rfl, rfl, rfl, by simp only []; omega, List.prefix_refl _⟩
      simp only [ev, List.append_nil]
      exact trim_none _
    | cons r rs =>
      by_cases hl : r.data.length ≤ cap - q.length
      · cases her : r.err with
        | true =>
          have e : fillLoop (i + 1) ⟨q, r0, cap, false, last, r :: rs⟩ = ⟨q ++ r.data, r0, cap, true, last, rs⟩ := by
            simp [fillLoop, readCall, hl, her]
          rw [e]
          refine ⟨?_, Or.inl rfl, rfl, rfl, by simp; omega, by simp⟩
          simp [ev, her]
        | false =>
          by_cases hd : r.data = []
          · have e : fillLoop (i + 1) ⟨q, r0, cap, false, last, r :: rs⟩ = fillLoop i ⟨q, r0, cap, false, last, rs⟩ := by
              simp [fillLoop, readCall, her, hd]
            rw [e]
            by_cases h1 : i = 0
            · subst h1
              refine ⟨?_, by simp [fillLoop], rfl, rfl, by simp only [fillLoop]; omega, by simp [fillLoop]⟩
              simp [ev, her, hd, fillLoop]
            · have := ih rs (by omega)
              refine ⟨this.abs.trans ?_, this.progress, this.cap, this.last, this.room, this.pre⟩
              rw [ev, her, hd]
              simp only [Bool.false_eq_true, if_false, ne_eq, not_true_eq_false]
              rw [if_neg (by omega), Nat.add_sub_cancel]
          · have e : fillLoop (i + 1) ⟨q, r0, cap, false, last, r :: rs⟩ = ⟨q ++ r.data, r0, cap, false, last, rs⟩ := by
              simp [fillLoop, readCall, hl, her, hd]
            rw [e]
            have hpos := List.length_pos_iff.mpr hd
            refine ⟨?_, Or.inr (by simp; omega), rfl, rfl, by simp; omega, by simp⟩
            simp [ev, her, hd]
      · have hsp : cap - q.length < r.data.length := by omega
        have hne : r.data.take (cap - q.length) ≠ [] := by
          intro h
          have : (r.data.take (cap - q.length)).length = 0 := by rw [h]; rfl
          rw [List.length_take] at this; omega
        have e : fillLoop (i + 1) ⟨q, r0, cap, false, last, r :: rs⟩ =
            ⟨q ++ r.data.take (cap - q.length), r0, cap, false, last, ⟨r.data.drop (cap - q.length), r.err⟩ :: rs⟩ := by
          rw [fillLoop]
          simp only [readCall, hl, if_false]
          rw [if_pos hne]
          simp
        rw [e]
        refine ⟨?_, Or.inr (by simp only [List.length_append, List.length_take]; omega), rfl, rfl,
          by simp only [List.length_append, List.length_take]; omega, by simp⟩
        rw [ev_split _ _ _ _ hsp]
        simp

theorem fill_spec (rd : Reader) (hc : rd.q.length < rd.cap) (he : rd.err = false) :
    rd.fill.abs = rd.abs ∧ (rd.fill.err = true ∨ rd.q.length < rd.fill.q.length) ∧ rd.fill.cap = rd.cap ∧
      rd.fill.last = rd.last ∧ rd.fill.q.length ≤ rd.cap ∧ rd.q <+: rd.fill.q := by
  obtain ⟨q, r0, cap, err, last, sched⟩ := rd
  simp only at he hc
  subst he
  have := fillLoop_spec 100 q 0 cap last sched (by omega) hc
  refine ⟨?_, this.progress, this.cap, this.last, this.room, this.pre⟩
  rw [Reader.abs, Reader.fill, this.abs, Reader.abs]
  simp

/-- read one byte (or error) -/
def pread : Events → Option UInt8 × Events
  | [] => (none, [])
  | none :: r => (none, r)
  | some b :: r => (some b, r)

/-- invariant of readers: there is room for at least a byte, and never more data than room -/
def Reader.Ok (rd : Reader) : Prop := 1 ≤ rd.cap ∧ rd.q.length ≤ rd.cap

theorem readByte_spec (rd : Reader) (hok : rd.Ok) :
    pread rd.abs = (rd.readByte.1, rd.readByte.2.abs) ∧ rd.readByte.2.cap = rd.cap ∧ rd.readByte.2.Ok ∧
    (∀ b, rd.readByte.1 = some b → rd.readByte.2.last = some b ∧ 1 ≤ rd.readByte.2.r ∧ rd.readByte.2.q.length < rd.cap) := by
  have hmid : ∃ rd1 : Reader, rd1 = (if rd.q = [] ∧ rd.err = false then rd.fill else rd) ∧ rd1.abs = rd.abs ∧
      rd1.cap = rd.cap ∧ (rd1.q = [] → rd1.err = true) ∧ rd1.q.length ≤ rd.cap := by
    by_cases h : rd.q = [] ∧ rd.err = false
    · have hf := fill_spec rd (by rw [h.1]; exact hok.1) h.2
      refine ⟨rd.fill, by rw [if_pos h], hf.1, hf.2.2.1, fun h0 => ?_, hf.2.2.2.2.1⟩
      rcases hf.2.1 with h1 | h1
      · exact h1
      · rw [h0] at h1; simp at h1
    · refine ⟨rd, by rw [if_neg h], rfl, rfl, fun h0 => ?_, hok.2⟩
      cases he : rd.err with
      | true => rfl
      | false => exact absurd ⟨h0, he⟩ h
  obtain ⟨rd1, e1, e2, e3, e4, e5⟩ := hmid
  simp only [Reader.readByte, ← e1]
  rw [← e2]
  cases hq : rd1.q with
  | nil =>
    have herr := e4 hq
    refine ⟨?_, e3, ⟨by rw [show ({ rd1 with err := false } : Reader).cap = rd1.cap from rfl, e3]; exact hok.1, by simp [hq]⟩, by simp⟩
    simp only [Reader.abs, hq, herr, if_true, List.map_nil, List.nil_append, List.singleton_append, Bool.false_eq_true, if_false, trim]
    split
    · rename_i h; simp [pread, h]
    · rfl
  | cons b q =>
    rw [hq] at e5
    simp only [List.length_cons] at e5
    refine ⟨?_, e3, ⟨by rw [show ({ rd1 with q := q, r := rd1.r + 1, last := some b } : Reader).cap = rd1.cap from rfl, e3]; exact hok.1,
      by simp only []; omega⟩, ?_⟩
    · simp only [Reader.abs, hq, List.map_cons, List.cons_append, trim, pread]
    · intro c hc; simp at hc; subst hc; exact ⟨rfl, by simp, by simp only []; omega⟩

theorem unread_spec (rd : Reader) (b : UInt8) (hl : rd.last = some b) (hr : 1 ≤ rd.r) :
    rd.unreadByte.abs = some b :: rd.abs ∧ rd.unreadByte.cap = rd.cap ∧ rd.unreadByte.q.length = rd.q.length + 1 := by
  simp only [Reader.unreadByte, hl]
  rw [if_neg (by omega)]
  refine ⟨?_, rfl, by simp⟩
  simp [Reader.abs, trim]

/-- the bytes before the first error, at most `n` -/
def front : Nat → Events → Bytes
  | n + 1, some b :: l => b :: front n l
  | _, _ => []

/-- `Peek(n)` for `n ≥ 0` -/
def ppeek (n : Nat) (l : Events) : Bytes × Bool × Events :=
  if (front n l).length < n then (front n l, false, (front n l).map some ++ l.drop ((front n l).length + 1)) else (front n l, true, l)

theorem front_length (n : Nat) (l : Events) : (front n l).length ≤ n := by
  fun_induction front n l <;> simp_all

theorem front_somes (n : Nat) (q : Bytes) (l : Events) :
    front n (q.map some ++ l) = q.take n ++ front (n - q.length) l := by
  induction q generalizing n with
  | nil => simp
  | cons b q ih =>
    cases n with
    | zero => simp [front]
    | succ n => simp [front, ih]

theorem front_zero (l : Events) : front 0 l = [] := by cases l <;> rfl

theorem front_none (n : Nat) (l : Events) : front n (none :: l) = [] := by cases n <;> rfl

theorem peekFill_spec (n fuel : Nat) (rd : Reader) (hok : rd.Ok) (hf : n < rd.q.length + fuel) :
    let rd' := peekFill n fuel rd
    rd'.abs = rd.abs ∧ rd'.cap = rd.cap ∧ rd'.last = rd.last ∧ rd'.Ok ∧ rd.q <+: rd'.q ∧
      (n ≤ rd'.q.length ∨ rd'.cap ≤ rd'.q.length ∨ rd'.err = true) := by
  induction fuel generalizing rd with
  | zero => exact ⟨rfl, rfl, rfl, hok, by simp [peekFill], Or.inl (by simp only [peekFill]; omega)⟩
  | succ fuel ih =>
    simp only [peekFill]
    by_cases hc : rd.q.length < n ∧ rd.q.length < rd.cap ∧ rd.err = false
    · rw [if_pos hc]
      obtain ⟨f1, f2, f3, f4, f5, f6⟩ := fill_spec rd hc.2.1 hc.2.2
      have hok' : rd.fill.Ok := ⟨by rw [f3]; exact hok.1, by rw [f3]; exact f5⟩
      rcases f2 with f2 | f2
      · have hend : peekFill n fuel rd.fill = rd.fill := by
          cases fuel with
          | zero => rfl
          | succ k => simp [peekFill, f2]
        simp only [hend]
        exact ⟨f1, f3, f4, hok', f6, Or.inr (Or.inr f2)⟩
      · have := ih rd.fill hok' (by omega)
        simp only at this
        obtain ⟨g1, g2, g3, g4, g5, g6⟩ := this
        exact ⟨g1.trans f1, g2.trans f3, g3.trans f4, g4, List.IsPrefix.trans f6 g5, g6⟩
    · rw [if_neg hc]
      refine ⟨rfl, rfl, rfl, hok, List.prefix_refl _, ?_⟩
      cases he : rd.err with
      | true => exact Or.inr (Or.inr rfl)
      | false =>
        by_cases h1 : rd.q.length < n
        · by_cases h2 : rd.q.length < rd.cap
          · exact absurd ⟨h1, h2, he⟩ hc
          · exact Or.inr (Or.inl (by omega))
        · exact Or.inl (by omega)

theorem peek_spec (rd : Reader) (n : Nat) (hok : rd.Ok) (hn : n ≤ rd.cap) :
    ppeek n rd.abs = ((rd.peek n).1, (rd.peek n).2.1, (rd.peek n).2.2.abs) ∧ (rd.peek n).2.2.cap = rd.cap ∧
      (rd.peek n).2.2.Ok ∧ ((rd.peek n).2.1 = true → n ≤ (rd.peek n).2.2.q.length ∧ (rd.peek n).1 = (rd.peek n).2.2.q.take n) := by
  obtain ⟨h1, h2, h3, h4, -, h6⟩ := peekFill_spec n (n + 1) { rd with last := none } hok (by simp only []; omega)
  have h1' : (peekFill n (n + 1) { rd with last := none }).abs = rd.abs := h1
  have h2' : (peekFill n (n + 1) { rd with last := none }).cap = rd.cap := h2
  simp only [Reader.peek, Int.toNat_natCast]
  rw [if_neg (show ¬ (n : Int) < 0 by omega)]
  generalize peekFill n (n + 1) { rd with last := none } = rd1 at *
  have hcap : ¬ rd1.cap < n := by omega
  by_cases hl : rd1.q.length < n
  · simp only [hcap, hl, if_false, if_true]
    have herr : rd1.err = true := by rcases h6 with h | h | h <;> first | omega | exact h
    refine ⟨?_, h2', h4, by simp⟩
    have hf : front n rd1.abs = rd1.q := by
      rw [Reader.abs, trim_somes, front_somes, herr, List.take_of_length_le (by omega)]
      simp only [if_true, List.singleton_append, trim]
      split
      · cases (n - rd1.q.length) <;> simp [front]
      · rw [front_none]; simp
    rw [← h1', ppeek, hf, if_pos hl]
    congr 2
    rw [Reader.abs, trim_somes, herr, List.drop_append, List.drop_of_length_le (by simp), Reader.abs]
    simp only [List.nil_append, List.length_map, if_true, List.singleton_append, Bool.false_eq_true, if_false]
    rw [show rd1.q.length + 1 - rd1.q.length = 1 by omega, trim]
    rw [trim_somes]
    congr 1
    split
    · rename_i h; simp [h]
    · rfl
  · simp only [hcap, hl, if_false]
    refine ⟨?_, h2', h4, fun _ => ⟨by omega, trivial⟩⟩
    have hf : front n rd1.abs = rd1.q.take n := by
      rw [Reader.abs, trim_somes, front_somes, show n - rd1.q.length = 0 by omega, front_zero]; simp
    rw [← h1', ppeek, hf, if_neg (by simp; omega)]

end Verif.Octet
