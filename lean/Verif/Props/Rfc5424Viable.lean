import Verif.Props.Rfc5424Errors

/-!
# C55, C56: the reported column is where the input stops being the beginning of a message (RFC 5424)
-/

namespace Verif.Props
open Verif.Spec Verif.Rfc5424

/-- `u` is the beginning of a message that is accepted -/
def Viable (co : Bool) (u : Bytes) : Prop :=
  ∃ (t : Bytes) (p : Parts), p.WF ∧ p.render = u ++ t ∧ ∀ w, p.msg = some w → co = true → MsgCompliant w

theorem Viable.of_append {co : Bool} {u v : Bytes} (h : Viable co (u ++ v)) : Viable co u := by
  obtain ⟨t, p, h1, h2, h3⟩ := h
  exact ⟨v ++ t, p, h1, by rw [h2, List.append_assoc], h3⟩

theorem viable_sd {co : Bool} {p : Parts} (hp : p.WF) (es : List Elem) (h1 : ∀ e ∈ es, e.WF) (h2 : (es.map Elem.id).Nodup) :
    Viable co (p.lead 6 ++ sdText es) := by
  refine ⟨[], { p with sd := es, msg := none },
    ⟨hp.pri, hp.version, hp.timestamp, hp.hostname, hp.appname, hp.procID, hp.msgID, h1, h2⟩, ?_, by simp⟩
  rw [lead_head, Parts.render_eq]; simp [msgText, Parts.head]

theorem viable_lead {co : Bool} {p : Parts} (hp : p.WF) : ∀ k, k ≤ 6 → Viable co (p.lead k) := by
  have h6 : Viable co (p.lead 6) := (viable_sd hp [] (by simp) (by simp)).of_append
  have down : ∀ k, Viable co (p.lead (k + 1)) → Viable co (p.lead k) := by
    intro k h
    have : p.lead (k + 1) = p.lead k ++ (p.piece (k + 1) ++ [32]) := by simp [Parts.lead]
    rw [this] at h; exact h.of_append
  intro k hk
  have h5 := down 5 h6
  have h4 := down 4 h5
  have h3 := down 3 h4
  have h2 := down 2 h3
  have h1 := down 1 h2
  have h0 := down 0 h1
  match k, hk with
  | 0, _ => exact h0
  | 1, _ => exact h1
  | 2, _ => exact h2
  | 3, _ => exact h3
  | 4, _ => exact h4
  | 5, _ => exact h5
  | 6, _ => exact h6

/-- up to the end of an element after the elements `es` -/
theorem viable_elem {co : Bool} {p : Parts} (hp : p.WF) (e : Elem) (he : e.WF) (hid : ∀ e' ∈ p.sd, e'.id ≠ e.id) :
    Viable co (p.lead 6 ++ p.sd.flatMap Elem.render ++ e.render) := by
  have := viable_sd (co := co) hp (p.sd ++ [e]) (by
      intro e' h
      rcases List.mem_append.mp h with h | h
      · exact hp.sd e' h
      · rw [List.mem_singleton.mp h]; exact he) (by
      rw [List.map_append, List.nodup_append]
      refine ⟨hp.ids, by simp, ?_⟩
      intro a ha b hb
      obtain ⟨e', h1, rfl⟩ := List.mem_map.mp ha
      have hb' : b = e.id := by simpa using hb
      rw [hb']; exact hid e' h1)
  have h2 : sdText (p.sd ++ [e]) = p.sd.flatMap Elem.render ++ e.render := by
    cases hs : p.sd with
    | nil => simp [sdText]
    | cons a l => simp [sdText]
  rw [h2] at this
  rw [List.append_assoc]; exact this

theorem sdName_dec {n : Nat} (h : n < 2 ^ 63) : SdNameWF (dec n) := by
  have hlen : ∀ k n, n < 10 ^ (k + 1) → (dec n).length ≤ k + 1 := by
    intro k
    induction k with
    | zero => intro n hn; rw [dec_lt (by omega)]; simp
    | succ k ih =>
      intro n hn
      by_cases h10 : n < 10
      · rw [dec_lt h10]; simp
      · rw [dec_ge (by omega), List.length_append]
        have := ih (n / 10) (by rw [Nat.pow_succ] at hn; omega)
        simp; omega
  refine ⟨dec_ne_nil n, ?_, ?_⟩
  · have := hlen 31 n (by omega); exact this
  · intro b hb
    have := dec_digits n b hb
    have h2 : 48 ≤ b.toNat ∧ b.toNat ≤ 57 := by simpa using this
    refine ⟨⟨by omega, by omega⟩, ?_, ?_, ?_⟩ <;> (rintro rfl; revert h2; decide)

/-- among `n + 1` different words one is not in a list of `n` words -/
theorem pigeonhole : ∀ (l : List Bytes) (f : Nat → Bytes), (∀ a b, f a = f b → a = b) → ∃ k, k ≤ l.length ∧ f k ∉ l := by
  intro l
  induction l with
  | nil => intro f _; exact ⟨0, by simp, by simp⟩
  | cons w l ih =>
    intro f hf
    by_cases h : ∃ j, j ≤ l.length + 1 ∧ f j = w
    · obtain ⟨j, hj, rfl⟩ := h
      obtain ⟨k, hk, hn⟩ := ih (fun i => f (if i < j then i else i + 1)) (by
        intro a b hab
        have := hf _ _ hab
        split at this <;> split at this <;> omega)
      refine ⟨if k < j then k else k + 1, by simp only [List.length_cons]; split <;> omega, ?_⟩
      intro hm
      rcases List.mem_cons.mp hm with hm | hm
      · have := hf _ _ hm
        split at this <;> omega
      · exact hn hm
    · obtain ⟨k, hk, hn⟩ := ih f hf
      refine ⟨k, by simp only [List.length_cons]; omega, ?_⟩
      intro hm
      rcases List.mem_cons.mp hm with hm | hm
      · exact h ⟨k, by omega, hm⟩
      · exact hn hm

theorem elems_length_le (es : List Elem) : es.length ≤ (es.flatMap Elem.render).length := by
  induction es with
  | nil => simp
  | cons e es ih =>
    have : 1 ≤ e.render.length := by simp [Elem.render]
    rw [List.flatMap_cons, List.length_append, List.length_cons]; omega

theorem take_len_append {a b : Bytes} {n : Nat} : (a ++ b).take (a.length + n) = a ++ b.take n := List.take_length_add_append n

theorem take_len_append1 {a x : Bytes} {b : UInt8} {n : Nat} : (a ++ [b] ++ x).take (a.length + 1 + n) = a ++ [b] ++ x.take n := by
  rw [show a.length + 1 + n = (a ++ [b]).length + n by rw [List.length_append, List.length_singleton], take_len_append]

theorem isPrefix_take {x : Bytes} {n : Nat} : x.take n <+: x := ⟨x.drop n, List.take_append_drop n x⟩

/-- the part of an element or a parameter before the error can be completed -/
theorem viable_param {ps : List Param} {x : Bytes} {kind : ErrKind} {n : Nat} {ps' : List Param}
    (h : ParamStuck ps x kind n ps') : ∃ (q : Param) (t : Bytes), q.WF ∧ q.render = 32 :: (x.take n ++ t) := by
  cases h with
  | name hf =>
    obtain ⟨t, w, hw, he⟩ := hf.viable
    refine ⟨⟨w, []⟩, t ++ [34, 34], ⟨hw, Utf8.nil⟩, ?_⟩
    rw [← List.append_assoc, he]; simp [Param.render, escape]
  | @quote w t hw ht =>
    refine ⟨⟨w, []⟩, [34, 34], ⟨hw, Utf8.nil⟩, ?_⟩
    have : (w ++ [61] ++ t).take (w.length + 1) = w ++ [61] := by
      rw [List.append_assoc, take_len_append]; simp
    rw [this]; simp [Param.render, escape]
  | @value w y n hw hf _ =>
    obtain ⟨t, v, hv, he⟩ := hf.viable
    refine ⟨⟨w, v⟩, t, ⟨hw, hv⟩, ?_⟩
    have : (w ++ [61, 34] ++ y).take (w.length + 2 + n) = w ++ [61, 34] ++ y.take n := by
      rw [show w.length + 2 + n = (w ++ [61, 34]).length + n by simp, take_len_append]
    rw [this, List.append_assoc, he]; simp [Param.render]
  | @char w y n hw hf _ =>
    obtain ⟨t, v, hv, he⟩ := hf.viable
    refine ⟨⟨w, v⟩, t, ⟨hw, hv⟩, ?_⟩
    have : (w ++ [61, 34] ++ y).take (w.length + 2 + n) = w ++ [61, 34] ++ y.take n := by
      rw [show w.length + 2 + n = (w ++ [61, 34]).length + n by simp, take_len_append]
    rw [this, List.append_assoc, he]; simp [Param.render]
  | @after w v t hw hv _ _ =>
    refine ⟨⟨w, v⟩, [], ⟨hw, hv⟩, ?_⟩
    have : (w ++ [61, 34] ++ escape v ++ [34] ++ t).take (w.length + 2 + (escape v).length + 1) = w ++ [61, 34] ++ escape v ++ [34] := by
      rw [show w.length + 2 + (escape v).length + 1 = (w ++ [61, 34] ++ escape v ++ [34]).length by simp; omega, List.take_left]
    rw [this]; simp [Param.render]

theorem viable_broken {co : Bool} {input : Bytes} {k : ErrKind} {c : Nat} {m : Option SyslogMessage}
    (h : Broken co input k c m) (hlen : input.length < 2 ^ 63) (h1 : k ≠ .timestamp) (h2 : k ≠ .timeParse) (h3 : k ≠ .sdIdDup) :
    Viable co (input.take c) := by
  have base : (⟨0, 1, none, none, none, none, none, [], none⟩ : Parts).WF :=
    ⟨by simp, by simp, by simp, trivial, trivial, trivial, trivial, by simp, by simp⟩
  cases h with
  | noLt _ => exact (viable_lead base 0 (by omega)).of_append (u := []) 
  | @pri x n hf =>
    obtain ⟨t, q, hq, he⟩ := hf.viable
    have hp : (⟨q, 1, none, none, none, none, none, [], none⟩ : Parts).WF :=
      ⟨hq, by simp, by simp, trivial, trivial, trivial, trivial, by simp, by simp⟩
    have := viable_lead (co := co) hp 0 (by omega)
    have e : (⟨q, 1, none, none, none, none, none, [], none⟩ : Parts).lead 0 = (60 :: x).take (1 + n) ++ t := by
      rw [show 1 + n = n + 1 by omega, List.take_succ_cons, List.cons_append, he]; simp [Parts.lead]
    rw [e] at this; exact this.of_append
  | noVersion hp _ =>
    rw [List.take_left]; exact viable_lead hp 0 (by omega)
  | @version p t hp _ _ =>
    rw [List.take_left]
    have := viable_lead (co := co) hp 1 (by omega)
    exact Viable.of_append (v := [32]) this
  | @nilTime p t hp _ =>
    have hq : ({ p with timestamp := none } : Parts).WF := ⟨hp.pri, hp.version, by simp, hp.hostname, hp.appname, hp.procID, hp.msgID, hp.sd, hp.ids⟩
    rw [show (p.lead 1).length + 1 = (p.lead 1 ++ [45]).length by simp, List.take_left]
    exact Viable.of_append (v := [32]) (viable_lead (co := co) hq 2 (by omega))
  | time => exact absurd rfl h1
  | noSuchDay => exact absurd rfl h2
  | @afterTime p s t hp hs _ =>
    rw [List.take_left]
    have := viable_lead (co := co) hp 2 (by omega)
    refine Viable.of_append (v := [32]) ?_
    have e : p.lead 2 = p.lead 1 ++ s.render ++ [32] := by
      rw [Parts.lead, Parts.piece, hs]; rfl
    rw [← e]; exact this
  | @field p k x n hp hk3 hk6 hf =>
    rw [take_len_append]
    obtain ⟨t, w, hw, he⟩ := hf.viable
    have hmax : 1 ≤ fieldMax k := by unfold fieldMax; split <;> omega
    obtain ⟨f, hf', hft⟩ := (field_name hmax).mp hw
    have goal : ∀ q : Parts, q.WF → q.lead k = p.lead (k - 1) ++ fieldText f ++ [32] → Viable co (p.lead (k - 1) ++ x.take n) := by
      intro q hq hl
      have := viable_lead (co := co) hq k hk6
      rw [hl, List.append_assoc, hft, ← he, ← List.append_assoc] at this
      exact this.of_append
    match k, hk3, hk6 with
    | 3, _, _ => exact goal { p with hostname := f } ⟨hp.pri, hp.version, hp.timestamp, hf', hp.appname, hp.procID, hp.msgID, hp.sd, hp.ids⟩ rfl
    | 4, _, _ => exact goal { p with appname := f } ⟨hp.pri, hp.version, hp.timestamp, hp.hostname, hf', hp.procID, hp.msgID, hp.sd, hp.ids⟩ rfl
    | 5, _, _ => exact goal { p with procID := f } ⟨hp.pri, hp.version, hp.timestamp, hp.hostname, hp.appname, hf', hp.msgID, hp.sd, hp.ids⟩ rfl
    | 6, _, _ => exact goal { p with msgID := f } ⟨hp.pri, hp.version, hp.timestamp, hp.hostname, hp.appname, hp.procID, hf', hp.sd, hp.ids⟩ rfl
  | noSd hp _ _ => rw [List.take_left]; exact viable_lead hp 6 (by omega)
  | @nilSd p b t hp _ =>
    have e : (p.lead 6 ++ [45, b] ++ t).take ((p.lead 6).length + 1) = p.lead 6 ++ [45] := by
      rw [List.append_assoc, take_len_append]; simp
    rw [e]
    exact viable_sd hp [] (by simp) (by simp)
  | @element p x _ n es hp hs =>
    have e : (p.lead 6 ++ p.sd.flatMap Elem.render ++ [91] ++ x).take ((p.lead 6 ++ p.sd.flatMap Elem.render).length + 1 + n)
        = p.lead 6 ++ p.sd.flatMap Elem.render ++ [91] ++ x.take n := take_len_append1
    rw [e]
    have fin : ∀ (e : Elem) (t : Bytes), e.WF → (∀ e' ∈ p.sd, e'.id ≠ e.id) → e.render = 91 :: (x.take n ++ t) →
        Viable co (p.lead 6 ++ p.sd.flatMap Elem.render ++ [91] ++ x.take n) := by
      intro e t he hid hr
      have := viable_elem (co := co) hp e he hid
      rw [hr, show p.lead 6 ++ p.sd.flatMap Elem.render ++ 91 :: (x.take n ++ t) =
        p.lead 6 ++ p.sd.flatMap Elem.render ++ [91] ++ x.take n ++ t by simp] at this
      exact this.of_append
    cases hs with
    | noId _ =>
      obtain ⟨j, hj, hn⟩ := pigeonhole (p.sd.map Elem.id) dec (fun a b => dec_inj)
      have := elems_length_le p.sd
      have hj' : j < 2 ^ 63 := by
        simp only [List.length_map] at hj
        simp only [List.length_append] at hlen
        omega
      refine fin ⟨dec j, []⟩ (dec j ++ [93]) ⟨sdName_dec hj', by simp⟩ ?_ (by simp [Elem.render])
      intro e' he' h
      exact hn (List.mem_map.mpr ⟨e', he', h⟩)
    | badId hf h0 hid =>
      obtain ⟨t, w, c, hw, hc, he⟩ := hf.viable
      have hle : n ≤ w.length := by
        by_cases hle : n ≤ w.length
        · exact hle
        · exfalso
          refine hf.no (w ++ [c]) ⟨w, c, hw, hc, rfl⟩ ?_
          have hl := congrArg List.length he
          have hx := hf.le
          simp only [List.length_append, List.length_take, Nat.min_eq_left hx, List.length_singleton] at hl
          have ht : t = [] := List.eq_nil_of_length_eq_zero (by omega)
          rw [ht, List.append_nil] at he
          rw [← he]; exact isPrefix_take
      have hx := hf.le
      have ht : x.take n = w.take n := by
        have := congrArg (List.take n) he
        rw [List.take_left' (by simp [Nat.min_eq_left hx]), List.take_append_of_le_length hle] at this
        exact this
      refine fin ⟨x.take n, []⟩ [93] ⟨⟨?_, ?_, ?_⟩, by simp⟩ hid (by simp [Elem.render])
      · intro h
        have := congrArg List.length h
        simp [Nat.min_eq_left hx] at this; omega
      · rw [ht]; have := hw.2.1; simp; omega
      · rw [ht]; intro b hb; exact hw.2.2 b (List.mem_of_mem_take hb)
    | dupId => exact absurd rfl h3
    | @param id y ps ps' _ n hid hwf hps =>
      obtain ⟨q, t, hq, hqr⟩ := viable_param hps
      refine fin ⟨id, ps ++ [q]⟩ (t ++ [93]) ⟨hwf.1, ?_⟩ hid ?_
      · intro r hr
        rcases List.mem_append.mp hr with hr | hr
        · exact hwf.2 r hr
        · rw [List.mem_singleton.mp hr]; exact hq
      · have e : (id ++ ps.flatMap Param.render ++ [32] ++ y).take ((id ++ ps.flatMap Param.render).length + 1 + n) =
            id ++ ps.flatMap Param.render ++ [32] ++ y.take n := take_len_append1
        rw [e]
        simp [Elem.render, hqr]
  | @afterSd p b t hp _ _ _ =>
    rw [List.append_assoc, List.take_left]
    exact viable_sd hp p.sd hp.sd hp.ids
  | @msg p w n hp hw hco hbad hn hv _ =>
    obtain ⟨t, ht⟩ := hv
    have hq : ({ p with msg := some (w.take n ++ t) } : Parts).WF := ⟨hp.pri, hp.version, hp.timestamp, hp.hostname, hp.appname, hp.procID, hp.msgID, hp.sd, hp.ids⟩
    have e : p.render.take ((p.lead 6 ++ sdText p.sd).length + 1 + n) = p.lead 6 ++ sdText p.sd ++ [32] ++ w.take n := by
      rw [show p.render = p.lead 6 ++ sdText p.sd ++ [32] ++ w by rw [Parts.render_eq, lead_head, hw]; simp [msgText],
        take_len_append1]
    rw [e]
    refine ⟨t, _, hq, ?_, ?_⟩
    · rw [Parts.render_eq, lead_head]; simp [msgText, Parts.head]
    · intro w' h' _ _
      have : w' = w.take n ++ t := by simpa using h'.symm
      rw [this]; exact ht

theorem accepts_of_viable {be co : Bool} {u : Bytes} (h : Viable co u) :
    ∃ t m, parse1 ⟨be, co⟩ (u ++ t) = some ⟨some m, none⟩ := by
  obtain ⟨t, p, hp, hr, hm⟩ := h
  refine ⟨t, p.toMessage, ?_⟩
  rw [← hr, parse1_eq, descend_iff.mpr ⟨p, hp, fun w hw hco => hm w hw hco, rfl, rfl⟩]
  simp only [resultOf, export_outOf hp]

/-- C55: the text before the reported column is the beginning of some message that is accepted (under the same options),
and, if the column is not the end of the input, the text including the byte at the column is not. Three kinds are
exceptions: an impossible date, a duplicate id (both are reported after the offending piece) and a malformed timestamp
(whose beginning can already be that of an impossible date). `2 ^ 63` is the limit of `len` in Go: an input that uses up all
possible ids would need to be longer. -/
theorem C55_column_is_longest_viable_prefix (o : Opts) (input : Bytes) (msg : Option SyslogMessage) (e : Err)
    (hlen : input.length < 2 ^ 63) (h : parse1 o input = some ⟨msg, some e⟩) :
    (e.kind ∉ [.timestamp, .timeParse, .sdIdDup] → ∃ t m, parse1 o (input.take e.col ++ t) = some ⟨some m, none⟩) ∧
    (e.col < input.length → ∀ t m, parse1 o (input.take (e.col + 1) ++ t) ≠ some ⟨some m, none⟩) := by
  constructor
  · intro hk
    simp only [List.mem_cons, List.not_mem_nil, or_false, not_or] at hk
    obtain ⟨m, hb, -⟩ := (C57_refused_iff o.bestEffort o.compliantMsg input msg e).mp h
    exact accepts_of_viable (viable_broken hb hlen hk.1 hk.2.1 hk.2.2)
  · intro hc t m h'
    have := C14_error_decided_by_prefix o input (input.take (e.col + 1) ++ t) msg e h hc (by
      rw [List.take_append_of_le_length (by simp; omega), List.take_take, Nat.min_self])
    rw [h'] at this; simp at this

/-- an error in the middle: `<34>1 - h a p m [x` is the beginning of a message, `<34>1 - h a p m [x"` is not -/
example : (∃ m, parse1 ⟨true, false⟩ (ascii "<34>1 - h a p m [x\"rest") = some ⟨some m, some ⟨.sdId, 18⟩⟩) ∧
    ErrKind.sdId ∉ [ErrKind.timestamp, .timeParse, .sdIdDup] ∧ 18 < (ascii "<34>1 - h a p m [x\"rest").length :=
  ⟨ex_of' (by decide +kernel), by decide, by decide⟩

/-- the exceptions are real: nothing that begins with these texts is accepted, but the column is after them -/
example : (∃ m, parse1 ⟨true, false⟩ (ascii "<34>1 2003-02-30T00:00:00Z h") = some ⟨some m, some ⟨.timeParse, 26⟩⟩) ∧
    (∃ m, parse1 ⟨true, false⟩ (ascii "<34>1 2003-02-30x") = some ⟨some m, some ⟨.timestamp, 16⟩⟩) ∧
    (∃ m, parse1 ⟨true, false⟩ (ascii "<34>1 - h a p m [x][x]") = some ⟨some m, some ⟨.sdIdDup, 21⟩⟩) :=
  ⟨ex_of' (by decide +kernel), ex_of' (by decide +kernel), ex_of' (by decide +kernel)⟩

/-- C55, malformed timestamps: the text before the column is the beginning of `<PRI>VERSION` and a syntactically correct
timestamp. -/
theorem C55_timestamp (o : Opts) (input : Bytes) (msg : Option SyslogMessage) (e : Err)
    (h : parse1 o input = some ⟨msg, some e⟩) (hk : e.kind = .timestamp) :
    ∃ (pri ver : Nat) (s : Stamp) (t : Bytes), pri ≤ 191 ∧ 1 ≤ ver ∧ ver ≤ 999 ∧ s.WF ∧
      input.take e.col ++ t = [60] ++ dec pri ++ [62] ++ dec ver ++ [32] ++ s.render := by
  obtain ⟨m, hb, -⟩ := (C57_refused_iff o.bestEffort o.compliantMsg input msg e).mp h
  obtain ⟨k, c⟩ := e
  simp only at hk hb ⊢
  subst hk
  revert hb
  generalize hkk : ErrKind.timestamp = k'
  intro hb
  cases hb with
  | @time p x n hp _ hf =>
    obtain ⟨t, s, hs, he⟩ := hf.viable
    refine ⟨p.pri, p.version, s, t, hp.pri, hp.version.1, hp.version.2, hs, ?_⟩
    rw [take_len_append, List.append_assoc, he]
    simp [Parts.lead, Parts.piece]
  | version => exfalso; revert hkk; split <;> simp
  | @field p k x n hp h3 h6 hf => exfalso; revert hkk; unfold fieldKind; split <;> simp
  | element _ hs =>
    exfalso
    cases hs with
    | param _ _ hps => cases hps <;> simp at hkk
    | _ => simp at hkk
  | _ => simp at hkk

/-- C56: cutting off an accepted message either leaves an accepted message or is reported exactly at the cut. -/
theorem C56_truncation_reported_at_end (o : Opts) (u v : Bytes) (m : SyslogMessage)
    (h : parse1 o (u ++ v) = some ⟨some m, none⟩) :
    (∃ m', parse1 o u = some ⟨some m', none⟩) ∨ ∃ msg kind, parse1 o u = some ⟨msg, some ⟨kind, u.length⟩⟩ := by
  obtain ⟨be, co⟩ := o
  rw [parse1_eq]
  cases hd : descend co u with
  | ok out => exact Or.inl ⟨_, rfl⟩
  | err e part =>
    right
    have hp : parse1 ⟨be, co⟩ u = some (resultOf be (.err e part)) := by rw [parse1_eq, hd]
    have hr : resultOf be (.err e part) = ⟨if be then part.map Out.export else none, some e⟩ := rfl
    rw [hr] at hp
    have h13 := C13_column_in_range _ _ _ _ hp
    by_cases hc : e.col < u.length
    · have := C14_error_decided_by_prefix _ u (u ++ v) _ e hp hc (List.take_append_of_le_length (by omega))
      rw [h] at this; simp at this
    · obtain ⟨k, c⟩ := e
      have : c = u.length := by simp only at h13 hc; omega
      subst this
      exact ⟨_, k, by rw [← hr]⟩

example : ∃ m, parse1 ⟨true, false⟩ (ascii "<34>1 - h a p m [x a=\"1" ++ ascii "23\"] text") = some ⟨some m, none⟩ :=
  ex_of' (by decide +kernel)

example : ∃ m, parse1 ⟨true, false⟩ (ascii "<34>1 - h a p m [x a=\"1") = some ⟨some m, some ⟨.escape, (ascii "<34>1 - h a p m [x a=\"1").length⟩⟩ :=
  ex_of' (by decide +kernel)

end Verif.Props
