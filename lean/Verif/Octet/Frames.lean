import Verif.Octet.Run
import Verif.Spec.Octet
import Verif.Props.Rfc5424

/-! # Frames on the event level -/

namespace Verif.Octet
open Verif.Spec
open Verif.Rfc5424 (parse1 parse_eq parse1_eq resultOf descend SyslogMessage)

/-! ## readers -/

theorem trim_ev_empty (i : Nat) (rs : List Read) (h : ∀ x ∈ rs, x.data = []) : trim (ev i rs) = [] := by
  induction rs generalizing i with
  | nil => rfl
  | cons r rs ih =>
    have h0 := h r (by simp)
    have h1 := fun j => ih j (fun x hx => h x (by simp [hx]))
    simp only [ev, h0]
    split
    · simp [trim, h1]
    · simp only [ne_eq, not_true_eq_false, if_false]
      split
      · simp [trim, h1]
      · exact h1 _

theorem delivers_aux (sched : List Read) (i : Nat)
    (he : ∀ a r b, sched = a ++ r :: b → r.err = true → ∀ x ∈ b, x.data = [])
    (hp : ∀ a e b, sched = a ++ (e ++ b) → (∀ x ∈ e, x.data = [] ∧ x.err = false) → e.length < 100)
    (hi : ∀ e b, sched = e ++ b → (∀ x ∈ e, x.data = [] ∧ x.err = false) → e.length < i) :
    trim (ev i sched) = (sched.flatMap Read.data).map some := by
  induction sched generalizing i with
  | nil => rfl
  | cons r rs ih =>
    have he' : ∀ a x b, rs = a ++ x :: b → x.err = true → ∀ y ∈ b, y.data = [] :=
      fun a x b h => he (r :: a) x b (by rw [h]; rfl)
    have hp' : ∀ a e b, rs = a ++ (e ++ b) → (∀ x ∈ e, x.data = [] ∧ x.err = false) → e.length < 100 :=
      fun a e b h => hp (r :: a) e b (by rw [h]; rfl)
    have h100 : trim (ev 100 rs) = (rs.flatMap Read.data).map some := ih 100 he' hp' (fun e b h => hp' [] e b h)
    simp only [ev, List.flatMap_cons, List.map_append]
    by_cases herr : r.err = true
    · have hrest := he [] r rs rfl herr
      rw [if_pos herr, trim_somes]
      have : rs.flatMap Read.data = [] := by simpa using hrest
      simp [this, trim, trim_ev_empty 100 rs hrest]
    · rw [if_neg herr]
      by_cases hd : r.data = []
      · have hd' : ¬ r.data ≠ [] := by simpa using hd
        rw [if_neg hd', hd]
        have h2 := hi [r] rs rfl (by simp [hd, herr])
        simp only [List.length_singleton] at h2
        rw [if_neg (by omega)]
        simp only [List.map_nil, List.nil_append]
        refine ih (i - 1) he' hp' (fun e b h hx => ?_)
        have := hi (r :: e) b (by rw [h]; rfl) (by
          intro x hx'
          rcases List.mem_cons.mp hx' with rfl | h'
          · exact ⟨hd, by simpa using herr⟩
          · exact hx x h')
        simp only [List.length_cons] at this; omega
      · rw [if_pos hd, trim_somes, h100]

theorem delivers_delivered {sched : List Read} {bytes : Bytes} (h : Delivers sched bytes) :
    delivered sched = bytes.map some := by
  rw [← h.data]
  exact delivers_aux sched 100 h.errors h.progress (fun e b he => h.progress [] e b he)

/-! ## MSGLEN -/

theorem digit_isDigit {c : UInt8} (h : 48 ≤ c.toNat ∧ c.toNat ≤ 57) : isDigit c = true ∧ isNonZeroDigit c = true ∧ c ≠ 0 := by
  refine ⟨?_, ?_, ?_⟩
  · simp [isDigit]; omega
  · simp [isNonZeroDigit]; omega
  · rintro rfl; simp at h

theorem pdigits_app (ds : Bytes) (h : IsDigits ds) (rest : Events) :
    pdigits (ds.map some ++ rest) = (ds ++ (pdigits rest).1, (pdigits rest).2) := by
  induction ds with
  | nil => simp
  | cons c ds ih =>
    obtain ⟨h1, -, h2⟩ := digit_isDigit (h c (by simp))
    simp only [List.map_cons, List.cons_append, pdigits, h2, h1, if_false, if_true]
    rw [ih (fun x hx => h x (by simp [hx]))]

theorem pow_len (w : Bytes) : 1 ≤ 10 ^ w.length := Nat.one_le_pow _ _ (by omega)

theorem numVal_cons (c : UInt8) (w : Bytes) : numVal (c :: w) = (c.toNat - 48) * 10 ^ w.length + numVal w := by
  have := numVal_append [c] w
  simpa [numVal] using this

theorem parseUint_val (w : Bytes) (n : Nat) (hd : IsDigits w) (hn : n < 2 ^ 64) :
    parseUint w n = if n * 10 ^ w.length + numVal w < 2 ^ 64 then n * 10 ^ w.length + numVal w else 2 ^ 64 - 1 := by
  induction w generalizing n with
  | nil => simp [parseUint, numVal]; omega
  | cons c w ih =>
    have hc := hd c (by simp)
    have hw : IsDigits w := fun x hx => hd x (by simp [hx])
    have hp := pow_len w
    have e : n * 10 ^ (c :: w).length + numVal (c :: w) = (n * 10 + (c.toNat - 48)) * 10 ^ w.length + numVal w := by
      rw [numVal_cons, List.length_cons, Nat.pow_succ, Nat.add_mul, ← Nat.add_assoc]
      congr 2
      rw [Nat.mul_assoc, Nat.mul_comm 10]
    have hge : (n * 10 + (c.toNat - 48)) ≤ (n * 10 + (c.toNat - 48)) * 10 ^ w.length := Nat.le_mul_of_pos_right _ hp
    simp only [parseUint]
    rw [if_neg (by omega), e]
    by_cases h1 : (2 ^ 64 - 1) / 10 + 1 ≤ n
    · rw [if_pos h1, if_neg (by omega)]
    · rw [if_neg h1]
      by_cases h2 : 2 ^ 64 ≤ n * 10 + (c.toNat - 48)
      · rw [if_pos h2, if_neg (by omega)]
      · rw [if_neg h2, ih _ hw (by omega)]

/-- a MSGLEN with a byte that is not a digit (it can only be `/`) counts as 0 or as the largest number -/
theorem parseUint_bad (w : Bytes) (n : Nat) (h : ∃ c ∈ w, c.toNat < 48 ∨ 57 < c.toNat) :
    parseUint w n = 0 ∨ parseUint w n = 2 ^ 64 - 1 := by
  induction w generalizing n with
  | nil => simp at h
  | cons c w ih =>
    simp only [parseUint]
    split
    · exact Or.inl rfl
    · rename_i h0
      split
      · exact Or.inr rfl
      · split
        · exact Or.inr rfl
        · apply ih
          obtain ⟨x, hx, hx'⟩ := h
          rcases List.mem_cons.mp hx with rfl | hx
          · exact absurd hx' h0
          · exact ⟨x, hx, hx'⟩

theorem pdigits_digit (l : Events) : ∀ c ∈ (pdigits l).1, 47 ≤ c.toNat ∧ c.toNat ≤ 57 := by
  fun_induction pdigits l with
  | case4 b r h1 h2 ih =>
    intro c hc
    rcases List.mem_cons.mp hc with rfl | hc
    · simp [isDigit] at h2; omega
    · exact ih c hc
  | _ => simp

theorem pscan_len (ds : Bytes) (h : IsDigits ds) (hne : ds ≠ []) (rest : Events) (ml : Nat) (rdy : Bool) :
    pscan ⟨ds.map some ++ rest, ml, rdy⟩ =
      (⟨.MSGLEN, ds ++ (pdigits rest).1⟩, ⟨(pdigits rest).2, parseUint (ds ++ (pdigits rest).1) 0, false⟩) := by
  cases ds with
  | nil => exact absurd rfl hne
  | cons c ds =>
    obtain ⟨-, h1, -⟩ := digit_isDigit (h c (by simp))
    simp only [pscan, List.map_cons, List.cons_append, pread, h1, if_true]
    rw [pdigits_app ds (fun x hx => h x (by simp [hx]))]

/-- where the parser stops without an error after a message -/
def Ends (rest : Events) : Prop := rest = [] ∨ rest.head? = some none ∨ rest.head? = some (some 0)

instance (rest : Events) : Decidable (Ends rest) := inferInstanceAs (Decidable (_ ∨ _ ∨ _))

theorem ends_nil : Ends [] := Or.inl rfl

theorem ends_nul (l : Events) : Ends (some 0 :: l) := Or.inr (Or.inr rfl)

theorem pscan_eof_iff (rest : Events) : (pscan ⟨rest, 0, false⟩).1.typ = .EOF ↔ Ends rest := by
  cases rest with
  | nil => simp [pscan, pread, Ends]
  | cons x l =>
    cases x with
    | none => simp [pscan, pread, Ends]
    | some b =>
      simp only [pscan, pread, Ends]
      by_cases h0 : b = 0
      · subst h0; simp [isNonZeroDigit]
      · split
        · simp [h0]
        · split
          · simp [h0]
          · simp [h0]

theorem front_somes_le (m : Bytes) (rest : Events) : front m.length (m.map some ++ rest) = m := by
  rw [front_somes]; simp [front_zero]

theorem toInt_nat {n : Nat} (h : n < 2 ^ 63) : toInt n = n := by rw [toInt, if_pos h]

/-- the first part of a frame -/
theorem pscan_frame_len {max : Int} {f : LooseFrame} (hf : f.WF max) (rest : Events) :
    pscan ⟨f.text.map some ++ rest, 0, false⟩ =
      (⟨.MSGLEN, f.digits⟩, ⟨some 32 :: (f.msg.map some ++ rest), f.msg.length, false⟩) := by
  have hp : pdigits (((if f.nul then [0] else []) ++ 32 :: f.msg).map some ++ rest) = ([], some 32 :: (f.msg.map some ++ rest)) := by
    cases f.nul with
    | false => simp [pdigits, isDigit]
    | true => simp [pdigits]
  rw [LooseFrame.text, List.map_append, List.append_assoc, pscan_len _ hf.digits hf.nonempty, hp]
  simp only [List.append_nil]
  rw [parseUint_val _ _ hf.digits (by omega), hf.len, if_pos (by have := hf.int; omega)]
  simp

theorem pscan_ws (rest : Events) (n : Nat) (r : Bool) : pscan ⟨some 32 :: rest, n, r⟩ = (⟨.WS, [32]⟩, ⟨rest, n, true⟩) := by
  simp [pscan, pread, isNonZeroDigit]

theorem pscan_msg (m : Bytes) (hlt : m.head? = some 60) (h63 : m.length < 2 ^ 63) (rest : Events) :
    pscan ⟨m.map some ++ rest, m.length, true⟩ = (⟨.SYSLOGMSG, m⟩, ⟨rest, 0, false⟩) := by
  obtain ⟨t, rfl⟩ : ∃ t, m = 60 :: t := by
    cases m with
    | nil => simp at hlt
    | cons b t => simp at hlt; exact ⟨t, by rw [hlt]⟩
  have hfr := front_somes_le (60 :: t) rest
  simp only [pscan, List.map_cons, List.cons_append, pread]
  simp only [show isNonZeroDigit 60 = false by decide, Bool.false_eq_true, if_false, show (60 : UInt8) ≠ 0 by decide,
    show (60 : UInt8) ≠ 32 by decide]
  rw [if_pos ⟨trivial, by simp, trivial⟩, if_pos h63]
  simp only [List.map_cons, List.cons_append] at hfr
  rw [ppeek, hfr, if_neg (by simp)]
  simp

theorem prun_frame {be : Bool} {max : Int} {f : LooseFrame} (hf : f.WF max) (hok : be = true ∨ (pmsg be f.msg).err = none)
    (rest : Events) :
    prun be max (f.text.map some ++ rest) = pmsg be f.msg :: (if Ends rest then [] else prun be max rest) := by
  rw [prun, pscan_frame_len hf rest]
  simp only []
  rw [if_neg (by simp), if_neg (by rw [toInt_nat hf.int]; have := hf.max; omega), pscan_ws]
  simp only []
  rw [if_neg (by simp), pscan_msg _ hf.lt hf.int]
  simp only []
  rw [if_neg (by simp), if_neg (by rintro ⟨h1, h2⟩; rcases hok with h | h; · simp [h] at h1
                                   · exact h2 h)]
  by_cases he : Ends rest
  · rw [if_pos ((pscan_eof_iff rest).mpr he), if_pos he]
  · rw [if_neg (fun h => he ((pscan_eof_iff rest).mp h)), if_neg he, if_pos]
    simp [LooseFrame.text]; omega

/-- a bad message in strict mode -/
theorem prun_frame_bad {max : Int} {f : LooseFrame} (hf : f.WF max) (hbad : (pmsg false f.msg).err ≠ none)
    (rest : Events) :
    prun false max (f.text.map some ++ rest) = [⟨none, (pmsg false f.msg).err⟩] := by
  rw [prun, pscan_frame_len hf rest]
  simp only []
  rw [if_neg (by simp), if_neg (by rw [toInt_nat hf.int]; have := hf.max; omega), pscan_ws]
  simp only []
  rw [if_neg (by simp), pscan_msg _ hf.lt hf.int]
  simp only []
  rw [if_neg (by simp), if_pos ⟨trivial, hbad⟩]

theorem prun_frames {be : Bool} {max : Int} (fs : List LooseFrame) (hf : ∀ f ∈ fs, f.WF max) (hne : fs ≠ [])
    (hok : ∀ f ∈ fs, be = true ∨ (pmsg be f.msg).err = none) (rest : Events) :
    prun be max ((fs.flatMap LooseFrame.text).map some ++ rest) =
      (fs.map fun f => pmsg be f.msg) ++ (if Ends rest then [] else prun be max rest) := by
  induction fs with
  | nil => exact absurd rfl hne
  | cons f fs ih =>
    rw [List.flatMap_cons, List.map_append, List.append_assoc, prun_frame (hf f (by simp)) (hok f (by simp))]
    simp only [List.map_cons, List.cons_append]
    congr 1
    cases fs with
    | nil => simp
    | cons g gs =>
      rw [if_neg, ih (fun x hx => hf x (by simp [hx])) (by simp) (fun x hx => hok x (by simp [hx]))]
      have hg := hf g (by simp)
      obtain ⟨c, ds, hds⟩ : ∃ c ds, g.digits = c :: ds := by
        cases h : g.digits with
        | nil => exact absurd h hg.nonempty
        | cons c ds => exact ⟨c, ds, rfl⟩
      have hc := hg.digits c (by simp [hds])
      have := (digit_isDigit hc).2.2
      simp [Ends, LooseFrame.text, hds, this]

/-! ## the message parser -/

theorem pmsg_eq (be : Bool) (lit : Bytes) :
    ∃ r, parse1 { bestEffort := be } lit = some r ∧ pmsg be lit = ⟨r.msg, r.err.map .message⟩ :=
  ⟨_, parse1_eq _ _, by rw [pmsg, parse1_eq]⟩

theorem pmsg_ok {be : Bool} {lit : Bytes} {m : SyslogMessage} :
    pmsg be lit = ⟨some m, none⟩ ↔ parse1 {} lit = some ⟨some m, none⟩ := by
  rw [pmsg, parse1_eq, parse1_eq]
  cases descend false lit <;> simp [resultOf]

theorem pmsg_msg {be : Bool} {lit : Bytes} (h : (pmsg be lit).err = none) : ∃ m, parse1 {} lit = some ⟨some m, none⟩ := by
  rw [pmsg, parse1_eq] at h
  rw [parse1_eq]
  cases hd : descend false lit with
  | ok o => exact ⟨o.export, rfl⟩
  | err e part => rw [hd] at h; simp [resultOf] at h

theorem strict_pmsg (lit : Bytes) : (∃ m, pmsg false lit = ⟨some m, none⟩) ∨ ∃ e, pmsg false lit = ⟨none, some e⟩ := by
  rw [pmsg, parse1_eq]
  cases descend false lit <;> simp [resultOf]

/-- without a `<PRI>V` at its start nothing is returned -/
theorem pmsg_short (be : Bool) (lit : Bytes) (h : lit.head? ≠ some 60 ∨ lit.length ≤ 1) :
    ∃ e, pmsg be lit = ⟨none, some e⟩ := by
  obtain ⟨⟨msg, err⟩, h1, h2⟩ := pmsg_eq be lit
  cases err with
  | none =>
    obtain ⟨m, hm⟩ := pmsg_msg (be := be) (lit := lit) (by rw [h2]; rfl)
    obtain ⟨p, hp, rfl, -⟩ := (Props.C01_strict_accepts_iff_grammar lit m).mp hm
    exfalso
    rw [Parts.render] at h
    simp at h
  | some e =>
    cases be with
    | false =>
      rcases strict_pmsg lit with ⟨m, hm⟩ | ⟨e, he⟩
      · rw [h2] at hm; simp at hm
      · exact ⟨e, he⟩
    | true =>
      have := Props.C03_partial_message_iff false lit msg e h1
      cases msg with
      | none => exact ⟨.message e, by rw [h2]; rfl⟩
      | some m =>
        exfalso
        obtain ⟨pri, b, t, -, -, -, e'⟩ := this.1.mp rfl
        rw [e'] at h
        simp at h

end Verif.Octet
