import Verif.MessagesWorld

/-!
# C74: what a program sees of its messages

Any history of a program that creates messages, parses them from its buffers, copies them (`*a = *b`), calls setters, drops structured data
and overwrites its buffers. The observables are `World.see` (what one sees who follows the pointers of a message) and `World.Shares` (the
structured data pointers of two messages are the same and not nil).
-/

namespace Verif.Props
open Verif.Fsm Verif.Spec Verif.Messages
open Verif.Builder (Globals Entry Call)
open Verif.Rfc5424 (SyslogMessage SD slice)

/-! ## lists -/

theorem see_some {w : World} {i : Nat} {v : SyslogMessage} (h : w.see i = some v) :
    ∃ m, w.msgs[i]? = some m ∧ w.mem.see m = v ∧ m ∈ w.msgs ∧ i < w.msgs.length := by
  simp only [World.see, Option.map_eq_some_iff] at h
  obtain ⟨m, h1, h2⟩ := h
  exact ⟨m, h1, h2, List.mem_of_getElem? h1, (List.getElem?_eq_some_iff.mp h1).1⟩

theorem set_ne {l : List Msg} {i j : Nat} {m : Msg} (h : j ≠ i) : (l.set i m)[j]? = l[j]? := by
  simp [List.getElem?_set, Ne.symm h]

theorem set_eq {l : List Msg} {i : Nat} {m : Msg} (h : i < l.length) : (l.set i m)[i]? = some m := by simp [h]

theorem Shares.symm {w : World} {i j : Nat} (h : w.Shares i j) : w.Shares j i := by
  obtain ⟨a, b, r, h1, h2, h3, h4⟩ := h
  exact ⟨b, a, r, h2, h1, h4, h3⟩

/-- what a setter does to a message does not depend on the package variables -/
theorem run_any (c : Call) (v : SyslogMessage) : ∃ v', ∀ g, ∃ g', c.run (v, g) = some (v', g') := by
  cases c with
  | priority x =>
    by_cases h : x.toNat ≤ 191
    · exact ⟨_, fun g => ⟨_, (C21_priority v g x).1 h⟩⟩
    · exact ⟨_, fun g => ⟨_, (C21_priority v g x).2 (by omega)⟩⟩
  | version x =>
    by_cases h : 1 ≤ x.toNat ∧ x.toNat ≤ 999
    · exact ⟨_, fun g => ⟨_, (C21_version v g x).1 h⟩⟩
    · exact ⟨_, fun g => ⟨_, (C21_version v g x).2 h⟩⟩
  | timestamp x =>
    by_cases h : ∃ s : Stamp, s.WF ∧ s.Real ∧ x = s.render
    · obtain ⟨s, h1, h2, h3⟩ := h
      exact ⟨_, fun g => ⟨_, (C21_timestamp v g x).1 s h1 h2 h3⟩⟩
    · exact ⟨_, fun g => ⟨_, (C21_timestamp v g x).2 h⟩⟩
  | hostname x =>
    by_cases h : NameWF 255 x ∧ x ≠ [45]
    · exact ⟨_, fun g => ⟨_, (C21_hostname v g x).1 h⟩⟩
    · exact ⟨_, fun g => ⟨_, (C21_hostname v g x).2 h⟩⟩
  | appname x =>
    by_cases h : NameWF 48 x ∧ x ≠ [45]
    · exact ⟨_, fun g => ⟨_, (C21_appname v g x).1 h⟩⟩
    · exact ⟨_, fun g => ⟨_, (C21_appname v g x).2 h⟩⟩
  | procID x =>
    by_cases h : NameWF 128 x ∧ x ≠ [45]
    · exact ⟨_, fun g => ⟨_, (C21_procID v g x).1 h⟩⟩
    · exact ⟨_, fun g => ⟨_, (C21_procID v g x).2 h⟩⟩
  | msgID x =>
    by_cases h : NameWF 32 x ∧ x ≠ [45]
    · exact ⟨_, fun g => ⟨_, (C21_msgID v g x).1 h⟩⟩
    · exact ⟨_, fun g => ⟨_, (C21_msgID v g x).2 h⟩⟩
  | message x =>
    by_cases h : x = []
    · subst h; exact ⟨_, fun g => ⟨_, (C21_message v g []).2⟩⟩
    · exact ⟨_, fun g => ⟨_, (C21_message v g x).1 h⟩⟩
  | elementID x =>
    by_cases h : SdNameWF x
    · exact ⟨_, fun g => ⟨g, by rw [Call.run, (Builder.set_sdid g x v).1 h]; rfl⟩⟩
    · exact ⟨_, fun g => ⟨_, (C21_elementID v g x).2 h⟩⟩
  | parameter id name value =>
    by_cases hstart : SdNameWF id ∨ (v.structuredData.getD []).find id ≠ none
    · have hs : ∀ g, ∃ sd ps, Builder.set g .sdid id v = some { v with structuredData := some sd } ∧
          sd = Builder.ensure (v.structuredData.getD []) id ∧ sd.find id = some ps ∧ ps = ((v.structuredData.getD []).find id).getD [] :=
        fun g => Builder.setParameter_start g id v hstart
      generalize Builder.ensure (v.structuredData.getD []) id = sd at hs
      generalize ((v.structuredData.getD []).find id).getD [] = ps at hs
      have ht : ∀ g, Builder.set g .sdid id v = some { v with structuredData := some sd } ∧ sd.find id = some ps := by
        intro g
        obtain ⟨sd', ps', h1, h2, h3, h4⟩ := hs g
        subst h2; subst h4
        exact ⟨h1, h3⟩
      have ht := fun g => Builder.setParameter_tail (name := name) (value := value) (ht g).1 rfl (ht g).2
      by_cases hn : SdNameWF name
      · by_cases hv : ∃ x, Utf8 x ∧ value = escape x
        · obtain ⟨x, hu, hv⟩ := hv
          exact ⟨_, fun g => ⟨_, (ht g).1 hn x hu hv⟩⟩
        · exact ⟨_, fun g => ⟨_, (ht g).2.1 hn hv⟩⟩
      · by_cases hf : ps.find name = none
        · exact ⟨_, fun g => ⟨_, (ht g).2.2.1 hn hf⟩⟩
        · by_cases hv : ∃ x, Utf8 x ∧ value = escape x
          · obtain ⟨x, hu, hv⟩ := hv
            exact ⟨_, fun g => ⟨_, (ht g).2.2.2.1 hn hf x hu hv⟩⟩
          · exact ⟨_, fun g => ⟨_, (ht g).2.2.2.2 hn hf hv⟩⟩
    · rw [not_or] at hstart
      exact ⟨v, fun g => ⟨g, Builder.setParameter_none hstart.1 (Decidable.byContradiction hstart.2)⟩⟩

/-! ## one operation -/

theorem setter_ok {w : World} (h : OK w) {i : Nat} {v : SyslogMessage} (hi : w.see i = some v) (c : Call) :
    ∃ w' v', step w (.call i c) = some w' ∧ c.run (v, w.g) = some (v', w'.g) ∧ w'.see i = some v' ∧ w'.msgs.length = w.msgs.length ∧
      (∀ j vj, j ≠ i → w.see j = some vj →
        (w.Shares i j → w'.see j = some { vj with structuredData := v'.structuredData }) ∧ (¬ w.Shares i j → w'.see j = some vj)) ∧
      (∀ a b, a ≠ b → (w'.Shares a b ↔ w.Shares a b)) := by
  obtain ⟨m, h1, h2, h3, h4⟩ := see_some hi
  obtain ⟨s, g', e1, e2, e3⟩ := call_rel c w.g h.wf (h.inn m h3)
  rw [h2] at e2
  have hkey : ∀ j mj, j ≠ i → w.msgs[j]? = some mj → (∃ r, s.2.structuredData = some r ∧ mj.structuredData = some r) → w.Shares i j := by
    rintro j mj hj hm ⟨r, q1, q2⟩
    refine ⟨m, mj, r, h1, hm, ?_, q2⟩
    cases hs : m.structuredData with
    | none =>
      have := e3.fresh hs r q1
      have := (h.inn mj (List.mem_of_getElem? hm)).structuredData r q2
      omega
    | some r' => have := e3.keep r' hs; rw [q1] at this; exact this.symm
  refine ⟨{ w with mem := s.1, msgs := w.msgs.set i s.2, g := g' }, s.1.see s.2, ?_, e2, ?_, ?_, ?_, ?_⟩
  · simp only [step, h1, e1]
  · simp only [World.see, set_eq h4, Option.map_some]
  · exact List.length_set
  · intro j vj hj hsee
    obtain ⟨mj, k1, k2, k3, k4⟩ := see_some hsee
    have inj := h.inn mj k3
    constructor
    · rintro ⟨a, b, r, q1, q2, q3, q4⟩
      rw [h1] at q1; cases q1
      rw [k1] at q2; cases q2
      simp only [World.see, set_ne hj, k1, Option.map_some]
      rw [see_grows e3.grows inj, k2, see_sd, e3.keep r q3, q4]
    · intro hns
      simp only [World.see, set_ne hj, k1, Option.map_some]
      rw [see_other e3.grows inj, k2]
      intro x hx hx'
      exact hns (hkey j mj hj k1 ⟨x, hx', hx⟩)
  · have half : ∀ b, b ≠ i → ((∃ mb r, w.msgs[b]? = some mb ∧ s.2.structuredData = some r ∧ mb.structuredData = some r) ↔ w.Shares i b) := by
      intro b hb
      constructor
      · rintro ⟨mb, r, q1, q2, q3⟩; exact hkey b mb hb q1 ⟨r, q2, q3⟩
      · rintro ⟨x, mb, r, q1, q2, q3, q4⟩
        rw [h1] at q1; cases q1
        exact ⟨mb, r, q2, e3.keep r q3, q4⟩
    intro a b hab
    by_cases ha : a = i
    · subst ha
      rw [← half b (Ne.symm hab)]
      constructor
      · rintro ⟨x, mb, r, q1, q2, q3, q4⟩
        simp only [set_eq h4] at q1; cases q1
        simp only [set_ne (Ne.symm hab)] at q2
        exact ⟨mb, r, q2, q3, q4⟩
      · rintro ⟨mb, r, q1, q2, q3⟩
        exact ⟨s.2, mb, r, set_eq h4, by simp only [set_ne (Ne.symm hab)]; exact q1, q2, q3⟩
    · by_cases hb : b = i
      · subst hb
        constructor
        · rintro ⟨x, mb, r, q1, q2, q3, q4⟩
          simp only [set_eq h4] at q2; cases q2
          simp only [set_ne ha] at q1
          exact Shares.symm ((half a ha).mp ⟨x, r, q1, q4, q3⟩)
        · intro hs
          obtain ⟨mb, r, q1, q2, q3⟩ := (half a ha).mpr (Shares.symm hs)
          exact ⟨mb, s.2, r, by simp only [set_ne ha]; exact q1, set_eq h4, q3, q2⟩
      · simp only [World.Shares, set_ne ha, set_ne hb]

theorem getElem?_snoc {l : List Msg} {m : Msg} {j : Nat} (h : j < l.length) : (l ++ [m])[j]? = l[j]? := List.getElem?_append_left h

theorem parsed_ok {w : World} (h : OK w) {o : Rfc5424.Opts} {k : Nat} {r : Rfc5424.Result} {v : SyslogMessage}
    (hp : Rfc5424.parse1 o (w.buffers.getD k []) = some r) (hv : r.msg = some v) :
    ∃ w', step w (.parse o k) = some w' ∧ w'.msgs.length = w.msgs.length + 1 ∧ w'.see w.msgs.length = some v ∧
      (∀ j, j < w.msgs.length → w'.see j = w.see j ∧ ¬ w'.Shares j w.msgs.length) ∧
      (∀ a b, a < w.msgs.length → b < w.msgs.length → (w'.Shares a b ↔ w.Shares a b)) := by
  refine ⟨{ w with mem := (alloc w.mem v).1, msgs := w.msgs ++ [(alloc w.mem v).2] }, by simp only [step, hp, hv], by simp, ?_, ?_, ?_⟩
  · simp [World.see, alloc_see]
  · intro j hj
    constructor
    · simp only [World.see, getElem?_snoc hj]
      cases hm : w.msgs[j]? with
      | none => rfl
      | some m =>
        simp only [Option.map_some]
        rw [see_other (alloc_grows h.wf v) (h.inn m (List.mem_of_getElem? hm)) (fun x _ e => by cases e)]
    · rintro ⟨a, b, x, q1, q2, q3, q4⟩
      simp only [getElem?_snoc hj] at q1
      simp only [List.getElem?_concat_length, Option.some.injEq] at q2
      have := (h.inn a (List.mem_of_getElem? q1)).structuredData x q3
      subst q2
      simp only [alloc, Option.map_eq_some_iff] at q4
      obtain ⟨_, _, rfl⟩ := q4
      omega
  · intro a b ha hb
    simp only [World.Shares, getElem?_snoc ha, getElem?_snoc hb]

/-! ## the theorems -/

/-- C74: no history of operations panics. -/
theorem C74_no_panic (ops : List Op) : ∃ w, steps ops {} = some w := by
  have step1 : ∀ w o, OK w → ∃ w', step w o = some w' := by
    intro w o h
    cases o with
    | new => exact ⟨_, rfl⟩
    | buffer b => exact ⟨_, rfl⟩
    | fill k b => exact ⟨_, rfl⟩
    | assign i j => simp only [step]; cases w.msgs[j]? <;> exact ⟨_, rfl⟩
    | detach i => simp only [step]; cases w.msgs[i]? <;> exact ⟨_, rfl⟩
    | call i c =>
      cases hi : w.see i with
      | none =>
        have hm : w.msgs[i]? = none := by simp only [World.see, Option.map_eq_none_iff] at hi; exact hi
        exact ⟨w, by simp only [step, hm]⟩
      | some v => obtain ⟨w', v', h1, _⟩ := setter_ok h hi c; exact ⟨w', h1⟩
    | parse o k =>
      obtain ⟨r, hr⟩ : ∃ r, Rfc5424.parse1 o (w.buffers.getD k []) = some r := ⟨_, Rfc5424.parse1_eq _ _⟩
      cases hv : r.msg with
      | none => exact ⟨w, by simp only [step, hr, hv]⟩
      | some v => exact ⟨_, by simp only [step, hr, hv]; rfl⟩
  suffices ∀ ops w, OK w → ∃ w', steps ops w = some w' from this ops {} OK.start
  intro ops
  induction ops with
  | nil => intro w _; exact ⟨w, rfl⟩
  | cons o os ih =>
    intro w h
    obtain ⟨w1, h1⟩ := step1 w o h
    obtain ⟨w2, h2⟩ := ih w1 (h.step h1)
    exact ⟨w2, by simp only [steps, h1, h2]⟩

/-- C74: a setter call, after any history. It does to the message what C21 to C23 say (`Call.run`). Another message changes only if it
has the same structured data map: then the structured data it shows is that of the message. Which messages share does not change. -/
theorem C74_setter (ops : List Op) (w : World) (h : steps ops {} = some w) (i : Nat) (v : SyslogMessage) (hi : w.see i = some v) (c : Call) :
    ∃ w' v', step w (.call i c) = some w' ∧ c.run (v, w.g) = some (v', w'.g) ∧ w'.see i = some v' ∧ w'.msgs.length = w.msgs.length ∧
      (∀ j vj, j ≠ i → w.see j = some vj →
        (w.Shares i j → w'.see j = some { vj with structuredData := v'.structuredData }) ∧ (¬ w.Shares i j → w'.see j = some vj)) ∧
      (∀ a b, a ≠ b → (w'.Shares a b ↔ w.Shares a b)) :=
  setter_ok (OK.start.steps h) hi c

/-- C74: `Parse`, after any history: a new message that shows what C02 to C16 say and shares its structured data with no other; no other
message changes. -/
theorem C74_parse (ops : List Op) (w : World) (h : steps ops {} = some w) (o : Rfc5424.Opts) (k : Nat) (v : SyslogMessage)
    (e : Option Rfc5424.Err) (hp : Rfc5424.parse1 o (w.buffers.getD k []) = some ⟨some v, e⟩) :
    ∃ w', step w (.parse o k) = some w' ∧ w'.msgs.length = w.msgs.length + 1 ∧ w'.see w.msgs.length = some v ∧
      (∀ j, j < w.msgs.length → w'.see j = w.see j ∧ ¬ w'.Shares j w.msgs.length) ∧
      (∀ a b, a < w.msgs.length → b < w.msgs.length → (w'.Shares a b ↔ w.Shares a b)) :=
  parsed_ok (OK.start.steps h) hp rfl

/-- C74: `*mᵢ = *mⱼ`, after any history: the message shows what the other shows, and from then on shares with whom that one shares, and
with it too, if there is structured data. No other message changes. -/
theorem C74_assign (ops : List Op) (w : World) (_h : steps ops {} = some w) (i j : Nat) (hi : i < w.msgs.length) (v : SyslogMessage)
    (hj : w.see j = some v) :
    ∃ w', step w (.assign i j) = some w' ∧ w'.msgs.length = w.msgs.length ∧ w'.see i = some v ∧ (∀ a, a ≠ i → w'.see a = w.see a) ∧
      (i ≠ j → (w'.Shares i j ↔ v.structuredData ≠ none)) ∧
      (∀ a, a ≠ i → (w'.Shares i a ↔ w.Shares j a)) ∧
      (∀ a b, a ≠ i → b ≠ i → (w'.Shares a b ↔ w.Shares a b)) := by
  obtain ⟨m, h1, h2, -, -⟩ := see_some hj
  have key : ∀ a, a ≠ i → (({ w with msgs := w.msgs.set i m } : World).Shares i a ↔ w.Shares j a) := by
    intro a ha
    simp only [World.Shares, set_eq hi, set_ne ha, h1]
  refine ⟨{ w with msgs := w.msgs.set i m }, by simp only [step, h1], by simp, ?_, ?_, ?_, key, ?_⟩
  · simp only [World.see, set_eq hi, Option.map_some, h2]
  · intro a ha; simp only [World.see, set_ne ha]
  · intro hij
    rw [key j (Ne.symm hij)]
    subst h2
    constructor
    · rintro ⟨a, b, r, q1, q2, q3, q4⟩
      rw [h1] at q1; cases q1
      rw [see_sd, q3]; simp
    · intro hne
      cases hs : m.structuredData with
      | none => rw [see_sd, hs] at hne; exact absurd rfl hne
      | some r => exact ⟨m, m, r, h1, h1, hs, hs⟩
  · intro a b ha hb
    simp only [World.Shares, set_ne ha, set_ne hb]

/-- C74: `mᵢ.StructuredData = nil`, after any history: the message loses its structured data and shares with none; no other message
changes. -/
theorem C74_detach (ops : List Op) (w : World) (_h : steps ops {} = some w) (i : Nat) (v : SyslogMessage) (hi : w.see i = some v) :
    ∃ w', step w (.detach i) = some w' ∧ w'.msgs.length = w.msgs.length ∧ w'.see i = some { v with structuredData := none } ∧
      (∀ a, a ≠ i → w'.see a = w.see a) ∧ (∀ a, ¬ w'.Shares i a) ∧ (∀ a b, a ≠ i → b ≠ i → (w'.Shares a b ↔ w.Shares a b)) := by
  obtain ⟨m, h1, h2, -, h4⟩ := see_some hi
  refine ⟨{ w with msgs := w.msgs.set i { m with structuredData := none } }, by simp only [step, h1], by simp, ?_, ?_, ?_, ?_⟩
  · simp only [World.see, set_eq h4, Option.map_some]; subst h2; rfl
  · intro a ha; simp only [World.see, set_ne ha]
  · rintro a ⟨x, y, r, q1, q2, q3, q4⟩
    simp only [set_eq h4] at q1; cases q1; cases q3
  · intro a b ha hb
    simp only [World.Shares, set_ne ha, set_ne hb]

/-- C74: overwriting a buffer that was parsed changes no message. -/
theorem C74_buffers (ops : List Op) (w : World) (_h : steps ops {} = some w) (k : Nat) (bytes : Bytes) :
    ∃ w', step w (.fill k bytes) = some w' ∧ (∀ i, w'.see i = w.see i) ∧ (∀ a b, w'.Shares a b ↔ w.Shares a b) ∧
      (k < w.buffers.length → w'.buffers.getD k [] = bytes) :=
  ⟨_, rfl, fun _ => rfl, fun _ _ => Iff.rfl, fun hk => by simp [List.getD, hk]⟩

/-! ## messages that are not copied -/

/-- What the operations on message `i` do to its value; setter calls act as on a message alone in the world. -/
def own (i : Nat) : List Op → SyslogMessage → Option SyslogMessage
  | [], v => some v
  | .call a c :: os, v => if a = i then ((c.run (v, {})).map Prod.fst).bind (own i os) else own i os v
  | .detach a :: os, v => own i os (if a = i then { v with structuredData := none } else v)
  | _ :: os, v => own i os v

/-- the operation copies message `i`, or to it -/
def Copies (i : Nat) (o : Op) : Prop := ∃ a, o = .assign a i ∨ o = .assign i a

/-- C74: a message that shares with no other and is not copied shows, after any further history, what the operations on it alone have
made of it, whatever the program does to other messages and to its buffers. -/
theorem C74_independent (ops : List Op) (w : World) (h : steps ops {} = some w) (i : Nat) (v : SyslogMessage) (hi : w.see i = some v)
    (hn : ∀ j, j ≠ i → ¬ w.Shares i j) (later : List Op) (hl : ∀ o ∈ later, ¬ Copies i o) :
    ∃ w', steps later w = some w' ∧ own i later v = w'.see i := by
  have ok : OK w := OK.start.steps h
  clear h
  induction later generalizing w v with
  | nil => exact ⟨w, rfl, hi.symm⟩
  | cons o os ih =>
    have hos : ∀ o ∈ os, ¬ Copies i o := fun x hx => hl x (List.mem_cons_of_mem _ hx)
    have ho : ¬ Copies i o := hl o List.mem_cons_self
    suffices ∃ w1 v1, step w o = some w1 ∧ own i (o :: os) v = own i os v1 ∧ w1.see i = some v1 ∧ (∀ j, j ≠ i → ¬ w1.Shares i j) by
      obtain ⟨w1, v1, h1, h2, h3, h4⟩ := this
      obtain ⟨w', k1, k2⟩ := ih w1 v1 h3 h4 hos (ok.step h1)
      exact ⟨w', by simp only [steps, h1, k1], by rw [h2, k2]⟩
    obtain ⟨m, m1, m2, m3, m4⟩ := see_some hi
    cases o with
    | new =>
      refine ⟨_, v, rfl, rfl, ?_, ?_⟩
      · simp only [World.see, getElem?_snoc m4]; exact hi
      · rintro j hj ⟨a, b, r, q1, q2, q3, q4⟩
        simp only [getElem?_snoc m4] at q1
        by_cases hj' : j < w.msgs.length
        · simp only [getElem?_snoc hj'] at q2; exact hn j hj ⟨a, b, r, q1, q2, q3, q4⟩
        · have : b = {} := by
            rw [List.getElem?_append_right (by omega)] at q2
            exact List.mem_singleton.mp (List.mem_of_getElem? q2)
          subst this; cases q4
    | buffer b => exact ⟨_, v, rfl, rfl, hi, hn⟩
    | fill k b => exact ⟨_, v, rfl, rfl, hi, hn⟩
    | parse o k =>
      obtain ⟨r, hr⟩ : ∃ r, Rfc5424.parse1 o (w.buffers.getD k []) = some r := ⟨_, Rfc5424.parse1_eq _ _⟩
      cases hv : r.msg with
      | none => exact ⟨w, v, by simp only [step, hr, hv], rfl, hi, hn⟩
      | some x =>
        obtain ⟨w', k1, k2, k3, k4, k5⟩ := parsed_ok ok hr hv
        refine ⟨w', v, k1, rfl, by rw [(k4 i m4).1, hi], fun j hj hs => ?_⟩
        rcases Nat.lt_trichotomy j w.msgs.length with hj' | hj' | hj'
        · exact hn j hj ((k5 i j m4 hj').mp hs)
        · subst hj'; exact (k4 i m4).2 hs
        · obtain ⟨_, b, _, _, q2, _⟩ := hs
          have := (List.getElem?_eq_some_iff.mp q2).1; omega
    | assign a b =>
      have ha : a ≠ i := fun e => ho ⟨b, .inr (by rw [e])⟩
      have hb : b ≠ i := fun e => ho ⟨a, .inl (by rw [e])⟩
      cases hm : w.msgs[b]? with
      | none => exact ⟨w, v, by simp only [step, hm], rfl, hi, hn⟩
      | some x =>
        refine ⟨_, v, by simp only [step, hm]; rfl, rfl, ?_, ?_⟩
        · simp only [World.see, set_ne (Ne.symm ha)]; exact hi
        · rintro j hj ⟨p, q, r, q1, q2, q3, q4⟩
          simp only [set_ne (Ne.symm ha)] at q1
          by_cases hj' : j = a
          · subst hj'
            have hlt : j < w.msgs.length := by have := (List.getElem?_eq_some_iff.mp q2).1; simpa using this
            simp only [set_eq hlt] at q2; cases q2
            exact hn b hb ⟨p, _, r, q1, hm, q3, q4⟩
          · simp only [set_ne hj'] at q2
            exact hn j hj ⟨p, q, r, q1, q2, q3, q4⟩
    | detach a =>
      by_cases ha : a = i
      · subst ha
        refine ⟨_, { v with structuredData := none }, by simp only [step, m1]; rfl, by simp only [own, if_pos], ?_, ?_⟩
        · simp only [World.see, set_eq m4, Option.map_some]; subst m2; rfl
        · rintro j hj ⟨p, q, r, q1, q2, q3, q4⟩
          simp only [set_eq m4] at q1; cases q1; cases q3
      · cases hm : w.msgs[a]? with
        | none => exact ⟨w, v, by simp only [step, hm], by simp only [own, if_neg ha], hi, hn⟩
        | some x =>
          refine ⟨_, v, by simp only [step, hm]; rfl, by simp only [own, if_neg ha], ?_, ?_⟩
          · simp only [World.see, set_ne (Ne.symm ha)]; exact hi
          · rintro j hj ⟨p, q, r, q1, q2, q3, q4⟩
            simp only [set_ne (Ne.symm ha)] at q1
            by_cases hj' : j = a
            · subst hj'
              have hlt : j < w.msgs.length := by have := (List.getElem?_eq_some_iff.mp q2).1; simpa using this
              simp only [set_eq hlt] at q2; cases q2; cases q4
            · simp only [set_ne hj'] at q2
              exact hn j hj ⟨p, q, r, q1, q2, q3, q4⟩
    | call a c =>
      by_cases ha : a = i
      · subst ha
        obtain ⟨w', v', k1, k2, k3, k4, k5, k6⟩ := setter_ok ok hi c
        obtain ⟨u, hu⟩ := run_any c v
        obtain ⟨g1, e1⟩ := hu w.g
        obtain ⟨g2, e2⟩ := hu {}
        rw [e1] at k2; cases k2
        exact ⟨w', _, k1, by simp only [own, if_pos, e2, Option.map_some, Option.bind_some], k3,
          fun j hj hs => hn j hj ((k6 a j (Ne.symm hj)).mp hs)⟩
      · cases hsee : w.see a with
        | none =>
          have hm : w.msgs[a]? = none := by simp only [World.see, Option.map_eq_none_iff] at hsee; exact hsee
          exact ⟨w, v, by simp only [step, hm], by simp only [own, if_neg ha], hi, hn⟩
        | some x =>
          obtain ⟨w', v', k1, k2, k3, k4, k5, k6⟩ := setter_ok ok hsee c
          exact ⟨w', v, k1, by simp only [own, if_neg ha], (k5 i v (Ne.symm ha) hi).2 (fun hs => hn a ha (Shares.symm hs)),
            fun j hj hs => hn j hj ((k6 i j (Ne.symm hj)).mp hs)⟩

/-! ## examples -/

/-- `<1>1 - - - - - [a b="c"] x` -/
def wire : Bytes := [60, 49, 62, 49, 32, 45, 32, 45, 32, 45, 32, 45, 32, 45, 32, 91, 97, 32, 98, 61, 34, 99, 34, 93, 32, 120]

/-- a message is parsed and copied to a new one -/
def copying : List Op := [.buffer wire, .parse {} 0, .new, .assign 1 0]

/-- hostnames and structured data of the two messages -/
def twoOf (w : World) : List (Option Bytes × Option SD) :=
  [0, 1].map fun i => ((w.see i).bind (·.hostname), (w.see i).bind (·.structuredData))

instance : DecidableEq (Option Bytes × Option SD) := fun a b => decidable_of_iff (a.1 = b.1 ∧ a.2 = b.2) (by cases a; cases b; simp)

/-- C74: copying a message does not copy its structured data. A parsed message is copied to another one; the parameter of the copy is set, and
its hostname. The original has the new parameter, too, but not the hostname. -/
theorem C74_copy_is_shallow :
    (steps copying {}).map twoOf = some [(none, some [([97], [([98], [99])])]), (none, some [([97], [([98], [99])])])] ∧
    (steps (copying ++ [.call 1 (.parameter [97] [98] [100]), .call 1 (.hostname [104])]) {}).map twoOf =
      some [(none, some [([97], [([98], [100])])]), (some [104], some [([97], [([98], [100])])])] := by
  constructor <;> decide +kernel

/-- without the copy the original stays as it is, while the new message gets a map of its own -/
example : (steps ([.buffer wire, .parse {} 0, .new] ++ [.call 1 (.parameter [97] [98] [100]), .call 1 (.hostname [104])]) {}).map twoOf =
    some [(none, some [([97], [([98], [99])])]), (some [104], some [([97], [([98], [100])])])] := by decide +kernel

/-- the hypotheses of `C74_independent` are met by the parsed message of this history; later operations are on it and on others -/
example : ∃ w v, steps [.buffer wire, .parse {} 0, .new] {} = some w ∧ w.see 0 = some v ∧ (∀ j, j ≠ 0 → ¬ w.Shares 0 j) ∧
    ∀ o ∈ [Op.call 1 (.elementID [97]), .call 0 (.hostname [104]), .fill 0 [], .new, .assign 2 1, .call 2 (.elementID [98])],
      ¬ Copies 0 o := by
  obtain ⟨w, hw⟩ := C74_no_panic [.buffer wire, .parse {} 0, .new]
  have h1 : (steps [.buffer wire, .parse {} 0, .new] {}).map (fun w => ((w.see 0).isSome, w.msgs.map (·.structuredData))) =
    some (true, [some 0, none]) := by decide +kernel
  rw [hw] at h1
  simp only [Option.map_some, Option.some.injEq, Prod.mk.injEq] at h1
  obtain ⟨h1, h2⟩ := h1
  obtain ⟨v, hv⟩ := Option.isSome_iff_exists.mp h1
  refine ⟨w, v, hw, hv, ?_, ?_⟩
  · rintro j hj ⟨a, b, r, q1, q2, q3, q4⟩
    have : (w.msgs.map (·.structuredData))[j]? = some (some r) := by rw [List.getElem?_map, q2]; simp [q4]
    rw [h2] at this
    match j, hj with
    | 1, _ => simp at this
    | j + 2, _ => simp at this
  · rintro o ho ⟨a, h | h⟩ <;> subst h <;> simp at ho

end Verif.Props
