import Verif.MessagesLemmas
import Verif.Props.Builder

/-! # The setters on the heap do what they do on values -/

namespace Verif.Messages
open Verif.Fsm Verif.Gen.Builder
open Verif.Builder (Globals Entry Call)
open Verif.Rfc5424 (SyslogMessage SD slice)

/-- from heap `h0` and message `m0` to heap `h` and message `m`: only the map of the message may have been written -/
structure Moves (h0 : Mem) (m0 : Msg) (h : Mem) (m : Msg) : Prop where
  wf : WF h
  inn : In h m
  grows : Grows m.structuredData h0 h
  keep : ∀ r, m0.structuredData = some r → m.structuredData = some r
  fresh : m0.structuredData = none → ∀ r, m.structuredData = some r → h0.maps.length ≤ r

theorem Moves.refl {h : Mem} {m : Msg} (hw : WF h) (hi : In h m) : Moves h m h m :=
  ⟨hw, hi, Grows.refl _ _, fun _ e => e, fun e r e' => by rw [e] at e'; cases e'⟩

theorem Moves.sdlt {h0 : Mem} {m0 : Msg} {h : Mem} {m : Msg} (hm : Moves h0 m0 h m) (hi0 : In h0 m0) {x : Nat} (hx : x < h0.maps.length)
    (hne : some x ≠ m0.structuredData) : some x ≠ m.structuredData := by
  intro e
  cases h0s : m0.structuredData with
  | none => have := hm.fresh h0s x e.symm; omega
  | some r => have := hm.keep r h0s; rw [← e] at this; cases this; exact hne h0s.symm

theorem Moves.trans {h0 h1 h2 : Mem} {m0 m1 m2 : Msg} (a : Moves h0 m0 h1 m1) (b : Moves h1 m1 h2 m2) : Moves h0 m0 h2 m2 where
  wf := b.wf
  inn := b.inn
  grows := by
    refine ⟨a.grows.octets.trans b.grows.octets, a.grows.times.trans b.grows.times, a.grows.texts.trans b.grows.texts,
      Nat.le_trans a.grows.maps b.grows.maps, ?_⟩
    intro x hx hne
    have hne1 : some x ≠ m1.structuredData := by
      intro e
      exact hne ((b.keep x e.symm).symm)
    rw [b.grows.sd x (Nat.lt_of_lt_of_le hx a.grows.maps) hne, a.grows.sd x hx hne1]
  keep r e := b.keep r (a.keep r e)
  fresh e r e' := by
    cases h1s : m1.structuredData with
    | none => exact Nat.le_trans a.grows.maps (b.fresh h1s r e')
    | some x =>
      have := b.keep x h1s
      rw [e'] at this; cases this
      exact a.fresh e r h1s

/-- the automaton on the heap and the automaton on values -/
structure Rel (h0 : Mem) (m0 : Msg) (b : B) (v : Builder.B) : Prop where
  data : v.data = b.data
  p : v.p = b.p
  pb : v.pb = b.pb
  backslashes : v.backslashes = b.backslashes
  g : v.g = b.g
  see : v.sm = b.mem.see b.sm
  moves : Moves h0 m0 b.mem b.sm

theorem getD_length {α : Type} (l : List α) (x : α) (d : α) : (l ++ [x]).getD l.length d = x := by simp [List.getD]

/-- new cells only -/
theorem grows_cells {h : Mem} (r : Option Nat) {o : List UInt8} {ti : List GoTime.Time} {te : List Bytes} :
    Grows r h { h with octets := h.octets ++ o, times := h.times ++ ti, texts := h.texts ++ te } :=
  ⟨List.prefix_append _ _, List.prefix_append _ _, List.prefix_append _ _, Nat.le_refl _, fun _ _ _ => rfl⟩

theorem wf_cells {h : Mem} (hw : WF h) {o : List UInt8} {ti : List GoTime.Time} {te : List Bytes} :
    WF { h with octets := h.octets ++ o, times := h.times ++ ti, texts := h.texts ++ te } := ⟨hw.sorted, hw.bound, hw.inj⟩

theorem see_text {h : Mem} {m : Msg} (hi : In h m) (t : Bytes) : (newText h t).see m = h.see m := by
  have hg : Grows none h (newText h t) := ⟨List.prefix_refl _, List.prefix_refl _, List.prefix_append _ _, Nat.le_refl _, fun _ _ _ => rfl⟩
  exact see_other hg hi (fun x _ => by simp)

theorem grows_text (r : Option Nat) (h : Mem) (t : Bytes) : Grows r h (newText h t) :=
  ⟨List.prefix_refl _, List.prefix_refl _, List.prefix_append _ _, Nat.le_refl _, fun _ _ _ => rfl⟩

/-- a new text, pointed to by one field -/
theorem moves_text {h : Mem} {m m' : Msg} (hw : WF h) (hi : In h m) (t : Bytes) (hs : m'.structuredData = m.structuredData)
    (hi' : In (newText h t) m') : Moves h m (newText h t) m' :=
  ⟨⟨hw.sorted, hw.bound, hw.inj⟩, hi', grows_text _ h t, fun r e => hs.trans e, fun e r e' => by rw [hs, e] at e'; cases e'⟩

theorem withText_rel {h0 : Mem} {m0 : Msg} {b : B} {v : Builder.B} (hr : Rel h0 m0 b v) {f : Bytes → Step B} {f' : Bytes → Step Builder.B}
    (h : ∀ t, StepRel (Rel h0 m0) (f t) (f' t)) : StepRel (Rel h0 m0) (withText b f) (Builder.withText v f') := by
  simp only [withText, Builder.withText, hr.data, hr.p, hr.pb]
  cases slice b.data b.pb b.p with
  | none => trivial
  | some t => exact h t

theorem see_sd (h : Mem) (m : Msg) : (h.see m).structuredData = m.structuredData.map h.sd := rfl

theorem moves_write {h : Mem} {m : Msg} (hw : WF h) (hi : In h m) {r : Nat} (hr : m.structuredData = some r) {k : Bytes} {x : Nat}
    (hx : inner h r k = some x) (ps : SMap Bytes) : Moves h m (write h x ps) m where
  wf := write_wf hw x ps
  inn := ⟨hi.facility, hi.severity, hi.priority, hi.timestamp, hi.hostname, hi.appname, hi.procID, hi.msgID, hi.message, hi.structuredData⟩
  grows := by
    refine ⟨List.prefix_refl _, List.prefix_refl _, List.prefix_refl _, Nat.le_refl _, ?_⟩
    intro y _ hne
    exact write_other hw hx ps (fun e => hne (by rw [hr, e]))
  keep _ e := e
  fresh e r e' := by rw [e] at e'; cases e'

theorem see_write {h : Mem} {m : Msg} (hw : WF h) {r : Nat} (hr : m.structuredData = some r) {k : Bytes} {x : Nat}
    (hx : inner h r k = some x) (ps : SMap Bytes) :
    (write h x ps).see m = { h.see m with structuredData := some ((h.sd r).insert k ps) } := by
  have e : (write h x ps).see m = { h.see m with structuredData := m.structuredData.map (write h x ps).sd } := rfl
  rw [e, hr]
  simp only [Option.map_some, write_same hw hx]

theorem act_rel (h0 : Mem) (m0 : Msg) (a : Act) (b : B) (v : Builder.B) (hr : Rel h0 m0 b v) :
    StepRel (Rel h0 m0) (act a b) (Builder.act a v) := by
  have hw := hr.moves.wf
  have hi := hr.moves.inn
  cases a with
  | mark => exact { hr with pb := hr.p }
  | markslash => exact { hr with backslashes := by simp [hr.backslashes, hr.p] }
  | setTimestamp =>
    apply withText_rel hr
    intro t
    simp only []
    cases GoTime.parseRFC3339Micro t with
    | none => exact hr
    | some tm =>
      have hg : Grows b.sm.structuredData b.mem { b.mem with times := b.mem.times ++ [tm] } :=
        ⟨List.prefix_refl _, List.prefix_append _ _, List.prefix_refl _, Nat.le_refl _, fun _ _ _ => rfl⟩
      have hi' := hi.grows hg
      refine ⟨hr.data, hr.p, hr.pb, hr.backslashes, hr.g, ?_, hr.moves.trans ⟨⟨hw.sorted, hw.bound, hw.inj⟩, ?_, hg, fun _ e => e, ?_⟩⟩
      · show { v.sm with timestamp := some tm } = _
        rw [hr.see]
        simp only [Mem.see, Option.map_some, getD_length]; rfl
      · exact { hi' with timestamp := by intro x e; cases e; simp }
      · intro e r e'; rw [e] at e'; cases e'
  | setHostname =>
    apply withText_rel hr
    intro t
    by_cases ht : t ≠ [45]
    · simp only [if_pos ht]
      refine ⟨hr.data, hr.p, hr.pb, hr.backslashes, hr.g, ?_, hr.moves.trans (moves_text hw hi t rfl ?_)⟩
      · show { v.sm with hostname := some t } = _
        rw [hr.see, ← see_text hi t]
        simp only [Mem.see, newText, Option.map_some, getD_length]
      · exact { hi.grows (grows_text none b.mem t) with hostname := by intro x e; cases e; simp [newText] }
    · simp only [if_neg ht]; exact hr
  | setAppname =>
    apply withText_rel hr
    intro t
    by_cases ht : t ≠ [45]
    · simp only [if_pos ht]
      refine ⟨hr.data, hr.p, hr.pb, hr.backslashes, hr.g, ?_, hr.moves.trans (moves_text hw hi t rfl ?_)⟩
      · show { v.sm with appname := some t } = _
        rw [hr.see, ← see_text hi t]
        simp only [Mem.see, newText, Option.map_some, getD_length]
      · exact { hi.grows (grows_text none b.mem t) with appname := by intro x e; cases e; simp [newText] }
    · simp only [if_neg ht]; exact hr
  | setProcid =>
    apply withText_rel hr
    intro t
    by_cases ht : t ≠ [45]
    · simp only [if_pos ht]
      refine ⟨hr.data, hr.p, hr.pb, hr.backslashes, hr.g, ?_, hr.moves.trans (moves_text hw hi t rfl ?_)⟩
      · show { v.sm with procID := some t } = _
        rw [hr.see, ← see_text hi t]
        simp only [Mem.see, newText, Option.map_some, getD_length]
      · exact { hi.grows (grows_text none b.mem t) with procID := by intro x e; cases e; simp [newText] }
    · simp only [if_neg ht]; exact hr
  | setMsgid =>
    apply withText_rel hr
    intro t
    by_cases ht : t ≠ [45]
    · simp only [if_pos ht]
      refine ⟨hr.data, hr.p, hr.pb, hr.backslashes, hr.g, ?_, hr.moves.trans (moves_text hw hi t rfl ?_)⟩
      · show { v.sm with msgID := some t } = _
        rw [hr.see, ← see_text hi t]
        simp only [Mem.see, newText, Option.map_some, getD_length]
      · exact { hi.grows (grows_text none b.mem t) with msgID := by intro x e; cases e; simp [newText] }
    · simp only [if_neg ht]; exact hr
  | setMsg =>
    apply withText_rel hr
    intro t
    by_cases ht : t ≠ []
    · simp only [if_pos ht]
      refine ⟨hr.data, hr.p, hr.pb, hr.backslashes, hr.g, ?_, hr.moves.trans (moves_text hw hi t rfl ?_)⟩
      · show { v.sm with message := some t } = _
        rw [hr.see, ← see_text hi t]
        simp only [Mem.see, newText, Option.map_some, getD_length]
      · exact { hi.grows (grows_text none b.mem t) with message := by intro x e; cases e; simp [newText] }
    · simp only [if_neg ht]; exact hr
  | setSdid =>
    apply withText_rel hr
    intro t
    -- the message after the first `if`
    have key : ∀ (b1 : B) (r : Nat) (sd : SD), b1.sm.structuredData = some r → b1.mem.sd r = sd →
        Rel h0 m0 b1 { v with sm := { v.sm with structuredData := some sd } } →
        StepRel (Rel h0 m0)
          (match inner b1.mem r t with
            | some _ => Step.next b1
            | none => .next { b1 with mem := newElem b1.mem r t })
          (match sd.find t with
            | some _ => Step.next { v with sm := { v.sm with structuredData := some sd } }
            | none => .next { v with sm := { v.sm with structuredData := some (sd.insert t []) } }) := by
      intro b1 r sd hs hsd hr1
      subst hsd
      rw [find_sd]
      cases hx : inner b1.mem r t with
      | some x => exact hr1
      | none =>
        have hlt := hr1.moves.inn.structuredData r hs
        refine ⟨hr1.data, hr1.p, hr1.pb, hr1.backslashes, hr1.g, ?_, hr1.moves.trans ⟨newElem_wf hr1.moves.wf hlt t, ?_, ?_, fun _ e => e, ?_⟩⟩
        · have e1 := hr1.see
          show { v.sm with structuredData := some ((b1.mem.sd r).insert t []) } = (newElem b1.mem r t).see b1.sm
          have e2 : (newElem b1.mem r t).see b1.sm = { b1.mem.see b1.sm with structuredData := b1.sm.structuredData.map (newElem b1.mem r t).sd } := rfl
          rw [e2, hs, ← e1]
          simp only [Option.map_some, newElem_same hr1.moves.wf hlt]
        · have hi1 := hr1.moves.inn
          exact ⟨hi1.facility, hi1.severity, hi1.priority, hi1.timestamp, hi1.hostname, hi1.appname, hi1.procID, hi1.msgID, hi1.message,
            by intro x e; simpa [newElem] using hi1.structuredData x e⟩
        · refine ⟨List.prefix_refl _, List.prefix_refl _, List.prefix_refl _, by simp [newElem], ?_⟩
          intro y _ hne
          exact newElem_other hr1.moves.wf hlt t (fun e => hne (by rw [hs, e]))
        · intro e r e'; rw [e] at e'; cases e'
    cases hs : b.sm.structuredData with
    | some r =>
      have hv : v.sm.structuredData = some (b.mem.sd r) := by rw [hr.see, see_sd, hs]; rfl
      have := key b r (b.mem.sd r) hs rfl (by
        have : { v.sm with structuredData := some (b.mem.sd r) } = v.sm := by rw [← hv]
        rw [this]; exact hr)
      simp only [hv, Option.getD_some, hs]
      exact this
    | none =>
      have hv : v.sm.structuredData = none := by rw [hr.see, see_sd, hs]; rfl
      have hsd : (newMap b.mem).sd b.mem.maps.length = [] := by
        rw [newMap_sd]; simp [Mem.sd, List.getD]
      have := key { b with mem := newMap b.mem, sm := { b.sm with structuredData := some b.mem.maps.length } } b.mem.maps.length [] rfl hsd (by
        refine ⟨hr.data, hr.p, hr.pb, hr.backslashes, hr.g, ?_, hr.moves.trans ⟨newMap_wf hw, ?_, ?_, ?_, ?_⟩⟩
        · show { v.sm with structuredData := some [] } = (newMap b.mem).see { b.sm with structuredData := some b.mem.maps.length }
          have e2 : (newMap b.mem).see { b.sm with structuredData := some b.mem.maps.length } =
            { b.mem.see b.sm with structuredData := some ((newMap b.mem).sd b.mem.maps.length) } := rfl
          rw [e2, hsd, ← hr.see]
        · exact ⟨hi.facility, hi.severity, hi.priority, hi.timestamp, hi.hostname, hi.appname, hi.procID, hi.msgID, hi.message,
            by intro x e; cases e; simp [newMap]⟩
        · exact ⟨List.prefix_refl _, List.prefix_refl _, List.prefix_refl _, by simp [newMap], fun x _ _ => newMap_sd _ x⟩
        · intro r e; rw [hs] at e; cases e
        · intro _ r e; cases e; exact Nat.le_refl _)
      simp only [hv, Option.getD_none]
      exact this
  | setSdpn =>
    simp only [act, Builder.act]
    cases hs : b.sm.structuredData with
    | none =>
      have hv : v.sm.structuredData = none := by rw [hr.see, see_sd, hs]; rfl
      rw [hv]; trivial
    | some r =>
      have hv : v.sm.structuredData = some (b.mem.sd r) := by rw [hr.see, see_sd, hs]; rfl
      rw [hv]
      apply withText_rel hr
      intro t
      simp only [find_sd, hr.g]
      cases hx : inner b.mem r b.g.currentid with
      | none => trivial
      | some x =>
        refine ⟨hr.data, hr.p, hr.pb, hr.backslashes, rfl, ?_, hr.moves.trans (moves_write hw hi hs hx _)⟩
        show _ = (write b.mem x _).see b.sm
        rw [see_write hw hs hx, ← hr.see]
  | setSdpv =>
    apply withText_rel hr
    intro t
    simp only [hr.backslashes, hr.pb, hr.g]
    cases (if b.backslashes.length > 0 then Common.removeBytes t (b.backslashes.map Int.ofNat) b.pb else some t) with
    | none => trivial
    | some text =>
      simp only []
      cases hs : b.sm.structuredData with
      | none =>
        have hv : v.sm.structuredData = none := by rw [hr.see, see_sd, hs]; rfl
        rw [hv]; trivial
      | some r =>
        have hv : v.sm.structuredData = some (b.mem.sd r) := by rw [hr.see, see_sd, hs]; rfl
        rw [hv]
        simp only [find_sd]
        cases hx : inner b.mem r b.g.currentid with
        | none => trivial
        | some x =>
          refine ⟨hr.data, hr.p, rfl, rfl, rfl, ?_, hr.moves.trans (moves_write hw hi hs hx _)⟩
          show _ = (write b.mem x _).see b.sm
          rw [see_write hw hs hx, ← hr.see]

theorem set_rel (g : Globals) (e : Entry) (value : Bytes) {h : Mem} {m : Msg} (hw : WF h) (hi : In h m) :
    match set g e value h m, Builder.set g e value (h.see m) with
    | some s, some v => v = s.1.see s.2 ∧ Moves h m s.1 s.2
    | none, none => True
    | _, _ => False := by
  have := run_rel (T := Builder.T) (R := Rel h m) (adv := adv) (adv' := Builder.adv) (act_rel h m)
    (fun b v hr => { hr with p := by show v.p + 1 = b.p + 1; rw [hr.p] }) value e.translate
    { data := value, mem := h, sm := m, g := g } { data := value, sm := h.see m, g := g }
    ⟨rfl, rfl, rfl, rfl, rfl, rfl, Moves.refl hw hi⟩
  simp only [set, Builder.set]
  cases e1 : run Builder.T act adv value e.translate { data := value, mem := h, sm := m, g := g } <;>
    cases e2 : run Builder.T Builder.act Builder.adv value e.translate { data := value, sm := h.see m, g := g } <;>
    rw [e1, e2] at this <;> first | exact this.elim | trivial | skip
  exact ⟨this.2.see, this.2.moves⟩

/-- a setter call on the heap and on values -/
theorem call_rel (c : Call) (g : Globals) {h : Mem} {m : Msg} (hw : WF h) (hi : In h m) :
    ∃ s g', call c g h m = some (s, g') ∧ c.run (h.see m, g) = some (s.1.see s.2, g') ∧ Moves h m s.1 s.2 := by
  have total : ∀ e value, (∃ v, Builder.set g e value (h.see m) = some v) →
      ∃ s, set g e value h m = some s ∧ Builder.set g e value (h.see m) = some (s.1.see s.2) ∧ Moves h m s.1 s.2 := by
    intro e value ⟨v, hv⟩
    have := set_rel g e value hw hi
    cases hs : set g e value h m with
    | none => rw [hs, hv] at this; exact this.elim
    | some s => rw [hs, hv] at this; exact ⟨s, rfl, by rw [hv, this.1], this.2⟩
  obtain ⟨sm', g', hc, _⟩ := Props.C22_only_own_field c (h.see m) g
  have simple : ∀ e value, (Builder.set g e value (h.see m)).map (·, g) = some (sm', g') →
      ∃ s g'', (set g e value h m).map (·, g) = some (s, g'') ∧ (Builder.set g e value (h.see m)).map (·, g) = some (s.1.see s.2, g'') ∧
        Moves h m s.1 s.2 := by
    intro e value hh
    cases hv : Builder.set g e value (h.see m) with
    | none => rw [hv] at hh; cases hh
    | some v =>
      obtain ⟨s, h1, h2, h3⟩ := total e value ⟨v, hv⟩
      rw [hv] at h2
      exact ⟨s, g, by rw [h1]; rfl, by rw [Option.some.inj h2]; rfl, h3⟩
  cases c with
  | priority v =>
    refine ⟨setPriority h m v, g, rfl, ?_, ?_⟩
    · simp only [Call.run, Builder.setPriority, setPriority]
      by_cases hp : Common.validPriority v = true
      · simp only [if_pos hp]
        have hg : Grows none h { h with octets := h.octets ++ [v, v / 8, v % 8] } :=
          ⟨List.prefix_append _ _, List.prefix_refl _, List.prefix_refl _, Nat.le_refl _, fun _ _ _ => rfl⟩
        have e1 := see_other hg hi (fun x _ => by simp)
        rw [← e1]
        simp [Mem.see, Base.computeFromPriority, List.getD]
      · simp only [if_neg hp]
    · simp only [setPriority]
      by_cases hp : Common.validPriority v = true
      · simp only [if_pos hp]
        have hg : ∀ r, Grows r h { h with octets := h.octets ++ [v, v / 8, v % 8] } := fun r =>
          ⟨List.prefix_append _ _, List.prefix_refl _, List.prefix_refl _, Nat.le_refl _, fun _ _ _ => rfl⟩
        refine ⟨⟨hw.sorted, hw.bound, hw.inj⟩, ?_, hg _, fun _ e => e, fun e r e' => by rw [e] at e'; cases e'⟩
        exact { hi.grows (hg none) with
          facility := by intro x e; cases e; simp
          severity := by intro x e; cases e; simp
          priority := by intro x e; cases e; simp }
      · simp only [if_neg hp]; exact Moves.refl hw hi
  | version v =>
    refine ⟨setVersion h m v, g, rfl, ?_, ?_⟩
    · simp only [Call.run, Builder.setVersion, setVersion]
      by_cases hp : Common.validVersion v = true
      · simp only [if_pos hp]; rfl
      · simp only [if_neg hp]
    · simp only [setVersion]
      by_cases hp : Common.validVersion v = true
      · simp only [if_pos hp]
        exact ⟨hw, ⟨hi.facility, hi.severity, hi.priority, hi.timestamp, hi.hostname, hi.appname, hi.procID, hi.msgID, hi.message, hi.structuredData⟩,
          Grows.refl _ _, fun _ e => e, fun e r e' => by rw [e] at e'; cases e'⟩
      · simp only [if_neg hp]; exact Moves.refl hw hi
  | timestamp w => exact simple _ _ hc
  | hostname w => exact simple _ _ hc
  | appname w => exact simple _ _ hc
  | procID w => exact simple _ _ hc
  | msgID w => exact simple _ _ hc
  | elementID w => exact simple _ _ hc
  | message w => exact simple _ _ hc
  | parameter id name value =>
    have hc' : Builder.setParameter g id name value (h.see m) = some (sm', g') := hc
    clear hc
    show ∃ s g'', setParameter g id name value h m = some (s, g'') ∧ Builder.setParameter g id name value (h.see m) = some (s.1.see s.2, g'') ∧ _
    simp only [setParameter, Builder.setParameter] at hc' ⊢
    have r1 := set_rel g .sdid id hw hi
    cases h1 : Builder.set g .sdid id (h.see m) with
    | none => rw [h1] at hc'; cases hc'
    | some v1 =>
      rw [h1] at hc' r1
      cases k1 : set g .sdid id h m with
      | none => rw [k1] at r1; exact r1.elim
      | some s1 =>
        rw [k1] at r1
        obtain ⟨rfl, mv1⟩ := r1
        have he : Builder.hasElement id (s1.1.see s1.2) = hasElement id s1.1 s1.2 := by
          simp only [Builder.hasElement, hasElement, see_sd]
          cases s1.2.structuredData with
          | none => rfl
          | some r => simp only [Option.map_some, find_sd, Option.isSome_map]
        simp only [he] at hc' ⊢
        by_cases hb : hasElement id s1.1 s1.2 = true
        · simp only [if_pos hb] at hc' ⊢
          have r2 := set_rel { g with currentid := id } .sdpn name mv1.wf mv1.inn
          cases h2 : Builder.set { g with currentid := id } .sdpn name (s1.1.see s1.2) with
          | none => rw [h2] at hc'; cases hc'
          | some v2 =>
            rw [h2] at hc' r2
            cases k2 : set { g with currentid := id } .sdpn name s1.1 s1.2 with
            | none => rw [k2] at r2; exact r2.elim
            | some s2 =>
              rw [k2] at r2
              obtain ⟨rfl, mv2⟩ := r2
              have hp : Builder.hasParam id name (s2.1.see s2.2) = hasParam id name s2.1 s2.2 := by
                simp only [Builder.hasParam, hasParam, see_sd]
                cases s2.2.structuredData with
                | none => rfl
                | some r =>
                  simp only [Option.map_some, find_sd]
                  cases inner s2.1 r id <;> rfl
              simp only [hp] at hc' ⊢
              by_cases hb2 : hasParam id name s2.1 s2.2 = true
              · simp only [if_pos hb2] at hc' ⊢
                have r3 := set_rel { currentid := id, currentparamname := name } .sdpv value mv2.wf mv2.inn
                cases h3 : Builder.set { currentid := id, currentparamname := name } .sdpv value (s2.1.see s2.2) with
                | none => rw [h3] at hc'; cases hc'
                | some v3 =>
                  rw [h3] at r3
                  cases k3 : set { currentid := id, currentparamname := name } .sdpv value s2.1 s2.2 with
                  | none => rw [k3] at r3; exact r3.elim
                  | some s3 =>
                    rw [k3] at r3
                    obtain ⟨rfl, mv3⟩ := r3
                    exact ⟨s3, _, rfl, rfl, (mv1.trans mv2).trans mv3⟩
              · simp only [if_neg hb2]
                exact ⟨s2, _, rfl, rfl, mv1.trans mv2⟩
        · simp only [if_neg hb]
          exact ⟨s1, _, rfl, rfl, mv1⟩

end Verif.Messages
