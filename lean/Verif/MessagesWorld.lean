import Verif.MessagesSet
import Verif.Props.Rfc5424

/-! # Every history of a program that uses messages -/

namespace Verif.Messages
open Verif.Fsm
open Verif.Builder (Globals Entry Call)
open Verif.Rfc5424 (SyslogMessage SD slice)

/-! ## the maps of a parsed message are maps -/

/-- the entries are in order -/
def OutSorted (m : Rfc5424.M) : Prop := ∀ sd, m.out.structuredData = some sd → sd.Sorted

theorem withText_sorted {m : Rfc5424.M} {f : Bytes → Step Rfc5424.M}
    (h : ∀ t, StepRel (fun m n => m = n ∧ OutSorted m) (f t) (f t)) :
    StepRel (fun m n => m = n ∧ OutSorted m) (Rfc5424.withText m f) (Rfc5424.withText m f) := by
  simp only [Rfc5424.withText]
  cases m.text with
  | none => trivial
  | some t => exact h t

theorem parse_act_sorted (a : Gen.Rfc5424.Act) (m n : Rfc5424.M) (h : m = n ∧ OutSorted m) :
    StepRel (fun m n => m = n ∧ OutSorted m) (Rfc5424.act a m) (Rfc5424.act a n) := by
  obtain ⟨rfl, h⟩ := h
  have hf : ∀ (k : Rfc5424.ErrKind) (m' : Rfc5424.M), OutSorted m' →
      StepRel (fun m n => m = n ∧ OutSorted m) (Rfc5424.fail k m') (Rfc5424.fail k m') := fun k m' h' => ⟨⟨rfl, h'⟩, rfl⟩
  cases a with
  | mark => exact ⟨rfl, h⟩
  | markmsg => exact ⟨rfl, h⟩
  | selectMsgMode =>
    simp only [Rfc5424.act]
    by_cases hc : m.compliantMsg = true
    · simp only [if_pos hc]; exact ⟨⟨rfl, h⟩, rfl⟩
    · simp only [if_neg hc]; exact ⟨⟨rfl, h⟩, rfl⟩
  | setPrival => exact withText_sorted fun t => ⟨rfl, h⟩
  | setVersion => exact withText_sorted fun t => ⟨rfl, h⟩
  | setTimestamp =>
    refine withText_sorted fun t => ?_
    simp only []
    cases GoTime.parseRFC3339Micro t with
    | none => exact hf _ _ h
    | some tm => exact ⟨rfl, h⟩
  | setHostname => exact withText_sorted fun t => ⟨rfl, h⟩
  | setAppname => exact withText_sorted fun t => ⟨rfl, h⟩
  | setProcid => exact withText_sorted fun t => ⟨rfl, h⟩
  | setMsgid => exact withText_sorted fun t => ⟨rfl, h⟩
  | iniElements => exact ⟨rfl, fun sd e => by cases e; exact SMap.sorted_nil⟩
  | setId =>
    refine withText_sorted fun t => ?_
    simp only []
    cases hs : m.out.structuredData with
    | none => trivial
    | some sd =>
      simp only []
      cases sd.find t with
      | some _ => exact hf _ _ h
      | none => exact ⟨rfl, fun sd' e => by cases e; exact SMap.sorted_insert (h sd hs)⟩
  | iniSdparam => exact ⟨rfl, h⟩
  | addSlash => exact ⟨rfl, h⟩
  | setParamname => exact withText_sorted fun t => ⟨rfl, h⟩
  | setParamvalue =>
    simp only [Rfc5424.act]
    by_cases he : m.out.hasElements = true
    · simp only [if_pos he]
      refine withText_sorted fun t => ?_
      cases (if m.backslashat.length > 0 then Common.removeBytes t (m.backslashat.map Int.ofNat) m.pb else some t) with
      | none => trivial
      | some text =>
        simp only []
        cases hs : m.out.structuredData with
        | none => trivial
        | some sd =>
          simp only []
          cases sd.find m.currentelem with
          | none => trivial
          | some ps => exact ⟨rfl, fun sd' e => by cases e; exact SMap.sorted_insert (h sd hs)⟩
    · simp only [if_neg he]; exact ⟨rfl, h⟩
  | setMsg => exact withText_sorted fun t => ⟨rfl, h⟩
  | errSdid =>
    apply hf
    intro sd e
    cases hs : m.out.structuredData with
    | none => rw [hs] at e; cases e
    | some sd0 => rw [hs] at e; cases e; exact SMap.sorted_erase (h sd0 hs)
  | errSdparam =>
    apply hf
    intro sd e
    cases hs : m.out.structuredData with
    | none => rw [hs] at e; cases e
    | some sd0 =>
      rw [hs] at e
      simp only [Option.map_some] at e
      have e := Option.some.inj e
      cases hx : sd0.find m.currentelem with
      | none => rw [hx] at e; subst e; exact h sd0 hs
      | some ps => rw [hx] at e; subst e; exact SMap.sorted_insert (h sd0 hs)
  | errMsg =>
    simp only [Rfc5424.act]
    by_cases hm : m.msgat > 0
    · simp only [if_pos hm]
      cases slice m.data m.msgat m.p with
      | none => trivial
      | some t => exact hf _ _ h
    · simp only [if_neg hm]; exact hf _ _ h
  | errPrival => exact hf _ _ h
  | errPri => exact hf _ _ h
  | errVersion => exact hf _ _ h
  | errTimestamp => exact hf _ _ h
  | errHostname => exact hf _ _ h
  | errAppname => exact hf _ _ h
  | errProcid => exact hf _ _ h
  | errMsgid => exact hf _ _ h
  | errStructureddata => exact hf _ _ h
  | errEscape => exact hf _ _ h
  | errParse => exact hf _ _ h

theorem parse1_sorted {o : Rfc5424.Opts} {input : Bytes} {r : Rfc5424.Result} (h : Rfc5424.parse1 o input = some r) {v : SyslogMessage}
    (hv : r.msg = some v) : (v.structuredData.getD []).Sorted := by
  have := run_rel (T := Rfc5424.T) (R := fun m n => m = n ∧ OutSorted m) (adv := Rfc5424.adv) (adv' := Rfc5424.adv) parse_act_sorted
    (fun m n h => ⟨by rw [h.1], h.2⟩) input 1 _ _ (⟨rfl, fun sd e => by cases e⟩ :
      Rfc5424.reset (Rfc5424.newMachine o) input = Rfc5424.reset (Rfc5424.newMachine o) input ∧ OutSorted (Rfc5424.reset (Rfc5424.newMachine o) input))
  simp only [Rfc5424.parse1, Rfc5424.parse] at h
  cases hr : run Rfc5424.T Rfc5424.act Rfc5424.adv input 1 (Rfc5424.reset (Rfc5424.newMachine o) input) with
  | panic => rw [hr] at h; cases h
  | loop => rw [hr] at h; cases h
  | done cs m =>
    rw [hr] at h this
    obtain ⟨-, -, hs⟩ := this
    simp only [Option.map_some, Option.some.injEq] at h
    have key : (m.out.export.structuredData.getD []).Sorted := by
      simp only [Rfc5424.Out.export]
      split
      · cases hsd : m.out.structuredData with
        | none => exact SMap.sorted_nil
        | some sd => exact hs sd hsd
      · exact SMap.sorted_nil
    subst h
    simp only [Rfc5424.finish] at hv
    split at hv
    · split at hv
      · cases hv; exact key
      · cases hv
    · cases hv; exact key

/-! ## allocation -/

theorem number_keys (n : Nat) (sd : SD) : (number n sd).map Prod.fst = sd.map Prod.fst := by
  induction sd generalizing n with
  | nil => rfl
  | cons e r ih => simp [number, ih]

theorem number_sorted (n : Nat) {sd : SD} (h : sd.Sorted) : (number n sd).Sorted := by
  induction sd generalizing n with
  | nil => trivial
  | cons e r ih =>
    refine ⟨?_, ih (n + 1) h.2⟩
    intro x hx
    have : x.1 ∈ (number (n + 1) r).map Prod.fst := List.mem_map_of_mem hx
    rw [number_keys] at this
    obtain ⟨y, hy, e'⟩ := List.mem_map.mp this
    rw [← e']; exact h.1 y hy

theorem number_find {n : Nat} {sd : SD} {k : Bytes} {x : Nat} (h : (number n sd).find k = some x) : n ≤ x ∧ x < n + sd.length := by
  induction sd generalizing n with
  | nil => cases h
  | cons e r ih =>
    simp only [number, SMap.find] at h
    split at h
    · cases h; simp
    · have := ih h; simp only [List.length_cons]; omega

theorem number_inj {n : Nat} {sd : SD} {k k' : Bytes} {x : Nat} (h : (number n sd).find k = some x) (h' : (number n sd).find k' = some x) :
    k = k' := by
  induction sd generalizing n with
  | nil => cases h
  | cons e r ih =>
    simp only [number, SMap.find] at h h'
    split at h <;> split at h'
    · rename_i a b; exact a.trans b.symm
    · cases h; have := number_find h'; omega
    · cases h'; have := number_find h; omega
    · exact ih h h'

theorem number_view (pre : List (SMap Bytes)) (sd : SD) :
    (number pre.length sd).map (fun e => (e.1, (pre ++ sd.map Prod.snd).getD e.2 [])) = sd := by
  induction sd generalizing pre with
  | nil => rfl
  | cons e r ih =>
    have := ih (pre ++ [e.2])
    simp only [List.length_append, List.length_singleton, List.append_assoc, List.singleton_append] at this
    simp only [number, List.map_cons, this]
    simp [List.getD]

theorem alloc_maps_getD (h : Mem) (v : SyslogMessage) (r : Nat) : (alloc h v).1.maps.getD r [] =
    if r = h.maps.length then number h.params.length (v.structuredData.getD []) else h.maps.getD r [] := by
  simp only [alloc, List.getD]
  by_cases hr : r < h.maps.length
  · rw [List.getElem?_append_left hr, if_neg (by omega)]
  · by_cases he : r = h.maps.length
    · subst he; simp
    · rw [List.getElem?_eq_none (by simp; omega), List.getElem?_eq_none (by omega : h.maps.length ≤ r), if_neg he]

theorem alloc_inner (h : Mem) (v : SyslogMessage) (r : Nat) (k : Bytes) : inner (alloc h v).1 r k =
    if r = h.maps.length then (number h.params.length (v.structuredData.getD [])).find k else inner h r k := by
  simp only [inner, alloc_maps_getD]
  split <;> rfl

theorem inner_lt {h : Mem} {r : Nat} {k : Bytes} {x : Nat} (hx : inner h r k = some x) : r < h.maps.length := by
  by_cases hr : r < h.maps.length
  · exact hr
  · simp only [inner, List.getD, List.getElem?_eq_none (by omega : h.maps.length ≤ r), Option.getD_none, SMap.find] at hx
    cases hx

theorem alloc_params_length (h : Mem) (v : SyslogMessage) : (alloc h v).1.params.length = h.params.length + (v.structuredData.getD []).length := by
  simp [alloc]

theorem alloc_wf {h : Mem} (hw : WF h) {v : SyslogMessage} (hs : (v.structuredData.getD []).Sorted) : WF (alloc h v).1 where
  sorted r := by
    rw [alloc_maps_getD]
    split
    · exact number_sorted _ hs
    · exact hw.sorted r
  bound r k x hx := by
    rw [alloc_inner] at hx
    rw [alloc_params_length]
    split at hx
    · exact (number_find hx).2
    · have := hw.bound r k x hx; omega
  inj r k r' k' x hx hx' := by
    rw [alloc_inner] at hx hx'
    split at hx <;> split at hx'
    · rename_i a b; exact ⟨a.trans b.symm, number_inj hx hx'⟩
    · have := number_find hx; have := hw.bound _ _ _ hx'; omega
    · have := number_find hx'; have := hw.bound _ _ _ hx; omega
    · exact hw.inj _ _ _ _ _ hx hx'

theorem alloc_in (h : Mem) (v : SyslogMessage) : In (alloc h v).1 (alloc h v).2 := by
  constructor <;> intro x e <;> simp only [alloc, Option.map_eq_some_iff] at e <;> obtain ⟨_, _, rfl⟩ := e <;> simp [alloc]

theorem alloc_sd (h : Mem) (v : SyslogMessage) : (alloc h v).1.sd h.maps.length = v.structuredData.getD [] := by
  simp only [Mem.sd, alloc_maps_getD, if_pos]
  exact number_view h.params _

theorem alloc_grows {h : Mem} (hw : WF h) (v : SyslogMessage) : Grows none h (alloc h v).1 := by
  refine ⟨List.prefix_append _ _, List.prefix_append _ _, List.prefix_append _ _, by simp [alloc], ?_⟩
  intro x hx _
  simp only [Mem.sd, alloc_maps_getD, if_neg (by omega : ¬ x = h.maps.length)]
  apply List.map_congr_left
  intro e he
  have hf : inner h x e.1 = some e.2 := SMap.find_of_mem (hw.sorted x) he
  have := hw.bound _ _ _ hf
  rw [show (alloc h v).1.params = h.params ++ (v.structuredData.getD []).map Prod.snd from rfl, getD_prefix (List.prefix_append _ _) this]

theorem alloc_see_sd (h : Mem) (v : SyslogMessage) : ((alloc h v).2.structuredData).map (alloc h v).1.sd = v.structuredData := by
  cases hs : v.structuredData with
  | none => simp [alloc, hs]
  | some sd =>
    have : (alloc h v).2.structuredData = some h.maps.length := by simp [alloc, hs]
    rw [this, Option.map_some, alloc_sd, hs]; rfl

theorem alloc_opt {α : Type} (o : Option α) (l r : List α) (d : α) (n : Nat) (x : α) (hx : (l ++ r).getD n x = o.getD d) :
    (o.map fun _ => n).map ((l ++ r).getD · x) = o := by
  cases o with
  | none => rfl
  | some a => simp only [Option.map_some, hx]; rfl

theorem alloc_see (h : Mem) (v : SyslogMessage) : (alloc h v).1.see (alloc h v).2 = v := by
  have e2 : (alloc h v).1.see (alloc h v).2 =
    { (alloc h v).1.see (alloc h v).2 with structuredData := ((alloc h v).2.structuredData).map (alloc h v).1.sd } := rfl
  rw [e2, alloc_see_sd]
  obtain ⟨⟨a, b, c, d, e, f, g, i, j⟩, k, l⟩ := v
  simp only [alloc, Mem.see]
  rw [alloc_opt a (d := 0), alloc_opt b (d := 0), alloc_opt c (d := 0), alloc_opt d (d := zeroTime), alloc_opt e (d := []),
    alloc_opt f (d := []), alloc_opt g (d := []), alloc_opt i (d := []), alloc_opt j (d := [])]
  all_goals simp [List.getD]

/-! ## histories -/

/-- invariant of every history -/
structure OK (w : World) : Prop where
  wf : WF w.mem
  inn : ∀ m ∈ w.msgs, In w.mem m

theorem in_empty (h : Mem) : In h {} := by constructor <;> intro x e <;> cases e

theorem OK.start : OK {} := by
  refine ⟨⟨?_, ?_, ?_⟩, ?_⟩
  · intro r; exact SMap.sorted_nil
  · intro r k x h; have := inner_lt h; exact absurd this (Nat.not_lt_zero _)
  · intro r k r' k' x h; have := inner_lt h; exact absurd this (Nat.not_lt_zero _)
  · intro m h; cases h

theorem mem_set {α : Type} {l : List α} {i : Nat} {a m : α} (h : m ∈ l.set i a) : m ∈ l ∨ m = a := List.mem_or_eq_of_mem_set h

theorem OK.step {w w' : World} (h : OK w) {o : Op} (hs : step w o = some w') : OK w' := by
  cases o with
  | new =>
    cases hs
    exact ⟨h.wf, fun m hm => by rcases List.mem_append.mp hm with hm | hm; exact h.inn m hm; rw [List.mem_singleton.mp hm]; exact in_empty _⟩
  | parse o k =>
    simp only [Messages.step] at hs
    cases hp : Rfc5424.parse1 o (w.buffers.getD k []) with
    | none => rw [hp] at hs; cases hs
    | some r =>
      rw [hp] at hs
      simp only [] at hs
      cases hv : r.msg with
      | none => rw [hv] at hs; cases hs; exact h
      | some v =>
        rw [hv] at hs; cases hs
        refine ⟨alloc_wf h.wf (parse1_sorted hp hv), fun m hm => ?_⟩
        rcases List.mem_append.mp hm with hm | hm
        · exact (h.inn m hm).grows (alloc_grows h.wf v)
        · rw [List.mem_singleton.mp hm]; exact alloc_in _ _
  | assign i j =>
    simp only [Messages.step] at hs
    cases hj : w.msgs[j]? with
    | none => rw [hj] at hs; cases hs; exact h
    | some m =>
      rw [hj] at hs; cases hs
      refine ⟨h.wf, fun x hx => ?_⟩
      rcases mem_set hx with hx | rfl
      · exact h.inn x hx
      · exact h.inn _ (List.mem_of_getElem? hj)
  | call i c =>
    simp only [Messages.step] at hs
    cases hi : w.msgs[i]? with
    | none => rw [hi] at hs; cases hs; exact h
    | some m =>
      rw [hi] at hs
      obtain ⟨s, g', h1, h2, h3⟩ := call_rel c w.g h.wf (h.inn m (List.mem_of_getElem? hi))
      simp only [h1] at hs
      cases hs
      refine ⟨h3.wf, fun x hx => ?_⟩
      rcases mem_set hx with hx | rfl
      · exact (h.inn x hx).grows h3.grows
      · exact h3.inn
  | detach i =>
    simp only [Messages.step] at hs
    cases hi : w.msgs[i]? with
    | none => rw [hi] at hs; cases hs; exact h
    | some m =>
      rw [hi] at hs; cases hs
      refine ⟨h.wf, fun x hx => ?_⟩
      rcases mem_set hx with hx | rfl
      · exact h.inn x hx
      · exact { h.inn m (List.mem_of_getElem? hi) with structuredData := by intro x e; cases e }
  | buffer b => cases hs; exact ⟨h.wf, h.inn⟩
  | fill k b => cases hs; exact ⟨h.wf, h.inn⟩

theorem OK.steps {ops : List Op} : ∀ {w w' : World}, OK w → steps ops w = some w' → OK w' := by
  induction ops with
  | nil => intro w w' h hs; cases hs; exact h
  | cons o os ih =>
    intro w w' h hs
    simp only [Messages.steps] at hs
    cases h1 : Messages.step w o with
    | none => rw [h1] at hs; cases hs
    | some w1 => rw [h1] at hs; exact ih (h.step h1) hs

end Verif.Messages
