import Verif.Messages
import Verif.Builder.Round
import Verif.FsmLemmas

/-! # The heap of messages against the values of messages -/

namespace Verif.Messages
open Verif.Fsm Verif.Gen.Builder
open Verif.Builder (Globals Entry Call)
open Verif.Rfc5424 (SyslogMessage SD slice)

/-! ## two runs of an automaton -/

/-- the outcomes of two action lists correspond -/
def StepRel {M N : Type} (R : M → N → Prop) : Step M → Step N → Prop
  | .next m, .next n => R m n
  | .jump m s, .jump n t => R m n ∧ s = t
  | .panic, .panic => True
  | _, _ => False

def ResRel {M N : Type} (R : M → N → Prop) : Res M → Res N → Prop
  | .done c m, .done d n => c = d ∧ R m n
  | .panic, .panic => True
  | .loop, .loop => True
  | _, _ => False

section
variable {A M N : Type} {R : M → N → Prop} {T : Nat → Row A} {f : A → M → Step M} {g : A → N → Step N} {adv : M → M} {adv' : N → N}

theorem runActs_rel (h : ∀ a m n, R m n → StepRel R (f a m) (g a n)) : ∀ as m n, R m n → StepRel R (runActs f as m) (runActs g as n) := by
  intro as
  induction as with
  | nil => intro m n hr; exact hr
  | cons a as ih =>
    intro m n hr
    have := h a m n hr
    simp only [runActs]
    cases h1 : f a m <;> cases h2 : g a n <;> rw [h1, h2] at this <;> first | exact ih _ _ this | exact this | exact this.elim | trivial

theorem stepByte_rel (h : ∀ a m n, R m n → StepRel R (f a m) (g a n)) (ha : ∀ m n, R m n → R (adv m) (adv' n)) (b : UInt8) :
    ∀ fuel cs m n, R m n → ResRel R (stepByte T f adv b fuel cs m) (stepByte T g adv' b fuel cs n) := by
  intro fuel
  induction fuel with
  | zero => intro cs m n _; trivial
  | succ fuel ih =>
    intro cs m n hr
    have h1 := runActs_rel h (T cs).frm m n hr
    simp only [stepByte]
    cases e1 : runActs f (T cs).frm m <;> cases e2 : runActs g (T cs).frm n <;> rw [e1, e2] at h1 <;> try exact h1.elim
    · rename_i m1 n1
      have h2 := runActs_rel h ((T cs).dispatch b.toNat).acts m1 n1 h1
      simp only []
      cases e3 : runActs f ((T cs).dispatch b.toNat).acts m1 <;> cases e4 : runActs g ((T cs).dispatch b.toNat).acts n1 <;> rw [e3, e4] at h2 <;>
        try exact h2.elim
      · simp only []
        by_cases h0 : ((T cs).dispatch b.toNat).tgt = 0
        · rw [if_pos h0, if_pos h0]; exact ⟨rfl, h2⟩
        · rw [if_neg h0, if_neg h0]; exact ⟨rfl, ha _ _ h2⟩
      · obtain ⟨h2, rfl⟩ := h2
        exact ih _ _ _ h2
      · trivial
    · obtain ⟨h1, rfl⟩ := h1
      exact ih _ _ _ h1
    · trivial

theorem runEof_rel (h : ∀ a m n, R m n → StepRel R (f a m) (g a n)) :
    ∀ fuel cs m n, R m n → ResRel R (runEof T f fuel cs m) (runEof T g fuel cs n) := by
  intro fuel
  induction fuel with
  | zero => intro cs m n _; trivial
  | succ fuel ih =>
    intro cs m n hr
    have h1 := runActs_rel h (T cs).eof m n hr
    simp only [runEof]
    cases e1 : runActs f (T cs).eof m <;> cases e2 : runActs g (T cs).eof n <;> rw [e1, e2] at h1 <;> try exact h1.elim
    · exact ⟨rfl, h1⟩
    · obtain ⟨h1, rfl⟩ := h1
      exact ih _ _ _ h1
    · trivial

theorem run_rel (h : ∀ a m n, R m n → StepRel R (f a m) (g a n)) (ha : ∀ m n, R m n → R (adv m) (adv' n)) :
    ∀ bs cs m n, R m n → ResRel R (run T f adv bs cs m) (run T g adv' bs cs n) := by
  intro bs
  induction bs with
  | nil => intro cs m n hr; exact runEof_rel h _ _ _ _ hr
  | cons b bs ih =>
    intro cs m n hr
    have h1 := stepByte_rel (T := T) h ha b jumpFuel cs m n hr
    simp only [run]
    cases e1 : stepByte T f adv b jumpFuel cs m <;> cases e2 : stepByte T g adv' b jumpFuel cs n <;> rw [e1, e2] at h1 <;> try exact h1.elim
    · rename_i c1 m1 c2 n1
      obtain ⟨rfl, h1⟩ := h1
      cases c1 with
      | zero => exact ⟨rfl, h1⟩
      | succ c => exact ih _ _ _ h1
    · trivial
    · trivial
end

/-! ## the heap -/

/-- the maps of the heap are maps, and no two entries have the same inner map -/
structure WF (h : Mem) : Prop where
  sorted : ∀ r, (h.maps.getD r []).Sorted
  bound : ∀ r k x, inner h r k = some x → x < h.params.length
  inj : ∀ r k r' k' x, inner h r k = some x → inner h r' k' = some x → r = r' ∧ k = k'

/-- the pointers of a message are valid -/
structure In (h : Mem) (m : Msg) : Prop where
  facility : ∀ x, m.facility = some x → x < h.octets.length
  severity : ∀ x, m.severity = some x → x < h.octets.length
  priority : ∀ x, m.priority = some x → x < h.octets.length
  timestamp : ∀ x, m.timestamp = some x → x < h.times.length
  hostname : ∀ x, m.hostname = some x → x < h.texts.length
  appname : ∀ x, m.appname = some x → x < h.texts.length
  procID : ∀ x, m.procID = some x → x < h.texts.length
  msgID : ∀ x, m.msgID = some x → x < h.texts.length
  message : ∀ x, m.message = some x → x < h.texts.length
  structuredData : ∀ x, m.structuredData = some x → x < h.maps.length

/-- `h'` differs from `h` by new cells and by the contents of the map `r` only -/
structure Grows (r : Option Nat) (h h' : Mem) : Prop where
  octets : h.octets <+: h'.octets
  times : h.times <+: h'.times
  texts : h.texts <+: h'.texts
  maps : h.maps.length ≤ h'.maps.length
  sd : ∀ x, x < h.maps.length → some x ≠ r → h'.sd x = h.sd x

theorem Grows.refl (r : Option Nat) (h : Mem) : Grows r h h :=
  ⟨List.prefix_refl _, List.prefix_refl _, List.prefix_refl _, Nat.le_refl _, fun _ _ _ => rfl⟩

theorem getD_prefix {α : Type} {l l' : List α} (h : l <+: l') {x : Nat} (hx : x < l.length) (d : α) : l'.getD x d = l.getD x d := by
  obtain ⟨t, rfl⟩ := h
  simp [List.getD, List.getElem?_append_left hx]

theorem map_getD {α : Type} {l l' : List α} (h : l <+: l') {o : Option Nat} (ho : ∀ x, o = some x → x < l.length) (d : α) :
    o.map (l'.getD · d) = o.map (l.getD · d) := by
  cases o with
  | none => rfl
  | some x => simp only [Option.map_some, getD_prefix h (ho x rfl)]

/-- a message whose map is not the one that was written looks as before -/
theorem see_grows {r : Option Nat} {h h' : Mem} (hg : Grows r h h') {m : Msg} (hm : In h m) :
    h'.see m = { h.see m with structuredData := m.structuredData.map h'.sd } := by
  simp only [Mem.see, map_getD hg.octets hm.facility, map_getD hg.octets hm.severity, map_getD hg.octets hm.priority,
    map_getD hg.times hm.timestamp, map_getD hg.texts hm.hostname, map_getD hg.texts hm.appname, map_getD hg.texts hm.procID,
    map_getD hg.texts hm.msgID, map_getD hg.texts hm.message]

theorem see_other {r : Option Nat} {h h' : Mem} (hg : Grows r h h') {m : Msg} (hm : In h m)
    (hr : ∀ x, m.structuredData = some x → r ≠ some x) : h'.see m = h.see m := by
  rw [see_grows hg hm]
  have : m.structuredData.map h'.sd = m.structuredData.map h.sd := by
    cases hs : m.structuredData with
    | none => rfl
    | some x => simp only [Option.map_some]; rw [hg.sd x (hm.structuredData x hs) (fun e => hr x hs e.symm)]
  rw [this]; rfl

theorem In.grows {r : Option Nat} {h h' : Mem} (hg : Grows r h h') {m : Msg} (hm : In h m) : In h' m where
  facility x e := Nat.lt_of_lt_of_le (hm.facility x e) hg.octets.length_le
  severity x e := Nat.lt_of_lt_of_le (hm.severity x e) hg.octets.length_le
  priority x e := Nat.lt_of_lt_of_le (hm.priority x e) hg.octets.length_le
  timestamp x e := Nat.lt_of_lt_of_le (hm.timestamp x e) hg.times.length_le
  hostname x e := Nat.lt_of_lt_of_le (hm.hostname x e) hg.texts.length_le
  appname x e := Nat.lt_of_lt_of_le (hm.appname x e) hg.texts.length_le
  procID x e := Nat.lt_of_lt_of_le (hm.procID x e) hg.texts.length_le
  msgID x e := Nat.lt_of_lt_of_le (hm.msgID x e) hg.texts.length_le
  message x e := Nat.lt_of_lt_of_le (hm.message x e) hg.texts.length_le
  structuredData x e := Nat.lt_of_lt_of_le (hm.structuredData x e) hg.maps

theorem find_sd (h : Mem) (r : Nat) (k : Bytes) : (h.sd r).find k = (inner h r k).map (h.params.getD · []) :=
  Builder.find_map (h.maps.getD r []) (h.params.getD · []) k

theorem sd_sorted {h : Mem} (hw : WF h) (r : Nat) : (h.sd r).Sorted := Builder.sorted_map (h.params.getD · []) (hw.sorted r)

/-- writing an inner map -/
def write (h : Mem) (x : Nat) (ps : SMap Bytes) : Mem := { h with params := h.params.set x ps }

theorem getD_set {α : Type} (l : List α) (x : Nat) (v : α) (y : Nat) (d : α) (hx : x < l.length) :
    (l.set x v).getD y d = if y = x then v else l.getD y d := by
  by_cases h : y = x
  · subst h; simp [List.getD, hx]
  · rw [if_neg h]; simp [List.getD, List.getElem?_set, Ne.symm h]

theorem write_wf {h : Mem} (hw : WF h) (x : Nat) (ps : SMap Bytes) : WF (write h x ps) where
  sorted := hw.sorted
  bound r k y hy := by have := hw.bound r k y hy; simpa [write] using this
  inj := hw.inj

theorem write_same {h : Mem} (hw : WF h) {r x : Nat} {k : Bytes} (hx : inner h r k = some x) (ps : SMap Bytes) :
    (write h x ps).sd r = (h.sd r).insert k ps := by
  apply SMap.ext (sd_sorted (write_wf hw x ps) r) (SMap.sorted_insert (sd_sorted hw r))
  intro k'
  rw [find_sd, SMap.find_insert, find_sd]
  show (inner h r k').map ((h.params.set x ps).getD · []) = _
  by_cases hk : k' = k
  · subst hk; rw [hx]; simp [List.getD, hw.bound r _ x hx]
  · cases hy : inner h r k' with
    | none => simp [hk]
    | some y =>
      have hne : y ≠ x := fun e => hk (hw.inj r k' r k y hy (e ▸ hx)).2
      simp [List.getD, List.getElem?_set, Ne.symm hne, Ne.symm hk, hk]

theorem write_other {h : Mem} (hw : WF h) {r x : Nat} {k : Bytes} (hx : inner h r k = some x) (ps : SMap Bytes) {r' : Nat} (hr : r' ≠ r) :
    (write h x ps).sd r' = h.sd r' := by
  apply SMap.ext (sd_sorted (write_wf hw x ps) r') (sd_sorted hw r')
  intro k'
  rw [find_sd, find_sd]
  show (inner h r' k').map ((h.params.set x ps).getD · []) = _
  cases hy : inner h r' k' with
  | none => rfl
  | some y =>
    have hne : y ≠ x := fun e => hr (hw.inj r' k' r k y hy (e ▸ hx)).1
    simp [List.getD, List.getElem?_set, Ne.symm hne]

/-- a new, empty map -/
def newMap (h : Mem) : Mem := { h with maps := h.maps ++ [[]] }

theorem newMap_getD (h : Mem) (r : Nat) : (newMap h).maps.getD r [] = h.maps.getD r [] := by
  simp only [newMap, List.getD]
  by_cases hr : r < h.maps.length
  · rw [List.getElem?_append_left hr]
  · rw [List.getElem?_append_right (by omega), List.getElem?_eq_none (by omega : h.maps.length ≤ r)]
    cases hh : r - h.maps.length with
    | zero => rfl
    | succ n => rfl

theorem newMap_inner (h : Mem) (r : Nat) (k : Bytes) : inner (newMap h) r k = inner h r k := by
  simp only [inner, newMap_getD]

theorem newMap_wf {h : Mem} (hw : WF h) : WF (newMap h) where
  sorted r := by rw [newMap_getD]; exact hw.sorted r
  bound r k x hx := by rw [newMap_inner] at hx; exact hw.bound r k x hx
  inj r k r' k' x hx hx' := by rw [newMap_inner] at hx hx'; exact hw.inj r k r' k' x hx hx'

theorem newMap_sd (h : Mem) (r : Nat) : (newMap h).sd r = h.sd r := by simp only [Mem.sd, newMap_getD]; rfl

/-- a new element -/
def newElem (h : Mem) (r : Nat) (t : Bytes) : Mem :=
  { h with maps := h.maps.set r ((h.maps.getD r []).insert t h.params.length), params := h.params ++ [[]] }

theorem newElem_inner {h : Mem} {r : Nat} (hr : r < h.maps.length) (t : Bytes) (r' : Nat) (k : Bytes) :
    inner (newElem h r t) r' k = if r' = r ∧ k = t then some h.params.length else inner h r' k := by
  simp only [inner, newElem, getD_set _ _ _ _ _ hr]
  by_cases e : r' = r
  · rw [if_pos e, SMap.find_insert]
    subst e
    by_cases ek : k = t
    · subst ek; simp
    · simp [ek, Ne.symm ek]
  · rw [if_neg e, if_neg (by intro c; exact e c.1)]

theorem newElem_wf {h : Mem} (hw : WF h) {r : Nat} (hr : r < h.maps.length) (t : Bytes) : WF (newElem h r t) where
  sorted r' := by
    simp only [newElem, getD_set _ _ _ _ _ hr]
    split
    · exact SMap.sorted_insert (hw.sorted r)
    · exact hw.sorted r'
  bound r' k x hx := by
    rw [newElem_inner hr] at hx
    simp only [newElem, List.length_append, List.length_singleton]
    split at hx
    · simp at hx; omega
    · have := hw.bound r' k x hx; omega
  inj r1 k1 r2 k2 x h1 h2 := by
    rw [newElem_inner hr] at h1 h2
    split at h1 <;> split at h2
    · rename_i a b; exact ⟨a.1.trans b.1.symm, a.2.trans b.2.symm⟩
    · have := hw.bound _ _ _ h2; simp at h1; omega
    · have := hw.bound _ _ _ h1; simp at h2; omega
    · exact hw.inj _ _ _ _ _ h1 h2

theorem getD_append_nil (l : List (SMap Bytes)) (y : Nat) : (l ++ [[]]).getD y [] = l.getD y [] := by
  simp only [List.getD]
  by_cases hr : y < l.length
  · rw [List.getElem?_append_left hr]
  · rw [List.getElem?_append_right (by omega), List.getElem?_eq_none (by omega : l.length ≤ y)]
    cases hh : y - l.length with
    | zero => rfl
    | succ n => rfl

theorem newElem_same {h : Mem} (hw : WF h) {r : Nat} (hr : r < h.maps.length) (t : Bytes) :
    (newElem h r t).sd r = (h.sd r).insert t [] := by
  apply SMap.ext (sd_sorted (newElem_wf hw hr t) r) (SMap.sorted_insert (sd_sorted hw r))
  intro k
  rw [find_sd, SMap.find_insert, find_sd, newElem_inner hr]
  show Option.map ((h.params ++ [[]]).getD · []) _ = _
  by_cases hk : k = t
  · subst hk; simp
  · simp only [hk, Ne.symm hk, and_false, if_false, getD_append_nil]

theorem newElem_other {h : Mem} (hw : WF h) {r : Nat} (hr : r < h.maps.length) (t : Bytes) {r' : Nat} (hne : r' ≠ r) :
    (newElem h r t).sd r' = h.sd r' := by
  apply SMap.ext (sd_sorted (newElem_wf hw hr t) r') (sd_sorted hw r')
  intro k
  rw [find_sd, find_sd, newElem_inner hr, if_neg (by intro c; exact hne c.1)]
  show Option.map ((h.params ++ [[]]).getD · []) _ = _
  simp only [getD_append_nil]

end Verif.Messages
