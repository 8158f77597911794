import Verif.Builder.Param
import Verif.Builder.Print
import Verif.Builder.Mangle
import Verif.Rfc5424.Wrap

/-! # Messages that can be built, and their text -/

namespace Verif.Builder
open Verif.Spec
open Verif.Rfc5424 (SyslogMessage SD)

/-! ## maps -/

theorem insert_last {V : Type} {acc : SMap V} {k : Bytes} {v : V} (h : ∀ e ∈ acc, blt e.1 k = true) :
    acc.insert k v = acc ++ [(k, v)] := by
  induction acc with
  | nil => rfl
  | cons x r ih =>
    obtain ⟨k', v'⟩ := x
    have hk := h (k', v') (by simp)
    simp only [SMap.insert]
    rw [if_neg (by rw [blt_asymm hk]; simp), if_neg (by rintro rfl; rw [blt_irrefl] at hk; simp at hk), ih fun e he => h e (by simp [he])]
    rfl

theorem foldl_insert {V : Type} : ∀ (l acc : SMap V), l.Sorted → (∀ a ∈ acc, ∀ e ∈ l, blt a.1 e.1 = true) →
    l.foldl (fun m e => m.insert e.1 e.2) acc = acc ++ l := by
  intro l
  induction l with
  | nil => intro acc _ _; simp
  | cons x r ih =>
    intro acc hs ha
    obtain ⟨k, v⟩ := x
    rw [List.foldl_cons, insert_last fun e he => ha e he _ (by simp), ih _ hs.2]
    · simp
    · intro a h e he
      rcases List.mem_append.mp h with h | h
      · exact ha a h e (by simp [he])
      · simp only [List.mem_singleton] at h; subst h; exact hs.1 e he

theorem sorted_map {V W : Type} {m : SMap V} (f : V → W) (h : m.Sorted) : SMap.Sorted (m.map fun e => (e.1, f e.2)) := by
  induction m with
  | nil => trivial
  | cons x r ih =>
    refine ⟨?_, ih h.2⟩
    intro e he
    obtain ⟨e', he', rfl⟩ := List.mem_map.mp he
    exact h.1 e' he'

theorem find_map {V W : Type} (m : SMap V) (f : V → W) (k : Bytes) :
    SMap.find k (m.map fun e => (e.1, f e.2)) = (m.find k).map f := by
  induction m with
  | nil => rfl
  | cons x r ih =>
    obtain ⟨k', v⟩ := x
    simp only [List.map_cons, SMap.find, ih]
    split <;> rfl

/-! ## what can be built -/

/-- an element as the builder leaves it -/
def ElemOk (e : Bytes × SMap Bytes) : Prop := SdNameWF e.1 ∧ e.2.Sorted ∧ ∀ p ∈ e.2, SdNameWF p.1 ∧ Utf8 p.2

def SdOk (sd : SD) : Prop := sd.Sorted ∧ ∀ e ∈ sd, ElemOk e

/-- invariant of the setters -/
structure Built (sm : SyslogMessage) : Prop where
  pri : (sm.priority = none ∧ sm.facility = none ∧ sm.severity = none) ∨
    ∃ v : UInt8, v.toNat ≤ 191 ∧ sm.priority = some v ∧ sm.facility = some (v / 8) ∧ sm.severity = some (v % 8)
  timestamp : ∀ t, sm.timestamp = some t → ∃ s : Stamp, s.WF ∧ s.Real ∧ s.time = t
  hostname : FieldWF 255 sm.hostname
  appname : FieldWF 48 sm.appname
  procID : FieldWF 128 sm.procID
  msgID : FieldWF 32 sm.msgID
  sd : ∀ sd, sm.structuredData = some sd → sd ≠ [] ∧ SdOk sd
  message : sm.message ≠ some []

theorem built_empty : Built {} :=
  ⟨Or.inl ⟨rfl, rfl, rfl⟩, fun _ h => (by simp at h), trivial, trivial, trivial, trivial, fun _ h => (by simp at h), by simp⟩

theorem sdOk_insert {sd : SD} {id : Bytes} {ps : SMap Bytes} (h : SdOk sd) (he : ElemOk (id, ps)) : SdOk (sd.insert id ps) := by
  refine ⟨SMap.sorted_insert h.1, fun e hm => ?_⟩
  rcases SMap.mem_insert hm with rfl | hm
  · exact he
  · exact h.2 e hm

theorem elemOk_insert {id : Bytes} {ps : SMap Bytes} {name v : Bytes} (h : ElemOk (id, ps)) (hn : SdNameWF name) (hv : Utf8 v) :
    ElemOk (id, ps.insert name v) := by
  refine ⟨h.1, SMap.sorted_insert h.2.1, fun p hm => ?_⟩
  rcases SMap.mem_insert hm with rfl | hm
  · exact ⟨hn, hv⟩
  · exact h.2.2 p hm

theorem Built.getD {sm : SyslogMessage} (h : Built sm) : SdOk (sm.structuredData.getD []) := by
  cases hs : sm.structuredData with
  | none => exact ⟨trivial, fun _ h => (by simp at h)⟩
  | some sd => exact (h.sd sd hs).2

theorem Built.withSD {sm : SyslogMessage} (h : Built sm) {sd : SD} (h1 : sd ≠ []) (h2 : SdOk sd) :
    Built { sm with structuredData := some sd } :=
  ⟨h.pri, h.timestamp, h.hostname, h.appname, h.procID, h.msgID, fun sd' hs => (by
    simp only [Option.some.injEq] at hs; rw [← hs]; exact ⟨h1, h2⟩), h.message⟩

theorem sdOk_ensure {sd : SD} {id : Bytes} (h : SdOk sd) (hid : SdNameWF id) : SdOk (ensure sd id) ∧ ensure sd id ≠ [] := by
  unfold ensure
  cases hf : sd.find id with
  | some ps => exact ⟨h, fun h0 => (by subst h0; simp [SMap.find] at hf)⟩
  | none => exact ⟨sdOk_insert h ⟨hid, trivial, fun _ h => (by simp at h)⟩, SMap.insert_ne_nil _ _ _⟩

theorem validVersion_iff (v : UInt16) : Common.validVersion v = true ↔ 1 ≤ v.toNat ∧ v.toNat ≤ 999 := by
  simp [Common.validVersion, Common.inBetween]; omega

theorem validPriority_iff (v : UInt8) : Common.validPriority v = true ↔ v.toNat ≤ 191 := by
  simp [Common.validPriority, Common.inBetween]; omega

theorem run_built (c : Call) (sm : SyslogMessage) (g : Globals) (h : Built sm) :
    ∃ sm' g', c.run (sm, g) = some (sm', g') ∧ Built sm' := by
  cases c with
  | priority v =>
    refine ⟨_, _, rfl, ?_⟩
    simp only [setPriority]
    split
    · rename_i hv
      exact ⟨Or.inr ⟨v, (validPriority_iff v).mp hv, rfl, rfl, rfl⟩, h.timestamp, h.hostname, h.appname, h.procID, h.msgID, h.sd, h.message⟩
    · exact h
  | version v =>
    refine ⟨_, _, rfl, ?_⟩
    simp only [setVersion]
    split
    · exact ⟨h.pri, h.timestamp, h.hostname, h.appname, h.procID, h.msgID, h.sd, h.message⟩
    · exact h
  | timestamp w =>
    by_cases hw : ∃ s : Stamp, s.WF ∧ s.Real ∧ w = s.render
    · obtain ⟨s, h1, h2, h3⟩ := hw
      refine ⟨{ sm with timestamp := some s.time }, g, by rw [Call.run, (set_timestamp g w sm).1 s h1 h2 h3]; rfl, ?_⟩
      exact ⟨h.pri, fun t ht => (by simp only [Option.some.injEq] at ht; exact ⟨s, h1, h2, ht⟩),
        h.hostname, h.appname, h.procID, h.msgID, h.sd, h.message⟩
    · exact ⟨sm, g, by rw [Call.run, (set_timestamp g w sm).2 hw]; rfl, h⟩
  | hostname w =>
    by_cases hw : NameWF 255 w ∧ w ≠ [45]
    · refine ⟨{ sm with hostname := some w }, g, by rw [Call.run, (set_hostname g w sm).1 hw]; rfl, ?_⟩
      exact ⟨h.pri, h.timestamp, hw, h.appname, h.procID, h.msgID, h.sd, h.message⟩
    · exact ⟨sm, g, by rw [Call.run, (set_hostname g w sm).2 hw]; rfl, h⟩
  | appname w =>
    by_cases hw : NameWF 48 w ∧ w ≠ [45]
    · refine ⟨{ sm with appname := some w }, g, by rw [Call.run, (set_appname g w sm).1 hw]; rfl, ?_⟩
      exact ⟨h.pri, h.timestamp, h.hostname, hw, h.procID, h.msgID, h.sd, h.message⟩
    · exact ⟨sm, g, by rw [Call.run, (set_appname g w sm).2 hw]; rfl, h⟩
  | procID w =>
    by_cases hw : NameWF 128 w ∧ w ≠ [45]
    · refine ⟨{ sm with procID := some w }, g, by rw [Call.run, (set_procid g w sm).1 hw]; rfl, ?_⟩
      exact ⟨h.pri, h.timestamp, h.hostname, h.appname, hw, h.msgID, h.sd, h.message⟩
    · exact ⟨sm, g, by rw [Call.run, (set_procid g w sm).2 hw]; rfl, h⟩
  | msgID w =>
    by_cases hw : NameWF 32 w ∧ w ≠ [45]
    · refine ⟨{ sm with msgID := some w }, g, by rw [Call.run, (set_msgid g w sm).1 hw]; rfl, ?_⟩
      exact ⟨h.pri, h.timestamp, h.hostname, h.appname, h.procID, hw, h.sd, h.message⟩
    · exact ⟨sm, g, by rw [Call.run, (set_msgid g w sm).2 hw]; rfl, h⟩
  | elementID w =>
    by_cases hw : SdNameWF w
    · refine ⟨_, g, by rw [Call.run, (set_sdid g w sm).1 hw]; rfl, ?_⟩
      exact h.withSD (sdOk_ensure h.getD hw).2 (sdOk_ensure h.getD hw).1
    · exact ⟨sm, g, by rw [Call.run, (set_sdid g w sm).2 hw]; rfl, h⟩
  | message w =>
    refine ⟨_, g, by rw [Call.run, set_msg]; rfl, ?_⟩
    split
    · exact h
    · exact ⟨h.pri, h.timestamp, h.hostname, h.appname, h.procID, h.msgID, h.sd, by simp; assumption⟩
  | parameter id name value =>
    by_cases hstart : SdNameWF id ∨ (sm.structuredData.getD []).find id ≠ none
    · obtain ⟨sd, ps, h1, h2, h3, h4⟩ := setParameter_start g id sm hstart
      have hid : SdNameWF id := by
        rcases hstart with hid | hx
        · exact hid
        · cases hf : (sm.structuredData.getD []).find id with
          | none => exact absurd hf hx
          | some ps' => exact (h.getD.2 _ (SMap.mem_of_find hf)).1
      have hsd := sdOk_ensure h.getD hid
      rw [← h2] at hsd
      have hel : ElemOk (id, ps) := hsd.1.2 _ (SMap.mem_of_find h3)
      have hb1 := h.withSD hsd.2 hsd.1
      have ht := setParameter_tail (name := name) (value := value) h1 rfl h3
      by_cases hn : SdNameWF name
      · by_cases hv : ∃ v, Utf8 v ∧ value = escape v
        · obtain ⟨v, hu, hv⟩ := hv
          exact ⟨_, _, ht.1 hn v hu hv, h.withSD (SMap.insert_ne_nil _ _ _) (sdOk_insert hsd.1 (elemOk_insert hel hn hu))⟩
        · exact ⟨_, _, ht.2.1 hn hv, h.withSD (SMap.insert_ne_nil _ _ _) (sdOk_insert hsd.1 (elemOk_insert hel hn .nil))⟩
      · have hnone : ps.find name = none := by
          cases hf : ps.find name with
          | none => rfl
          | some v => exact absurd (hel.2.2 _ (SMap.mem_of_find hf)).1 hn
        exact ⟨_, _, ht.2.2.1 hn hnone, hb1⟩
    · rw [not_or] at hstart
      have hf : (sm.structuredData.getD []).find id = none := Decidable.byContradiction hstart.2
      exact ⟨sm, g, setParameter_none hstart.1 hf, h⟩

theorem runCalls_built (cs : List Call) : ∀ (sm : SyslogMessage) (g : Globals), Built sm →
    ∃ sm' g', runCalls cs (sm, g) = some (sm', g') ∧ Built sm' := by
  induction cs with
  | nil => intro sm g h; exact ⟨sm, g, rfl, h⟩
  | cons c cs ih =>
    intro sm g h
    obtain ⟨sm1, g1, h1, hb⟩ := run_built c sm g h
    obtain ⟨sm2, g2, h2, hb2⟩ := ih sm1 g1 hb
    exact ⟨sm2, g2, by rw [runCalls, h1]; exact h2, hb2⟩

/-! ## their text -/

/-- the elements as printed: values mangled -/
def elems (sd : SD) : List Elem := sd.map fun e => ⟨e.1, e.2.map fun p => ⟨p.1, mangle p.2⟩⟩

def mangleSD (sd : SD) : SD := sd.map fun e => (e.1, e.2.map fun p => (p.1, mangle p.2))

/-- the message with all parameter values mangled -/
def mangleMsg (sm : SyslogMessage) : SyslogMessage := { sm with structuredData := sm.structuredData.map mangleSD }

theorem paramMap_elems {ps : SMap Bytes} (h : ps.Sorted) :
    paramMap (ps.map fun p => (⟨p.1, mangle p.2⟩ : Param)) = ps.map fun p => (p.1, mangle p.2) := by
  have := foldl_insert (ps.map fun p => (p.1, mangle p.2)) [] (sorted_map mangle h) (by simp)
  rw [List.nil_append, List.foldl_map] at this
  rw [paramMap, List.foldl_map]
  exact this

theorem elemMap_elems {sd : SD} (h : SdOk sd) : elemMap (elems sd) = mangleSD sd := by
  have := foldl_insert (mangleSD sd) [] (sorted_map _ h.1) (by simp)
  rw [List.nil_append] at this
  rw [← this, elemMap, elems, mangleSD, List.foldl_map, List.foldl_map]
  have key : ∀ (l : SD) (acc : SD), (∀ e ∈ l, e.2.Sorted) →
      l.foldl (fun m e => SMap.insert e.1 (paramMap (e.2.map fun p => (⟨p.1, mangle p.2⟩ : Param))) m) acc =
      l.foldl (fun m e => SMap.insert e.1 (e.2.map fun p => (p.1, mangle p.2)) m) acc := by
    intro l
    induction l with
    | nil => intro acc _; rfl
    | cons x r ih =>
      intro acc hx
      rw [List.foldl_cons, List.foldl_cons, paramMap_elems (hx x (by simp)), ih _ fun e he => hx e (by simp [he])]
  exact key sd [] fun e he => (h.2 e he).2.1

theorem flatMap_congr' {α β : Type} {f g : α → List β} : ∀ {l : List α}, (∀ a ∈ l, f a = g a) → l.flatMap f = l.flatMap g := by
  intro l
  induction l with
  | nil => intro _; rfl
  | cons a l ih => intro h; rw [List.flatMap_cons, List.flatMap_cons, h a (by simp), ih fun b hb => h b (by simp [hb])]

theorem printParams_eq {ps : SMap Bytes} (h : ps.Sorted) :
    printParams ps (keys ps) = (ps.map fun p => (⟨p.1, mangle p.2⟩ : Param)).flatMap Param.render := by
  rw [printParams, keys, List.flatMap_map, List.flatMap_map]
  apply flatMap_congr'
  intro p hp
  obtain ⟨n, v⟩ := p
  simp only [SMap.find_of_mem h hp, Option.getD_some, escapeBytes_eq, Param.render]

theorem printSD_eq {sd : SD} (h : SdOk sd) {outer : List Bytes} {inner : Bytes → List Bytes} (ho : outer.Perm (keys sd))
    (hi : ∀ id ps, sd.find id = some ps → (inner id).Perm (keys ps)) :
    printSD sd inner (sortStrings outer) = (elems sd).flatMap Elem.render := by
  rw [sortStrings_of_perm ho, sort_keys h.1, printSD, keys, elems, List.flatMap_map, List.flatMap_map]
  apply flatMap_congr'
  intro e he
  obtain ⟨id, ps⟩ := e
  have hf := SMap.find_of_mem h.1 he
  have hs := (h.2 _ he).2.1
  simp only [hf, Option.getD_some, Elem.render]
  rw [sortStrings_of_perm (hi id ps hf), sort_keys hs, printParams_eq hs]

theorem valid_iff (sm : SyslogMessage) : sm.valid = true ↔
    (∃ v, sm.priority = some v ∧ v.toNat ≤ 191) ∧ 1 ≤ sm.version.toNat ∧ sm.version.toNat ≤ 999 := by
  rw [SyslogMessage.valid, Bool.and_eq_true, Props.C17_valid_iff, validVersion_iff]

/-- The text of a valid built message, under any iteration order of the maps. -/
theorem string_built {sm : SyslogMessage} (h : Built sm) (hv : sm.valid = true) {outer : List Bytes} {inner : Bytes → List Bytes}
    (ho : outer.Perm (keys (sm.structuredData.getD [])))
    (hi : ∀ id ps, (sm.structuredData.getD []).find id = some ps → (inner id).Perm (keys ps)) :
    ∃ p : Parts, p.WF ∧ stringWith outer inner sm = some p.render ∧ p.toMessage = mangleMsg sm ∧ p.msg = sm.message ∧
      p.sd = elems (sm.structuredData.getD []) := by
  obtain ⟨⟨v, hp, hle⟩, hv1, hv2⟩ := (valid_iff sm).mp hv
  obtain ⟨ts, hts1, hts2, hts3⟩ : ∃ ts : Option Stamp, (∀ s, ts = some s → s.WF ∧ s.Real) ∧ ts.map Stamp.time = sm.timestamp ∧
      tsText ts = textTime sm.timestamp := by
    cases ht : sm.timestamp with
    | none => exact ⟨none, fun _ h => (by simp at h), rfl, rfl⟩
    | some t =>
      obtain ⟨s, h1, h2, h3⟩ := h.timestamp t ht
      refine ⟨some (canonStamp s), fun s' hs' => ?_, ?_, ?_⟩
      · simp only [Option.some.injEq] at hs'; rw [← hs']; exact ⟨canonStamp_wf h1, h2⟩
      · rw [Option.map_some, canonStamp_time h1, h3]
      · rw [tsText, textTime, ← formatMicro_eq h1, h3]
  have hsd := h.getD
  refine ⟨{ pri := v.toNat, version := sm.version.toNat, timestamp := ts, hostname := sm.hostname, appname := sm.appname,
            procID := sm.procID, msgID := sm.msgID, sd := elems (sm.structuredData.getD []), msg := sm.message }, ?_, ?_, ?_, rfl, rfl⟩
  · refine ⟨hle, ⟨hv1, hv2⟩, hts1, h.hostname, h.appname, h.procID, h.msgID, ?_, ?_⟩
    · intro e he
      obtain ⟨e', he', rfl⟩ := List.mem_map.mp he
      have := hsd.2 e' he'
      refine ⟨this.1, fun p hp => ?_⟩
      obtain ⟨p', hp', rfl⟩ := List.mem_map.mp hp
      exact ⟨(this.2.2 p' hp').1, utf8_mangle _⟩
    · simp only [elems, List.map_map]
      have : (sm.structuredData.getD []).map (Elem.id ∘ fun e => (⟨e.1, e.2.map fun p => ⟨p.1, mangle p.2⟩⟩ : Elem)) =
        keys (sm.structuredData.getD []) := rfl
      rw [this]
      have hs := hsd.1
      generalize sm.structuredData.getD [] = sd at hs
      clear this
      induction sd with
      | nil => exact List.nodup_nil
      | cons x r ih =>
        rw [keys, List.map_cons, List.nodup_cons]
        refine ⟨fun hm => ?_, ih hs.2⟩
        obtain ⟨e, he, hx⟩ := List.mem_map.mp hm
        have := hs.1 e he
        rw [hx, blt_irrefl] at this
        simp at this
  · rw [stringWith, if_neg (by rw [hv]; simp)]
    simp only [hp, printUint_eq, Parts.render]
    rw [← hts3]
    have e1 : textSD outer inner sm.structuredData =
        sdText (elems (sm.structuredData.getD [])) := by
      cases hs : sm.structuredData with
      | none => rfl
      | some sd =>
        rw [hs] at ho hi
        obtain ⟨hne, hok⟩ := h.sd sd hs
        simp only [Option.getD_some, textSD] at ho hi ⊢
        rw [printSD_eq hok ho hi]
        cases sd with
        | nil => exact absurd rfl hne
        | cons x r => rfl
    have e2 : textMsg sm.message = msgText sm.message := by cases sm.message <;> rfl
    rw [e1, e2]
    rfl
  · simp only [Parts.toMessage]
    have f0 : UInt8.ofNat v.toNat = v := UInt8.ofNat_toNat
    have f1 : UInt8.ofNat (v.toNat / 8) = v / 8 := by
      apply UInt8.toNat_inj.mp; rw [UInt8.toNat_div, UInt8.toNat_ofNat', show UInt8.toNat 8 = 8 from rfl]; omega
    have f2 : UInt8.ofNat (v.toNat % 8) = v % 8 := by
      apply UInt8.toNat_inj.mp; rw [UInt8.toNat_mod, UInt8.toNat_ofNat', show UInt8.toNat 8 = 8 from rfl]; omega
    have f3 : UInt16.ofNat sm.version.toNat = sm.version := UInt16.ofNat_toNat
    rw [f0, f1, f2, f3, hts2, if_neg h.message]
    obtain ⟨hpn, -⟩ | ⟨v', -, h1, h2, h3⟩ := h.pri
    · rw [hpn] at hp; simp at hp
    · rw [hp, Option.some.injEq] at h1
      subst h1
      have e3 : (if elems (sm.structuredData.getD []) = [] then none else some (elemMap (elems (sm.structuredData.getD [])))) =
          sm.structuredData.map mangleSD := by
        rw [elemMap_elems hsd]
        cases hs : sm.structuredData with
        | none => rfl
        | some sd =>
          obtain ⟨hne, -⟩ := h.sd sd hs
          rw [if_neg]
          · rfl
          · cases sd with
            | nil => exact absurd rfl hne
            | cons x r => simp [elems]
      rw [e3, ← hp, ← h2, ← h3]
      rfl

/-- What the parser returns is of the form the builder makes. -/
theorem built_toMessage {p : Parts} (h : p.WF) : Built p.toMessage where
  pri := Or.inr ⟨UInt8.ofNat p.pri, by rw [UInt8.toNat_ofNat']; have := h.pri; omega, rfl, by
    have hp := h.pri
    simp only [Parts.toMessage, Option.some.injEq]
    apply UInt8.toNat_inj.mp
    rw [UInt8.toNat_div, UInt8.toNat_ofNat', UInt8.toNat_ofNat', show UInt8.toNat 8 = 8 from rfl]
    omega, by
    have hp := h.pri
    simp only [Parts.toMessage, Option.some.injEq]
    apply UInt8.toNat_inj.mp
    rw [UInt8.toNat_mod, UInt8.toNat_ofNat', UInt8.toNat_ofNat', show UInt8.toNat 8 = 8 from rfl]
    omega⟩
  timestamp := by
    intro t ht
    simp only [Parts.toMessage, Option.map_eq_some_iff] at ht
    obtain ⟨s, h1, h2⟩ := ht
    exact ⟨s, (h.timestamp s h1).1, (h.timestamp s h1).2, h2⟩
  hostname := h.hostname
  appname := h.appname
  procID := h.procID
  msgID := h.msgID
  sd := by
    intro sd hs
    simp only [Parts.toMessage] at hs
    split at hs
    · simp at hs
    · rename_i hne
      simp only [Option.some.injEq] at hs
      subst hs
      refine ⟨Rfc5424.putElem_ne_nil hne, ?_⟩
      have pm : ∀ (ps : List Param) (acc : SMap Bytes) (id : Bytes), (∀ q ∈ ps, q.WF) → ElemOk (id, acc) →
          ElemOk (id, ps.foldl (fun m p => m.insert p.name p.value) acc) := by
        intro ps
        induction ps with
        | nil => intro acc id _ ha; exact ha
        | cons q ps ih =>
          intro acc id hq ha
          exact ih _ id (fun x hx => hq x (by simp [hx])) (elemOk_insert ha (hq q (by simp)).1 (hq q (by simp)).2)
      have em : ∀ (es : List Elem) (acc : SD), (∀ e ∈ es, e.WF) → SdOk acc →
          SdOk (es.foldl (fun m e => m.insert e.id (paramMap e.params)) acc) := by
        intro es
        induction es with
        | nil => intro acc _ ha; exact ha
        | cons e es ih =>
          intro acc he ha
          have h1 := he e (by simp)
          exact ih _ (fun x hx => he x (by simp [hx])) (sdOk_insert ha (pm _ [] _ h1.2 ⟨h1.1, trivial, fun _ h => (by simp at h)⟩))
      exact em p.sd [] h.sd ⟨trivial, fun _ h => (by simp at h)⟩
  message := by
    simp only [Parts.toMessage]
    split
    · simp
    · assumption

end Verif.Builder
