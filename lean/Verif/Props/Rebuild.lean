import Verif.Props.Builder
import Verif.Props.Rfc5424Errors
import Verif.Spec.BuilderCalls

/-!
# C64, C66, C67: what chains of setter calls make

Specification: `Verif.Spec.BuilderCalls`.
-/

namespace Verif.Props
open Verif.Spec Verif.Builder
open Verif.Rfc5424 (parse1 SyslogMessage SD)

/-! ## C67 -/

theorem lastBy_hit {α : Type} {P : Call → α → Prop} {calls : List Call} {c : Call} {a : α} (h : P c a) : LastBy P (calls ++ [c]) (some a) :=
  ⟨calls, c, [], rfl, h, by simp⟩

theorem lastBy_miss {α : Type} {P : Call → α → Prop} {calls : List Call} {c : Call} {r : Option α} (h : LastBy P calls r) (hc : ∀ b, ¬ P c b) :
    LastBy P (calls ++ [c]) r := by
  cases r with
  | none =>
    intro d hd
    rcases List.mem_append.mp hd with hd | hd
    · exact h d hd
    · rw [List.mem_singleton.mp hd]; exact hc
  | some a =>
    obtain ⟨pre, e, post, rfl, h1, h2⟩ := h
    refine ⟨pre, e, post ++ [c], by simp, h1, ?_⟩
    intro d hd
    rcases List.mem_append.mp hd with hd | hd
    · exact h2 d hd
    · rw [List.mem_singleton.mp hd]; exact hc

/-- names of parameters of a built message are well-formed -/
theorem built_param {m : SyslogMessage} (h : Built m) {id name : Bytes} (hn : ¬ SdNameWF name) : param m id name = none := by
  cases hp : param m id name with
  | none => rfl
  | some v =>
    unfold param at hp
    rw [← element_getD] at hp
    obtain ⟨ps, h1, h2⟩ := Option.bind_eq_some_iff.mp hp
    exact absurd ((h.getD.2 _ (SMap.mem_of_find h1)).2.2 _ (SMap.mem_of_find h2)).1 hn

theorem built_element {m : SyslogMessage} (h : Built m) {id : Bytes} (hn : ¬ SdNameWF id) : element m id = none := by
  cases hp : element m id with
  | none => rfl
  | some ps =>
    rw [← element_getD] at hp
    exact absurd (h.getD.2 _ (SMap.mem_of_find hp)).1 hn

theorem denotes_step {calls : List Call} {c : Call} {m m' : SyslogMessage} {g g' : Globals} (h : Denotes calls m) (hb : Built m)
    (hr : c.run (m, g) = some (m', g')) : Denotes (calls ++ [c]) m' := by
  obtain ⟨m2, g2, e, hs⟩ := C22_only_own_field c m g
  rw [hr, Option.some.injEq, Prod.mk.injEq] at e
  obtain ⟨rfl, rfl⟩ := e
  have hpri : LastBy SetsPriority (calls ++ [c]) m'.priority ∧ m'.facility = m'.priority.map (· / 8) ∧
      m'.severity = m'.priority.map (· % 8) := by
    by_cases hc : fieldOf c = .priority
    · obtain ⟨v, rfl⟩ : ∃ v, c = .priority v := by cases c <;> simp_all [fieldOf]
      by_cases hv : v.toNat ≤ 191
      · rw [(C21_priority m g v).1 hv, Option.some.injEq, Prod.mk.injEq] at hr
        rw [← hr.1]
        exact ⟨lastBy_hit ⟨rfl, hv⟩, rfl, rfl⟩
      · rw [(C21_priority m g v).2 (by omega), Option.some.injEq, Prod.mk.injEq] at hr
        rw [← hr.1]
        refine ⟨lastBy_miss h.priority ?_, h.facility, h.severity⟩
        rintro b ⟨e, hle⟩
        rw [Call.priority.injEq] at e; rw [e] at hv; exact hv hle
    · obtain ⟨e1, e2, e3⟩ := hs .priority (Ne.symm hc)
      rw [← e1, ← e2, ← e3]
      refine ⟨lastBy_miss h.priority ?_, h.facility, h.severity⟩
      rintro b ⟨rfl, -⟩; exact hc rfl
  have hver : ∃ v, LastBy SetsVersion (calls ++ [c]) v ∧ m'.version = v.getD 0 := by
    obtain ⟨v0, l0, e0⟩ := h.version
    by_cases hc : fieldOf c = .version
    · obtain ⟨v, rfl⟩ : ∃ v, c = .version v := by cases c <;> simp_all [fieldOf]
      by_cases hv : 1 ≤ v.toNat ∧ v.toNat ≤ 999
      · rw [(C21_version m g v).1 hv, Option.some.injEq, Prod.mk.injEq] at hr
        exact ⟨some v, lastBy_hit ⟨rfl, hv⟩, by rw [← hr.1]; rfl⟩
      · rw [(C21_version m g v).2 hv, Option.some.injEq, Prod.mk.injEq] at hr
        refine ⟨v0, lastBy_miss l0 ?_, by rw [← hr.1]; exact e0⟩
        rintro b ⟨e, hle⟩
        rw [Call.version.injEq] at e; rw [e] at hv; exact hv hle
    · refine ⟨v0, lastBy_miss l0 ?_, (hs .version (Ne.symm hc)).symm.trans e0⟩
      rintro b ⟨rfl, -⟩; exact hc rfl
  have hts : LastBy SetsTimestamp (calls ++ [c]) m'.timestamp := by
    by_cases hc : fieldOf c = .timestamp
    · obtain ⟨v, rfl⟩ : ∃ v, c = .timestamp v := by cases c <;> simp_all [fieldOf]
      by_cases hv : ∃ s : Stamp, s.WF ∧ s.Real ∧ v = s.render
      · obtain ⟨s, h1, h2, h3⟩ := hv
        rw [(C21_timestamp m g v).1 s h1 h2 h3, Option.some.injEq, Prod.mk.injEq] at hr
        rw [← hr.1]
        exact lastBy_hit ⟨s, h1, h2, by rw [h3], rfl⟩
      · rw [(C21_timestamp m g v).2 hv, Option.some.injEq, Prod.mk.injEq] at hr
        rw [← hr.1]
        refine lastBy_miss h.timestamp ?_
        rintro b ⟨s, h1, h2, h3, -⟩
        rw [Call.timestamp.injEq] at h3
        exact hv ⟨s, h1, h2, h3⟩
    · have e := hs .timestamp (Ne.symm hc)
      rw [Field.same] at e
      rw [← e]
      refine lastBy_miss h.timestamp ?_
      rintro b ⟨s, -, -, rfl, -⟩; exact hc rfl
  have hhost : LastBy SetsHostname (calls ++ [c]) m'.hostname := by
    by_cases hc : fieldOf c = .hostname
    · obtain ⟨v, rfl⟩ : ∃ v, c = .hostname v := by cases c <;> simp_all [fieldOf]
      by_cases hv : NameWF 255 v ∧ v ≠ [45]
      · rw [(C21_hostname m g v).1 hv, Option.some.injEq, Prod.mk.injEq] at hr
        rw [← hr.1]
        exact lastBy_hit ⟨rfl, hv⟩
      · rw [(C21_hostname m g v).2 hv, Option.some.injEq, Prod.mk.injEq] at hr
        rw [← hr.1]
        refine lastBy_miss h.hostname ?_
        rintro b ⟨e, hle⟩
        rw [Call.hostname.injEq] at e; rw [e] at hv; exact hv hle
    · have e := hs .hostname (Ne.symm hc)
      rw [Field.same] at e
      rw [← e]
      refine lastBy_miss h.hostname ?_
      rintro b ⟨rfl, -⟩; exact hc rfl
  have happ : LastBy SetsAppname (calls ++ [c]) m'.appname := by
    by_cases hc : fieldOf c = .appname
    · obtain ⟨v, rfl⟩ : ∃ v, c = .appname v := by cases c <;> simp_all [fieldOf]
      by_cases hv : NameWF 48 v ∧ v ≠ [45]
      · rw [(C21_appname m g v).1 hv, Option.some.injEq, Prod.mk.injEq] at hr
        rw [← hr.1]
        exact lastBy_hit ⟨rfl, hv⟩
      · rw [(C21_appname m g v).2 hv, Option.some.injEq, Prod.mk.injEq] at hr
        rw [← hr.1]
        refine lastBy_miss h.appname ?_
        rintro b ⟨e, hle⟩
        rw [Call.appname.injEq] at e; rw [e] at hv; exact hv hle
    · have e := hs .appname (Ne.symm hc)
      rw [Field.same] at e
      rw [← e]
      refine lastBy_miss h.appname ?_
      rintro b ⟨rfl, -⟩; exact hc rfl
  have hproc : LastBy SetsProcID (calls ++ [c]) m'.procID := by
    by_cases hc : fieldOf c = .procID
    · obtain ⟨v, rfl⟩ : ∃ v, c = .procID v := by cases c <;> simp_all [fieldOf]
      by_cases hv : NameWF 128 v ∧ v ≠ [45]
      · rw [(C21_procID m g v).1 hv, Option.some.injEq, Prod.mk.injEq] at hr
        rw [← hr.1]
        exact lastBy_hit ⟨rfl, hv⟩
      · rw [(C21_procID m g v).2 hv, Option.some.injEq, Prod.mk.injEq] at hr
        rw [← hr.1]
        refine lastBy_miss h.procID ?_
        rintro b ⟨e, hle⟩
        rw [Call.procID.injEq] at e; rw [e] at hv; exact hv hle
    · have e := hs .procID (Ne.symm hc)
      rw [Field.same] at e
      rw [← e]
      refine lastBy_miss h.procID ?_
      rintro b ⟨rfl, -⟩; exact hc rfl
  have hmid : LastBy SetsMsgID (calls ++ [c]) m'.msgID := by
    by_cases hc : fieldOf c = .msgID
    · obtain ⟨v, rfl⟩ : ∃ v, c = .msgID v := by cases c <;> simp_all [fieldOf]
      by_cases hv : NameWF 32 v ∧ v ≠ [45]
      · rw [(C21_msgID m g v).1 hv, Option.some.injEq, Prod.mk.injEq] at hr
        rw [← hr.1]
        exact lastBy_hit ⟨rfl, hv⟩
      · rw [(C21_msgID m g v).2 hv, Option.some.injEq, Prod.mk.injEq] at hr
        rw [← hr.1]
        refine lastBy_miss h.msgID ?_
        rintro b ⟨e, hle⟩
        rw [Call.msgID.injEq] at e; rw [e] at hv; exact hv hle
    · have e := hs .msgID (Ne.symm hc)
      rw [Field.same] at e
      rw [← e]
      refine lastBy_miss h.msgID ?_
      rintro b ⟨rfl, -⟩; exact hc rfl
  have hmsg : LastBy SetsMessage (calls ++ [c]) m'.message := by
    by_cases hc : fieldOf c = .message
    · obtain ⟨v, rfl⟩ : ∃ v, c = .message v := by cases c <;> simp_all [fieldOf]
      by_cases hv : v ≠ []
      · rw [(C21_message m g v).1 hv, Option.some.injEq, Prod.mk.injEq] at hr
        rw [← hr.1]
        exact lastBy_hit ⟨rfl, hv⟩
      · have hv : v = [] := Decidable.byContradiction hv
        subst hv
        rw [(C21_message m g []).2, Option.some.injEq, Prod.mk.injEq] at hr
        rw [← hr.1]
        refine lastBy_miss h.message ?_
        rintro b ⟨e, hle⟩
        rw [Call.message.injEq] at e; exact hle e.symm
    · have e := hs .message (Ne.symm hc)
      rw [Field.same] at e
      rw [← e]
      refine lastBy_miss h.message ?_
      rintro b ⟨rfl, -⟩; exact hc rfl
  have el : ∀ id, (element m' id).isSome = (element m id).isSome → ¬ MakesElement id c →
      ((element m' id).isSome ↔ ∃ d ∈ calls ++ [c], MakesElement id d) := by
    intro id e hn
    rw [e, h.elements id]
    constructor
    · rintro ⟨d, hd, hm⟩; exact ⟨d, by simp [hd], hm⟩
    · rintro ⟨d, hd, hm⟩
      rcases List.mem_append.mp hd with hd | hd
      · exact ⟨d, hd, hm⟩
      · rw [List.mem_singleton.mp hd] at hm; exact absurd hm hn
  have el' : ∀ id, (element m' id).isSome = true → MakesElement id c → ((element m' id).isSome ↔ ∃ d ∈ calls ++ [c], MakesElement id d) :=
    fun id e hn => ⟨fun _ => ⟨c, by simp, hn⟩, fun _ => e⟩
  have hsd : (∀ id, (element m' id).isSome ↔ ∃ d ∈ calls ++ [c], MakesElement id d) ∧
      ∀ id name, LastBy (SetsParam id name) (calls ++ [c]) (param m' id name) := by
    by_cases hc : fieldOf c = .structuredData
    · cases c with
      | elementID w =>
        have hmiss : ∀ id name b, ¬ SetsParam id name (.elementID w) b := by
          rintro id name b ⟨-, -, raw, e, -⟩; cases e
        by_cases hw : SdNameWF w
        · obtain ⟨m3, e1, -, e3, e4⟩ := (C21_elementID m g w).1 hw
          rw [hr, Option.some.injEq, Prod.mk.injEq] at e1
          obtain ⟨rfl, rfl⟩ := e1
          constructor
          · intro id
            by_cases hid : id = w
            · subst hid
              exact el' _ (by rw [e3]; rfl) ⟨hw, Or.inl rfl⟩
            · refine el id (by rw [e4 id hid]) ?_
              rintro ⟨-, e | ⟨n, v, e⟩⟩
              · rw [Call.elementID.injEq] at e; exact hid e.symm
              · cases e
          · intro id name
            have : param m' id name = param m id name := by
              unfold param
              by_cases hid : id = w
              · subst hid; rw [e3]; cases element m id <;> rfl
              · rw [e4 id hid]
            rw [this]
            exact lastBy_miss (h.params id name) (hmiss id name)
        · rw [(C21_elementID m g w).2 hw, Option.some.injEq, Prod.mk.injEq] at hr
          obtain ⟨rfl, rfl⟩ := hr
          refine ⟨fun id => el id rfl ?_, fun id name => lastBy_miss (h.params id name) (hmiss id name)⟩
          rintro ⟨hwf, e | ⟨n, v, e⟩⟩
          · rw [Call.elementID.injEq] at e; rw [e] at hw; exact hw hwf
          · cases e
      | parameter i n raw =>
        by_cases hi : SdNameWF i
        · by_cases hn : SdNameWF n
          · obtain ⟨m3, g3, e1, e2, e3, e4, e5⟩ := C23_well_formed m g i n raw hi hn
            rw [hr, Option.some.injEq, Prod.mk.injEq] at e1
            obtain ⟨rfl, rfl⟩ := e1
            have hset : ∃ v, param m' i n = some v ∧ SetsParam i n (.parameter i n raw) v := by
              by_cases hv : ∃ v, Utf8 v ∧ Unescaped raw v
              · obtain ⟨v, h1, h2⟩ := hv
                exact ⟨v, e2 v h1 h2, hi, hn, raw, rfl, Or.inl ⟨h1, h2⟩⟩
              · exact ⟨[], e3 hv, hi, hn, raw, rfl, Or.inr ⟨hv, rfl⟩⟩
            obtain ⟨v, hv, hset⟩ := hset
            constructor
            · intro id
              by_cases hid : id = i
              · subst hid
                refine el' _ ?_ ⟨hi, Or.inr ⟨n, raw, rfl⟩⟩
                unfold param at hv
                cases he : element m' id with
                | none => rw [he] at hv; cases hv
                | some _ => rfl
              · refine el id (by rw [e5 id hid]) ?_
                rintro ⟨-, e | ⟨n', v', e⟩⟩
                · cases e
                · rw [Call.parameter.injEq] at e; exact hid e.1.symm
            · intro id name
              by_cases hx : id = i ∧ name = n
              · obtain ⟨rfl, rfl⟩ := hx
                rw [hv]; exact lastBy_hit hset
              · have : param m' id name = param m id name := by
                  by_cases hid : id = i
                  · subst hid; exact e4 name fun hh => hx ⟨rfl, hh⟩
                  · unfold param; rw [e5 id hid]
                rw [this]
                refine lastBy_miss (h.params id name) ?_
                rintro b ⟨-, -, raw', e, -⟩
                rw [Call.parameter.injEq] at e
                exact hx ⟨e.1.symm, e.2.1.symm⟩
          · obtain ⟨m3, g3, e1, e2⟩ := C23_bad_name m g i n raw hi hn (built_param hb hn)
            rw [hr, Option.some.injEq, Prod.mk.injEq] at e1
            obtain ⟨rfl, rfl⟩ := e1
            obtain ⟨m4, f1, -, f3, f4⟩ := (C21_elementID m g i).1 hi
            rw [e2, Option.some.injEq, Prod.mk.injEq] at f1
            obtain ⟨rfl, -⟩ := f1
            constructor
            · intro id
              by_cases hid : id = i
              · subst hid
                exact el' _ (by rw [f3]; rfl) ⟨hi, Or.inr ⟨n, raw, rfl⟩⟩
              · refine el id (by rw [f4 id hid]) ?_
                rintro ⟨-, e | ⟨n', v', e⟩⟩
                · cases e
                · rw [Call.parameter.injEq] at e; exact hid e.1.symm
            · intro id name
              have : param m' id name = param m id name := by
                unfold param
                by_cases hid : id = i
                · subst hid; rw [f3]; cases element m id <;> rfl
                · rw [f4 id hid]
              rw [this]
              refine lastBy_miss (h.params id name) ?_
              rintro b ⟨-, hwf, raw', e, -⟩
              rw [Call.parameter.injEq] at e
              rw [e.2.1] at hn; exact hn hwf
        · rw [C23_bad_id m g i n raw hi (built_element hb hi), Option.some.injEq, Prod.mk.injEq] at hr
          obtain ⟨rfl, rfl⟩ := hr
          refine ⟨fun id => el id rfl ?_, fun id name => lastBy_miss (h.params id name) ?_⟩
          · rintro ⟨hwf, e | ⟨n', v, e⟩⟩
            · cases e
            · rw [Call.parameter.injEq] at e; rw [e.1] at hi; exact hi hwf
          · rintro b ⟨hwf, -, raw', e, -⟩
            rw [Call.parameter.injEq] at e
            rw [e.1] at hi; exact hi hwf
      | priority v => cases hc
      | version v => cases hc
      | timestamp v => cases hc
      | hostname v => cases hc
      | appname v => cases hc
      | procID v => cases hc
      | msgID v => cases hc
      | message v => cases hc
    · have e := hs .structuredData (Ne.symm hc)
      rw [Field.same] at e
      have he : ∀ id, element m' id = element m id := by intro id; unfold element; rw [e]
      refine ⟨fun id => el id (by rw [he]) ?_, fun id name => ?_⟩
      · rintro ⟨-, rfl | ⟨n, v, rfl⟩⟩ <;> exact hc rfl
      · have : param m' id name = param m id name := by unfold param; rw [he]
        rw [this]
        refine lastBy_miss (h.params id name) ?_
        rintro b ⟨-, -, raw, rfl, -⟩; exact hc rfl
  exact ⟨hpri.1, hpri.2.1, hpri.2.2, hver, hts, hhost, happ, hproc, hmid, hmsg, hsd.1, hsd.2⟩

theorem denotes_run (cs : List Call) : ∀ (pre : List Call) (m : SyslogMessage) (g : Globals) (m' : SyslogMessage) (g' : Globals),
    Denotes pre m → Built m → runCalls cs (m, g) = some (m', g') → Denotes (pre ++ cs) m' := by
  induction cs with
  | nil =>
    intro pre m g m' g' h _ hr
    rw [runCalls, Option.some.injEq, Prod.mk.injEq] at hr
    rw [List.append_nil, ← hr.1]; exact h
  | cons c cs ih =>
    intro pre m g m' g' h hb hr
    obtain ⟨m1, g1, h1, hb1⟩ := run_built c m g hb
    rw [runCalls, h1] at hr
    have := ih (pre ++ [c]) m1 g1 m' g' (denotes_step h hb h1) hb1 hr
    rwa [List.append_assoc] at this

/-- C67: what any chain of setter calls on a new message gives: in every field the value of the last call that is accepted for that field;
an element for every accepted identifier; for every parameter the value of the last call with that identifier and name. -/
theorem C67_calls_denote (calls : List Call) (g : Globals) : ∃ m g', runCalls calls ({}, g) = some (m, g') ∧ Denotes calls m := by
  obtain ⟨m, g', h, -⟩ := runCalls_built calls {} g built_empty
  refine ⟨m, g', h, ?_⟩
  have h0 : Denotes [] {} := by
    constructor
    · intro d hd; simp at hd
    · rfl
    · rfl
    · exact ⟨none, by intro d hd; simp at hd, rfl⟩
    · intro d hd; simp at hd
    · intro d hd; simp at hd
    · intro d hd; simp at hd
    · intro d hd; simp at hd
    · intro d hd; simp at hd
    · intro d hd; simp at hd
    · intro id; simp [element]
    · intro id name d hd; simp at hd
  have := denotes_run calls [] {} g m g' h0 built_empty h
  simpa using this

/-! ## C64 -/

/-- some chain of setter calls makes `m` -/
def Reachable (g : Globals) (m : SyslogMessage) : Prop := ∃ calls g', runCalls calls ({}, g) = some (m, g')

theorem runCalls_append (a b : List Call) : ∀ s, runCalls (a ++ b) s = (runCalls a s).bind (runCalls b) := by
  induction a with
  | nil => intro s; rfl
  | cons c a ih =>
    intro s
    rw [List.cons_append, runCalls, runCalls]
    cases c.run s with
    | none => rfl
    | some s' => exact ih s'

theorem Reachable.step {g : Globals} {m m' : SyslogMessage} (h : Reachable g m) (c : Call) (hc : ∀ g1, ∃ g2, c.run (m, g1) = some (m', g2)) :
    Reachable g m' := by
  obtain ⟨calls, g1, h⟩ := h
  obtain ⟨g2, h2⟩ := hc g1
  refine ⟨calls ++ [c], g2, ?_⟩
  rw [runCalls_append, h, Option.bind_some, runCalls, h2]; rfl

theorem insert_tail {V : Type} {acc : SMap V} {k : Bytes} {v w : V} (h : ∀ e ∈ acc, blt e.1 k = true) :
    SMap.insert k w (acc ++ [(k, v)]) = acc ++ [(k, w)] := by
  rw [← insert_last h, insert_insert', insert_last h]

theorem find_tail {V : Type} {acc : SMap V} {k : Bytes} {v : V} (h : ∀ e ∈ acc, blt e.1 k = true) : SMap.find k (acc ++ [(k, v)]) = some v := by
  rw [← insert_last h, SMap.find_insert_self]

theorem find_below {V : Type} {acc : SMap V} {k : Bytes} (h : ∀ e ∈ acc, blt e.1 k = true) : SMap.find k acc = none := by
  cases hf : SMap.find k acc with
  | none => rfl
  | some v =>
    have := h _ (SMap.mem_of_find hf)
    rw [blt_irrefl] at this; simp at this

/-- the parameters `ps` are added to the last element -/
theorem reach_params {g : Globals} (id : Bytes) (hid : SdNameWF id) (acc : SD) (hacc : ∀ e ∈ acc, blt e.1 id = true) :
    ∀ (ps pre : SMap Bytes) (m : SyslogMessage), (∀ a ∈ pre, ∀ e ∈ ps, blt a.1 e.1 = true) → ps.Sorted →
      (∀ p ∈ ps, SdNameWF p.1 ∧ Utf8 p.2) → m.structuredData = some (acc ++ [(id, pre)]) → Reachable g m →
      Reachable g { m with structuredData := some (acc ++ [(id, pre ++ ps)]) } := by
  intro ps
  induction ps with
  | nil => intro pre m _ _ _ hs hr; rw [List.append_nil, ← hs]; exact hr
  | cons q ps ih =>
    intro pre m hlt hso hok hs hr
    obtain ⟨n, v⟩ := q
    have hpre : ∀ e ∈ pre, blt e.1 n = true := fun e he => hlt e he (n, v) (by simp)
    have hfind : SMap.find id (acc ++ [(id, pre)]) = some pre := find_tail hacc
    have hstep : Reachable g { m with structuredData := some (acc ++ [(id, pre ++ [(n, v)])]) } := by
      refine hr.step (.parameter id n (escape v)) fun g1 => ?_
      have h1 : set g1 .sdid id m = some m := by
        rw [(set_sdid g1 id m).1 hid]
        simp only [hs, Option.getD_some, ensure, hfind]
        rw [← hs]
      have ht := (setParameter_tail (name := n) (value := escape v) h1 hs hfind).1 (hok (n, v) (by simp)).1 v (hok (n, v) (by simp)).2 rfl
      rw [insert_tail hacc, insert_last hpre] at ht
      exact ⟨_, ht⟩
    have := ih (pre ++ [(n, v)]) _ (by
      intro a ha e he
      rcases List.mem_append.mp ha with ha | ha
      · exact hlt a ha e (by simp [he])
      · rw [List.mem_singleton.mp ha]; exact hso.1 e he) hso.2 (fun p hp => hok p (by simp [hp])) rfl hstep
    simpa using this

/-- the elements `es` are added -/
theorem reach_elems {g : Globals} : ∀ (es acc : SD) (m : SyslogMessage), (∀ a ∈ acc, ∀ e ∈ es, blt a.1 e.1 = true) → SdOk es →
    m.structuredData.getD [] = acc → Reachable g m → es ≠ [] → Reachable g { m with structuredData := some (acc ++ es) } := by
  intro es
  induction es with
  | nil => intro acc m _ _ _ _ h; exact absurd rfl h
  | cons e es ih =>
    intro acc m hlt hok hs hr _
    obtain ⟨id, ps⟩ := e
    obtain ⟨hso, hel⟩ := hok
    have he := hel (id, ps) (by simp)
    have hacc : ∀ a ∈ acc, blt a.1 id = true := fun a ha => hlt a ha (id, ps) (by simp)
    have h1 : Reachable g { m with structuredData := some (acc ++ [(id, [])]) } := by
      refine hr.step (.elementID id) fun g1 => ⟨g1, ?_⟩
      rw [Call.run, (set_sdid g1 id m).1 he.1, hs]
      simp only [ensure, find_below hacc, insert_last hacc, Option.map_some]
    have h2 := reach_params id he.1 acc hacc ps [] _ (by simp) he.2.1 he.2.2 rfl h1
    simp only [List.nil_append] at h2
    cases es with
    | nil => exact h2
    | cons e2 es =>
      have := ih (acc ++ [(id, ps)]) _ (by
        intro a ha e' he'
        rcases List.mem_append.mp ha with ha | ha
        · exact hlt a ha e' (by simp [he'])
        · rw [List.mem_singleton.mp ha]; exact hso.1 e' he') ⟨hso.2, fun x hx => hel x (by simp [hx])⟩ rfl h2 (by simp)
      simpa using this

theorem built_buildable {m : SyslogMessage} (h : Built m) (hv : m.version.toNat ≤ 999) : Buildable m := by
  refine ⟨?_, ?_, ?_, hv, h.timestamp, h.hostname, h.appname, h.procID, h.msgID, h.message, fun sd hs => ⟨(h.sd sd hs).1, (h.sd sd hs).2⟩⟩
  · intro v hp
    rcases h.pri with ⟨h1, -⟩ | ⟨w, h1, h2, -⟩
    · rw [h1] at hp; cases hp
    · rw [h2, Option.some.injEq] at hp; exact hp ▸ h1
  · rcases h.pri with ⟨h1, h2, -⟩ | ⟨w, -, h1, h2, -⟩ <;> rw [h1, h2] <;> rfl
  · rcases h.pri with ⟨h1, -, h2⟩ | ⟨w, -, h1, -, h2⟩ <;> rw [h1, h2] <;> rfl

/-- C64: exactly the messages that are described by `Buildable` can be made with the setters. -/
theorem C64_buildable_iff (m : SyslogMessage) (g : Globals) : (∃ calls g', runCalls calls ({}, g) = some (m, g')) ↔ Buildable m := by
  constructor
  · rintro ⟨calls, g', h⟩
    obtain ⟨m2, g2, h2, hd⟩ := C67_calls_denote calls g
    obtain ⟨m3, g3, h3, hb⟩ := runCalls_built calls {} g built_empty
    rw [h, Option.some.injEq, Prod.mk.injEq] at h2 h3
    obtain ⟨rfl, -⟩ := h2
    obtain ⟨rfl, -⟩ := h3
    refine built_buildable hb ?_
    obtain ⟨v, hl, hv⟩ := hd.version
    rw [hv]
    cases v with
    | none => decide
    | some v =>
      obtain ⟨pre, c, post, -, ⟨-, -, h⟩, -⟩ := hl
      exact h
  · intro h
    show Reachable g m
    have r0 : Reachable g {} := ⟨[], g, rfl⟩
    have r1 : Reachable g { ({} : SyslogMessage) with priority := m.priority, facility := m.facility, severity := m.severity } := by
      rw [h.facility, h.severity]
      cases hp : m.priority with
      | none => exact r0
      | some v => exact r0.step (.priority v) fun g1 => ⟨g1, (C21_priority {} g1 v).1 (h.priority v hp)⟩
    have r2 : Reachable g { ({} : SyslogMessage) with priority := m.priority, facility := m.facility, severity := m.severity, version := m.version } := by
      by_cases h0 : 1 ≤ m.version.toNat
      · exact r1.step (.version m.version) fun g1 => ⟨g1, (C21_version _ g1 _).1 ⟨h0, h.version⟩⟩
      · have : m.version = 0 := UInt16.toNat_inj.mp (by simp; omega)
        rw [this]; exact r1
    have r3 : Reachable g { ({} : SyslogMessage) with
        priority := m.priority, facility := m.facility, severity := m.severity, version := m.version, timestamp := m.timestamp } := by
      cases ht : m.timestamp with
      | none => exact r2
      | some t =>
        obtain ⟨s, h1, h2, h3⟩ := h.timestamp t ht
        exact r2.step (.timestamp s.render) fun g1 => ⟨g1, by rw [(C21_timestamp _ g1 _).1 s h1 h2 rfl, h3]⟩
    have r4 : Reachable g { ({} : SyslogMessage) with
        priority := m.priority, facility := m.facility, severity := m.severity, version := m.version, timestamp := m.timestamp,
        hostname := m.hostname } := by
      have hf := h.hostname
      cases ht : m.hostname with
      | none => exact r3
      | some w => rw [ht] at hf; exact r3.step (.hostname w) fun g1 => ⟨g1, (C21_hostname _ g1 _).1 hf⟩
    have r5 : Reachable g { ({} : SyslogMessage) with
        priority := m.priority, facility := m.facility, severity := m.severity, version := m.version, timestamp := m.timestamp,
        hostname := m.hostname, appname := m.appname } := by
      have hf := h.appname
      cases ht : m.appname with
      | none => exact r4
      | some w => rw [ht] at hf; exact r4.step (.appname w) fun g1 => ⟨g1, (C21_appname _ g1 _).1 hf⟩
    have r6 : Reachable g { ({} : SyslogMessage) with
        priority := m.priority, facility := m.facility, severity := m.severity, version := m.version, timestamp := m.timestamp,
        hostname := m.hostname, appname := m.appname, procID := m.procID } := by
      have hf := h.procID
      cases ht : m.procID with
      | none => exact r5
      | some w => rw [ht] at hf; exact r5.step (.procID w) fun g1 => ⟨g1, (C21_procID _ g1 _).1 hf⟩
    have r7 : Reachable g { ({} : SyslogMessage) with
        priority := m.priority, facility := m.facility, severity := m.severity, version := m.version, timestamp := m.timestamp,
        hostname := m.hostname, appname := m.appname, procID := m.procID, msgID := m.msgID } := by
      have hf := h.msgID
      cases ht : m.msgID with
      | none => exact r6
      | some w => rw [ht] at hf; exact r6.step (.msgID w) fun g1 => ⟨g1, (C21_msgID _ g1 _).1 hf⟩
    have r8' : ∀ x, x ≠ some [] → Reachable g { ({} : SyslogMessage) with
        priority := m.priority, facility := m.facility, severity := m.severity, version := m.version, timestamp := m.timestamp,
        hostname := m.hostname, appname := m.appname, procID := m.procID, msgID := m.msgID, message := x } := by
      intro x hx
      cases x with
      | none => exact r7
      | some w => exact r7.step (.message w) fun g1 => ⟨g1, (C21_message _ g1 _).1 fun hh => hx (congrArg some hh)⟩
    have r8 := r8' m.message h.message
    cases hs : m.structuredData with
    | none =>
      have : m = { ({} : SyslogMessage) with
        priority := m.priority, facility := m.facility, severity := m.severity, version := m.version, timestamp := m.timestamp,
        hostname := m.hostname, appname := m.appname, procID := m.procID, msgID := m.msgID, message := m.message } := by
        obtain ⟨⟨⟩, _, sd⟩ := m
        simp only at hs; subst hs; rfl
      rw [this]; exact r8
    | some sd =>
      obtain ⟨h1, h2, h3⟩ := h.sd sd hs
      have := reach_elems sd [] _ (by simp) ⟨h2, h3⟩ rfl r8 h1
      have e : m = { ({} : SyslogMessage) with
        priority := m.priority, facility := m.facility, severity := m.severity, version := m.version, timestamp := m.timestamp,
        hostname := m.hostname, appname := m.appname, procID := m.procID, msgID := m.msgID, message := m.message, structuredData := some sd } := by
        obtain ⟨⟨⟩, _, sd'⟩ := m
        simp only at hs; subst hs; rfl
      rw [e]; exact this

/-! ## C66: messages that the parser returns -/

theorem first_wf {p : Parts} (h : p.WF) (k : Nat) : ∃ q : Parts, q.WF ∧ p.first k = q.toMessage := by
  refine ⟨{ p with timestamp := if 2 ≤ k then p.timestamp else none, hostname := if 3 ≤ k then p.hostname else none, appname := if 4 ≤ k then p.appname else none, procID := if 5 ≤ k then p.procID else none, msgID := if 6 ≤ k then p.msgID else none, sd := [], msg := none },
    ⟨h.pri, h.version, ?_, ?_, ?_, ?_, ?_, by simp, by simp⟩, rfl⟩
  · intro s hs
    simp only at hs
    split at hs
    · exact h.timestamp s hs
    · cases hs
  all_goals
    simp only
    split
    · first | exact h.hostname | exact h.appname | exact h.procID | exact h.msgID
    · trivial

theorem withElems_wf {p : Parts} (h : p.WF) {es : List Elem} (h1 : ∀ e ∈ es, e.WF) (h2 : (es.map Elem.id).Nodup) :
    ∃ q : Parts, q.WF ∧ p.withElems es = q.toMessage :=
  ⟨{ p with sd := es, msg := none }, ⟨h.pri, h.version, h.timestamp, h.hostname, h.appname, h.procID, h.msgID, h1, h2⟩, rfl⟩

theorem paramStuck_wf {ps ps' : List Param} {x : Bytes} {kind : Rfc5424.ErrKind} {n : Nat} (h : ParamStuck ps x kind n ps')
    (hw : ∀ q ∈ ps, q.WF) : ∀ q ∈ ps', q.WF := by
  have hd : ∀ name, ∀ q ∈ dropName name ps, q.WF := fun name q hq => hw q (List.mem_filter.mp hq).1
  cases h with
  | name _ =>
    unfold dropLastName
    split
    · intro q hq; simp at hq
    · exact hd _
  | quote _ _ => exact hd _
  | value _ _ _ => exact hw
  | char _ _ _ => exact hd _
  | after _ _ _ _ => exact hd _

theorem elemStuck_wf {es es' : List Elem} {x : Bytes} {kind : Rfc5424.ErrKind} {n : Nat} (h : ElemStuck es x kind n es')
    (hw : ∀ e ∈ es, e.WF) (hn : (es.map Elem.id).Nodup) : (∀ e ∈ es', e.WF) ∧ (es'.map Elem.id).Nodup := by
  cases h with
  | noId _ =>
    refine ⟨fun e he => hw e (List.dropLast_subset _ he), ?_⟩
    rw [List.map_dropLast]
    exact hn.sublist (List.dropLast_sublist _)
  | badId _ _ _ => exact ⟨hw, hn⟩
  | dupId _ _ => exact ⟨hw, hn⟩
  | @param id x ps ps' kind n h1 h2 h3 =>
    refine ⟨?_, ?_⟩
    · intro e he
      rcases List.mem_append.mp he with he | he
      · exact hw e he
      · rw [List.mem_singleton.mp he]
        exact ⟨h2.1, paramStuck_wf h3 h2.2⟩
    · rw [List.map_append, List.nodup_append]
      refine ⟨hn, by simp, ?_⟩
      intro a ha b hb
      obtain ⟨e, he, rfl⟩ := List.mem_map.mp ha
      simp only [List.map_cons, List.map_nil, List.mem_singleton] at hb
      rw [hb]; exact h1 e he

/-- partial messages are messages of the grammar -/
theorem broken_wf {co : Bool} {x : Bytes} {k : Rfc5424.ErrKind} {c : Nat} {m : SyslogMessage} (h : Broken co x k c (some m)) :
    ∃ q : Parts, q.WF ∧ m = q.toMessage := by
  cases h with
  | @version p t hp h1 h2 =>
    refine first_wf (p := { p with version := if t = [] ∧ 10 ≤ p.version then p.version / 10 else p.version }) ?_ 1
    refine ⟨hp.pri, ?_, hp.timestamp, hp.hostname, hp.appname, hp.procID, hp.msgID, hp.sd, hp.ids⟩
    have := hp.version
    simp only
    split <;> omega
  | nilTime hp _ => exact first_wf hp _
  | time hp _ _ => exact first_wf hp _
  | noSuchDay hp _ _ => exact first_wf hp _
  | afterTime hp _ _ => exact first_wf hp _
  | field hp _ _ _ => exact first_wf hp _
  | noSd hp _ _ => exact first_wf hp _
  | nilSd hp _ => exact first_wf hp _
  | element hp h1 => exact withElems_wf hp (elemStuck_wf h1 hp.sd hp.ids).1 (elemStuck_wf h1 hp.sd hp.ids).2
  | afterSd hp _ _ _ => exact withElems_wf hp hp.sd hp.ids
  | @msg p w n hp _ _ _ _ _ _ =>
    exact ⟨{ p with msg := some (w.take n) }, ⟨hp.pri, hp.version, hp.timestamp, hp.hostname, hp.appname, hp.procID, hp.msgID, hp.sd, hp.ids⟩, rfl⟩

theorem returned_wf {o : Rfc5424.Opts} {input : Bytes} {m : SyslogMessage} {err : Option Rfc5424.Err}
    (h : parse1 o input = some ⟨some m, err⟩) : ∃ q : Parts, q.WF ∧ m = q.toMessage := by
  obtain ⟨be, co⟩ := o
  rcases (C57_every_outcome be co input _).mp h with ⟨p, hp, -, -, hr⟩ | ⟨k, c, m', hb, hr⟩
  · rw [Rfc5424.Result.mk.injEq, Option.some.injEq] at hr
    exact ⟨p, hp, hr.1⟩
  · rw [Rfc5424.Result.mk.injEq] at hr
    cases be with
    | false => exact absurd hr.1 (by simp)
    | true =>
      rw [if_pos rfl] at hr
      exact broken_wf (hr.1 ▸ hb)

/-- C66: every message that `Parse` returns - complete, or partial with an error - can be assembled with the setters. -/
theorem C66_returned_can_be_built (o : Rfc5424.Opts) (input : Bytes) (m : SyslogMessage) (err : Option Rfc5424.Err)
    (h : parse1 o input = some ⟨some m, err⟩) (g : Globals) : ∃ calls g', runCalls calls ({}, g) = some (m, g') := by
  obtain ⟨q, hq, rfl⟩ := returned_wf h
  refine (C64_buildable_iff _ g).mpr (built_buildable (built_toMessage hq) ?_)
  have := hq.version
  simp only [Parts.toMessage, UInt16.toNat_ofNat']
  omega

/-- C66: it can be printed and parsed again, in strict mode; the result is the same message when its parameter values are US-ASCII. So a
relay can pass on the readable part of a malformed message as a well-formed one. -/
theorem C66_returned_string_parses (o : Rfc5424.Opts) (input : Bytes) (m : SyslogMessage) (err : Option Rfc5424.Err)
    (h : parse1 o input = some ⟨some m, err⟩) (outer : List Bytes) (inner : Bytes → List Bytes) (ho : IterationOrder m outer inner) (be : Bool) :
    ∃ text m', stringWith outer inner m = some text ∧ parse1 ⟨be, false⟩ text = some ⟨some m', none⟩ ∧ ValuesMangled m m' ∧
      (AsciiValues m → m' = m) := by
  obtain ⟨q, hq, rfl⟩ := returned_wf h
  have hb := built_toMessage hq
  have hv : q.toMessage.valid = true := (C05_returned_valid o input _ err h).1
  obtain ⟨text, h2, h3⟩ := parse_string hb hv ho be false (by simp)
  refine ⟨text, _, h2, h3, built_mangled hb, fun ha => ?_⟩
  exact (mangleMsg_eq_iff hb).mpr fun id name v hp => stable_ascii (ha id name v hp)

/-- a partial message, printed -/
example : ∃ m, parse1 ⟨true, false⟩ (ascii "<34>1 2003-02-28T22:14:15Z h a p m [x k=\"v\"][y k=\"w") = some ⟨some m, some ⟨.escape, 51⟩⟩ ∧
    string m = some (ascii "<34>1 2003-02-28T22:14:15Z h a p m [x k=\"v\"][y]") := ex_of (by decide +kernel)

/-! ## C67: the meaning determines the message -/

theorem lastBy_unique {α : Type} {P : Call → α → Prop} (hP : ∀ c a b, P c a → P c b → a = b) {calls : List Call} {r r' : Option α}
    (h : LastBy P calls r) (h' : LastBy P calls r') : r = r' := by
  cases r with
  | none =>
    cases r' with
    | none => rfl
    | some a => obtain ⟨pre, c, post, rfl, hc, -⟩ := h'; exact absurd hc (h c (by simp) a)
  | some a =>
    obtain ⟨pre, c, post, e, hc, hpost⟩ := h
    cases r' with
    | none => exact absurd hc (h' c (by rw [e]; simp) a)
    | some b =>
      obtain ⟨pre', c', post', e', hc', hpost'⟩ := h'
      rw [e] at e'
      rcases List.append_eq_append_iff.mp e' with ⟨l, h1, h2⟩ | ⟨l, h1, h2⟩
      · cases l with
        | nil =>
          simp only [List.nil_append, List.cons.injEq] at h2
          rw [h2.1] at hc; rw [hP c' a b hc hc']
        | cons x l =>
          simp only [List.cons_append, List.cons.injEq] at h2
          exact absurd hc' (hpost c' (by rw [h2.2]; simp) b)
      · cases l with
        | nil =>
          simp only [List.nil_append, List.cons.injEq] at h2
          rw [← h2.1] at hc; rw [hP c' a b hc hc']
        | cons x l =>
          simp only [List.cons_append, List.cons.injEq] at h2
          exact absurd hc (hpost' c (by rw [h2.2]; simp) a)

theorem smap_ext {V : Type} : ∀ {m m' : SMap V}, m.Sorted → m'.Sorted → (∀ k, m.find k = m'.find k) → m = m' := by
  intro m
  induction m with
  | nil =>
    intro m' _ _ h
    cases m' with
    | nil => rfl
    | cons x r => obtain ⟨k, v⟩ := x; have := h k; simp [SMap.find] at this
  | cons x r ih =>
    intro m' hs hs' h
    obtain ⟨k, v⟩ := x
    cases m' with
    | nil => have := h k; simp [SMap.find] at this
    | cons x' r' =>
      obtain ⟨k', v'⟩ := x'
      have hk : k = k' := by
        apply Decidable.byContradiction
        intro hne
        have h1 := h k
        have h2 := h k'
        simp only [SMap.find, if_true, hne, Ne.symm hne, if_false] at h1 h2
        have a := hs'.1 _ (SMap.mem_of_find h1.symm)
        have b := hs.1 _ (SMap.mem_of_find h2)
        simp only at a b
        rw [blt_asymm a] at b; simp at b
      subst hk
      have hv := h k
      simp only [SMap.find, if_true, Option.some.injEq] at hv
      subst hv
      rw [ih hs.2 hs'.2 fun x => ?_]
      by_cases hx : x = k
      · subst hx; rw [SMap.find_none_of_lt hs.1, SMap.find_none_of_lt hs'.1]
      · have := h x
        simpa only [SMap.find, hx, if_false] using this

theorem sd_of_element {m : SyslogMessage} (h : Buildable m) : (m.structuredData.getD []).Sorted ∧
    (∀ e ∈ m.structuredData.getD [], e.2.Sorted) ∧ (m.structuredData = none ↔ m.structuredData.getD [] = []) := by
  cases hs : m.structuredData with
  | none => exact ⟨trivial, by simp, by simp⟩
  | some sd =>
    obtain ⟨h1, h2, h3⟩ := h.sd sd hs
    exact ⟨h2, fun e he => (h3 e he).2.1, by simp [h1]⟩

/-- C67: the meaning of a chain of calls is one message. In particular chains with the same last accepted values make the same message,
whatever their order. -/
theorem C67_one_meaning (calls : List Call) (m m' : SyslogMessage) (h : Denotes calls m) (h' : Denotes calls m')
    (hb : Buildable m) (hb' : Buildable m') : m = m' := by
  have e1 : m.priority = m'.priority := lastBy_unique (by
    rintro c a b ⟨rfl, -⟩ ⟨e, -⟩; exact Call.priority.inj e) h.priority h'.priority
  have e2 : m.facility = m'.facility := by rw [h.facility, h'.facility, e1]
  have e3 : m.severity = m'.severity := by rw [h.severity, h'.severity, e1]
  have e4 : m.version = m'.version := by
    obtain ⟨v, l, e⟩ := h.version
    obtain ⟨v', l', e'⟩ := h'.version
    rw [e, e', lastBy_unique (by rintro c a b ⟨rfl, -⟩ ⟨e, -⟩; exact Call.version.inj e) l l']
  have e5 : m.timestamp = m'.timestamp := lastBy_unique (by
    rintro c a b ⟨s, h1, h2, rfl, rfl⟩ ⟨s', h1', h2', e, rfl⟩
    have e := Call.timestamp.inj e
    have p1 := (C21_timestamp {} {} s.render).1 s h1 h2 rfl
    have p2 := (C21_timestamp {} {} s.render).1 s' h1' h2' e
    rw [p1] at p2
    simpa using p2) h.timestamp h'.timestamp
  have e6 : m.hostname = m'.hostname := lastBy_unique (by rintro c a b ⟨rfl, -⟩ ⟨e, -⟩; exact Call.hostname.inj e) h.hostname h'.hostname
  have e7 : m.appname = m'.appname := lastBy_unique (by rintro c a b ⟨rfl, -⟩ ⟨e, -⟩; exact Call.appname.inj e) h.appname h'.appname
  have e8 : m.procID = m'.procID := lastBy_unique (by rintro c a b ⟨rfl, -⟩ ⟨e, -⟩; exact Call.procID.inj e) h.procID h'.procID
  have e9 : m.msgID = m'.msgID := lastBy_unique (by rintro c a b ⟨rfl, -⟩ ⟨e, -⟩; exact Call.msgID.inj e) h.msgID h'.msgID
  have e10 : m.message = m'.message := lastBy_unique (by rintro c a b ⟨rfl, -⟩ ⟨e, -⟩; exact Call.message.inj e) h.message h'.message
  have hp : ∀ id name, param m id name = param m' id name := by
    intro id name
    refine lastBy_unique ?_ (h.params id name) (h'.params id name)
    rintro c a b ⟨-, -, raw, rfl, ha⟩ ⟨-, -, raw', e, hb⟩
    have e := (Call.parameter.inj e).2.2
    subst e
    rcases ha with ha | ha <;> rcases hb with hb | hb
    · have ea := (unescaped_iff _ _).mp ha.2
      have eb := (unescaped_iff _ _).mp hb.2
      rw [← Rfc5424.unesc_escape a, ← ea, eb, Rfc5424.unesc_escape]
    · exact absurd ⟨a, ha⟩ hb.1
    · exact absurd ⟨b, hb⟩ ha.1
    · rw [ha.2, hb.2]
  obtain ⟨s1, s2, s3⟩ := sd_of_element hb
  obtain ⟨t1, t2, t3⟩ := sd_of_element hb'
  have hsd : m.structuredData.getD [] = m'.structuredData.getD [] := by
    refine smap_ext s1 t1 fun id => ?_
    have hx : (element m id).isSome = (element m' id).isSome := by
      rw [Bool.eq_iff_iff, h.elements id, h'.elements id]
    rw [element_getD, element_getD]
    cases ha : element m id with
    | none =>
      rw [ha] at hx
      cases hb : element m' id with
      | none => rfl
      | some q => rw [hb] at hx; simp at hx
    | some ps =>
      rw [ha] at hx
      cases hb : element m' id with
      | none => rw [hb] at hx; simp at hx
      | some ps' =>
        congr 1
        have ma : (id, ps) ∈ m.structuredData.getD [] := SMap.mem_of_find (by rw [element_getD]; exact ha)
        have mb : (id, ps') ∈ m'.structuredData.getD [] := SMap.mem_of_find (by rw [element_getD]; exact hb)
        refine smap_ext (s2 _ ma) (t2 _ mb) fun name => ?_
        have := hp id name
        unfold param at this
        rw [ha, hb] at this
        exact this
  have e11 : m.structuredData = m'.structuredData := by
    cases ha : m.structuredData with
    | none =>
      have := t3.mpr (by rw [← hsd]; exact s3.mp ha)
      rw [this]
    | some x =>
      cases hb : m'.structuredData with
      | none =>
        have := s3.mpr (by rw [hsd]; exact t3.mp hb)
        rw [ha] at this; simp at this
      | some y => rw [ha, hb] at hsd; exact congrArg some hsd
  obtain ⟨⟨⟩, _, _⟩ := m
  obtain ⟨⟨⟩, _, _⟩ := m'
  simp only at e1 e2 e3 e4 e5 e6 e7 e8 e9 e10 e11
  subst e1 e2 e3 e4 e5 e6 e7 e8 e9 e10 e11
  rfl

/-- an instance: a refused call and an overwritten one leave no trace -/
example : runCalls [.hostname (ascii "a"), .priority 1, .hostname (ascii "b"), .hostname (ascii "-"), .version 1000] ({}, {}) =
    runCalls [.priority 1, .hostname (ascii "b")] ({}, {}) := by decide +kernel

end Verif.Props
