import Verif.Builder.Set

/-! # `SetParameter` without interruption -/

namespace Verif.Builder
open Verif.Spec
open Verif.Rfc5424 (SyslogMessage SD)

theorem insert_insert' {V : Type} {k : Bytes} {v v' : V} (m : SMap V) : (m.insert k v).insert k v' = m.insert k v' := by
  induction m with
  | nil => simp [SMap.insert, blt_irrefl]
  | cons x r ih =>
    obtain ⟨k', w⟩ := x
    simp only [SMap.insert]
    split
    · rename_i h; simp [SMap.insert, blt_irrefl]
    · rename_i h
      split
      · rename_i h2; subst h2; simp [SMap.insert, blt_irrefl]
      · rename_i h2; simp [SMap.insert, h, h2, ih]

theorem find_ensure (sd : SD) (id : Bytes) : ∃ ps, (ensure sd id).find id = some ps ∧ (sd.find id = some ps ∨ (sd.find id = none ∧ ps = [])) := by
  unfold ensure
  cases h : sd.find id with
  | some ps => exact ⟨ps, h, Or.inl rfl⟩
  | none => exact ⟨[], SMap.find_insert_self .., Or.inr ⟨rfl, rfl⟩⟩

/-- what follows the creation of the element -/
theorem setParameter_tail {g : Globals} {id name value : Bytes} {sm sm1 : SyslogMessage} {sd : SD} {ps : SMap Bytes}
    (h1 : set g .sdid id sm = some sm1) (hs : sm1.structuredData = some sd) (hf : sd.find id = some ps) :
    (SdNameWF name → ∀ v, Utf8 v → value = escape v →
      setParameter g id name value sm = some ({ sm1 with structuredData := some (sd.insert id (ps.insert name v)) }, ⟨id, name⟩)) ∧
    (SdNameWF name → ¬ (∃ v, Utf8 v ∧ value = escape v) →
      setParameter g id name value sm = some ({ sm1 with structuredData := some (sd.insert id (ps.insert name [])) }, ⟨id, name⟩)) ∧
    (¬ SdNameWF name → ps.find name = none → setParameter g id name value sm = some (sm1, { g with currentid := id })) ∧
    (¬ SdNameWF name → ps.find name ≠ none → ∀ v, Utf8 v → value = escape v →
      setParameter g id name value sm = some ({ sm1 with structuredData := some (sd.insert id (ps.insert name v)) }, ⟨id, name⟩)) ∧
    (¬ SdNameWF name → ps.find name ≠ none → ¬ (∃ v, Utf8 v ∧ value = escape v) →
      setParameter g id name value sm = some (sm1, ⟨id, name⟩)) := by
  have he : hasElement id sm1 = true := by simp [hasElement, hs, hf]
  have hn := set_sdpn (g := { g with currentid := id }) (w := name) hs hf
  have hf2 : (sd.insert id (ps.insert name [])).find id = some (ps.insert name []) := SMap.find_insert_self ..
  generalize hsm2 : ({ sm1 with structuredData := some (sd.insert id (ps.insert name [])) } : SyslogMessage) = sm2 at *
  have hs2 : sm2.structuredData = some (sd.insert id (ps.insert name [])) := by rw [← hsm2]
  have hp2 : hasParam id name sm2 = true := by
    simp [hasParam, hs2, hf2, SMap.find_insert_self]
  have hv2 := set_sdpv (g := ⟨id, name⟩) hs2 hf2 value
  have hv1 := set_sdpv (g := ⟨id, name⟩) hs hf value
  have hp1 : hasParam id name sm1 = (ps.find name).isSome := by simp [hasParam, hs, hf]
  refine ⟨fun hw v hu hv => ?_, fun hw hv => ?_, fun hw hx => ?_, fun hw hx v hu hv => ?_, fun hw hx hv => ?_⟩
  · simp only [setParameter, h1, he, hn.1 hw, hp2, hv2.1 v hu hv, if_true]
    rw [insert_insert', insert_insert', ← hsm2]
  · simp only [setParameter, h1, he, hn.1 hw, hp2, hv2.2 hv, if_true]
  · simp only [setParameter, h1, he, hn.2 hw, hp1, hx, if_true, Option.isSome_none, Bool.false_eq_true, if_false]
  · have hx' : (ps.find name).isSome = true := by
      cases hxx : ps.find name <;> simp_all
    simp only [setParameter, h1, he, hn.2 hw, hp1, hx', if_true, hv1.1 v hu hv]
  · have hx' : (ps.find name).isSome = true := by
      cases hxx : ps.find name <;> simp_all
    simp only [setParameter, h1, he, hn.2 hw, hp1, hx', if_true, hv1.2 hv]

theorem setParameter_none {g : Globals} {id name value : Bytes} {sm : SyslogMessage} (h : ¬ SdNameWF id)
    (hf : (sm.structuredData.getD []).find id = none) : setParameter g id name value sm = some (sm, g) := by
  have he : hasElement id sm = false := by
    unfold hasElement
    cases hs : sm.structuredData with
    | none => rfl
    | some sd => simp [hs] at hf; simp [hf]
  simp only [setParameter, (set_sdid g id sm).2 h, he, Bool.false_eq_true, if_false]

/-- the element exists after the first step -/
theorem setParameter_start (g : Globals) (id : Bytes) (sm : SyslogMessage)
    (h : SdNameWF id ∨ (sm.structuredData.getD []).find id ≠ none) :
    ∃ sd ps, set g .sdid id sm = some { sm with structuredData := some sd } ∧ sd = ensure (sm.structuredData.getD []) id ∧
      sd.find id = some ps ∧ (ps = ((sm.structuredData.getD []).find id).getD []) := by
  obtain ⟨ps, h1, h2⟩ := find_ensure (sm.structuredData.getD []) id
  refine ⟨_, ps, ?_, rfl, h1, ?_⟩
  · by_cases hw : SdNameWF id
    · exact (set_sdid g id sm).1 hw
    · rw [(set_sdid g id sm).2 hw]
      have hx := h.resolve_left hw
      cases hs : sm.structuredData with
      | none => rw [hs] at hx; exact absurd rfl hx
      | some sd =>
        rw [hs] at hx
        have hx : sd.find id ≠ none := hx
        cases hxx : sd.find id with
        | none => exact absurd hxx hx
        | some ps' =>
          simp only [Option.getD_some, ensure, hxx]
          rw [← hs]
  · rcases h2 with h2 | ⟨h2, h3⟩
    · rw [h2]; rfl
    · rw [h2, h3]; rfl

end Verif.Builder
