import Verif.Rfc5424.Fails

/-! # Malformed structured data: `dParams` and `dElems` against `ParamStuck` and `ElemStuck` -/

namespace Verif.Rfc5424
open Spec

/-! ## maps -/

theorem erase_insert_comm {V : Type} {k k' : Bytes} {v : V} {m : SMap V} (hs : m.Sorted) :
    (m.insert k' v).erase k = if k' = k then m.erase k else (m.erase k).insert k' v := by
  by_cases hk : k' = k
  · subst hk
    rw [if_pos rfl]
    refine SMap.ext (SMap.sorted_erase (SMap.sorted_insert hs)) (SMap.sorted_erase hs) fun x => ?_
    rw [SMap.find_erase (SMap.sorted_insert hs), SMap.find_insert, SMap.find_erase hs]
    split <;> rfl
  · rw [if_neg hk]
    refine SMap.ext (SMap.sorted_erase (SMap.sorted_insert hs)) (SMap.sorted_insert (SMap.sorted_erase hs)) fun x => ?_
    rw [SMap.find_erase (SMap.sorted_insert hs), SMap.find_insert, SMap.find_insert, SMap.find_erase hs]
    by_cases h1 : x = k
    · subst h1
      rw [if_pos rfl, if_pos rfl, if_neg (fun h => hk h.symm)]
    · rw [if_neg h1, if_neg h1]

theorem params_sorted (ps : List Param) (m : SMap Bytes) (h : m.Sorted) : SMap.Sorted (ps.foldl putParam m) := by
  induction ps generalizing m with
  | nil => exact h
  | cons e es ih => exact ih _ (SMap.sorted_insert h)

theorem paramMap_sorted (ps : List Param) : SMap.Sorted (paramMap ps) := params_sorted ps [] SMap.sorted_nil

theorem erase_params (name : Bytes) (ps : List Param) (m : SMap Bytes) (h : m.Sorted) :
    (ps.foldl putParam m).erase name = (dropName name ps).foldl putParam (m.erase name) := by
  induction ps generalizing m with
  | nil => rfl
  | cons q ps ih =>
    rw [List.foldl_cons, ih (putParam m q) (SMap.sorted_insert h), putParam, erase_insert_comm h]
    by_cases hq : q.name = name
    · rw [if_pos hq, show dropName name (q :: ps) = dropName name ps from List.filter_cons_of_neg (by simp [hq])]
    · rw [if_neg hq, show dropName name (q :: ps) = q :: dropName name ps from List.filter_cons_of_pos (by simp [hq])]; rfl

theorem erase_paramMap (name : Bytes) (ps : List Param) : (paramMap ps).erase name = paramMap (dropName name ps) :=
  erase_params name ps [] SMap.sorted_nil

theorem paramMap_snoc (ps : List Param) (q : Param) : paramMap (ps ++ [q]) = (paramMap ps).insert q.name q.value := by
  simp [paramMap, List.foldl_append]

theorem elemMap_snoc (es : List Elem) (e : Elem) : elemMap (es ++ [e]) = (elemMap es).insert e.id (paramMap e.params) := by
  simp [elemMap, List.foldl_append]

theorem elemMap_sorted (es : List Elem) : SMap.Sorted (elemMap es) := elems_sorted es [] SMap.sorted_nil

theorem find_elemMap (id : Bytes) (es : List Elem) : ((elemMap es).find id).isSome ↔ id ∈ es.map Elem.id := by
  have key : ∀ (es : List Elem) (sd : SD), (SMap.find id (es.foldl putElem sd)).isSome ↔ id ∈ es.map Elem.id ∨ (sd.find id).isSome := by
    intro es
    induction es with
    | nil => intro sd; simp
    | cons e es ih =>
      intro sd
      rw [List.foldl_cons, ih, putElem, SMap.find_insert]
      by_cases he : id = e.id
      · rw [if_pos he]; simp [he]
      · rw [if_neg he]; simp [he]
  rw [elemMap_eq, key]; simp [SMap.find]

theorem find_elemMap_none {id : Bytes} {es : List Elem} : (elemMap es).find id = none ↔ id ∉ es.map Elem.id := by
  rw [← find_elemMap]
  cases (elemMap es).find id <;> simp

/-- name of the last parameter -/
def lastName (ps : List Param) : Bytes := (ps.getLast?.map Param.name).getD []

/-- id of the last element -/
def lastId (es : List Elem) : Bytes := (es.getLast?.map Elem.id).getD []

theorem lastName_snoc (ps : List Param) (q : Param) : lastName (ps ++ [q]) = q.name := by simp [lastName]
theorem lastId_snoc (es : List Elem) (e : Elem) : lastId (es ++ [e]) = e.id := by simp [lastId]

theorem erase_lastName (ps : List Param) : (paramMap ps).erase (lastName ps) =
    paramMap (dropLastName ps) := by
  rw [lastName, dropLastName]
  cases h : ps.getLast? with
  | none =>
    have : ps = [] := by simpa using h
    subst this; rfl
  | some q => simp only [Option.map_some, Option.getD_some]; exact erase_paramMap _ _

theorem erase_lastId {es : List Elem} (h : (es.map Elem.id).Nodup) : (elemMap es).erase (lastId es) = elemMap es.dropLast := by
  rcases List.eq_nil_or_concat es with rfl | ⟨es, e, rfl⟩
  · rfl
  · rw [List.concat_eq_append, lastId_snoc, elemMap_snoc, List.dropLast_concat, SMap.erase_insert (elemMap_sorted es)]
    rw [find_elemMap_none]
    intro hm
    rw [List.concat_eq_append, List.map_append, List.nodup_append] at h
    exact h.2.2 _ hm e.id (by simp) rfl

/-! ## parameters -/

/-- the state in which `dParams` is called when the parameters `ps` of element `id` have been read -/
def dpar (fuel : Nat) (id : Bytes) (sd : SD) (ps : List Param) (pos : Nat) (rest : Bytes) : SdRes :=
  dParams fuel id (paramMap ps) (lastName ps) (sd.insert id (paramMap ps)) pos rest

theorem dpar_stuck {fuel : Nat} {id : Bytes} {sd : SD} (hs : sd.Sorted) {ps ps' : List Param} {pos n : Nat} {x : Bytes} {k : ErrKind}
    (h : ParamStuck ps x k n ps') (hf : x.length < fuel) :
    dpar fuel id sd ps pos x = .bad k (pos + n) (sd.insert id (paramMap ps')) := by
  obtain ⟨fuel, rfl⟩ : ∃ f, fuel = f + 1 := ⟨fuel - 1, by omega⟩
  unfold dpar
  have spanEq : ∀ {w t : Bytes}, SdNameWF w → spanN isSdName 32 (w ++ 61 :: t) = (w, 61 :: t) := fun hw => span_sdName hw (by decide)
  cases h with
  | name hx =>
    obtain ⟨w, r, hsp⟩ : ∃ w r, spanN isSdName 32 x = (w, r) := ⟨_, _, rfl⟩
    obtain ⟨rfl, hr⟩ := (name_fails hsp).mp hx
    rw [dParams_noeq hsp hr, SMap.insert_insert hs, erase_lastName]
  | quote hw ht =>
    rename_i w t
    have hsp : spanN isSdName 32 (w ++ [61] ++ t) = (w, 61 :: t) := by rw [List.append_assoc]; exact spanEq hw
    rw [dParams_noquote hsp hw.1 ht, SMap.insert_insert hs, erase_paramMap]; rfl
  | value hw hx hb =>
    rename_i w x n
    have hsp : spanN isSdName 32 (w ++ [61, 34] ++ x) = (w, 61 :: 34 :: x) := by rw [List.append_assoc]; exact spanEq hw
    rw [dParams_badval hsp hw.1 ((val_fails hx).1 hb), if_pos rfl]
    simp only [Nat.add_assoc]
  | char hw hx hb =>
    rename_i w x n
    have hsp : spanN isSdName 32 (w ++ [61, 34] ++ x) = (w, 61 :: 34 :: x) := by rw [List.append_assoc]; exact spanEq hw
    rw [dParams_badval hsp hw.1 ((val_fails hx).2 hb), if_neg (by simp), SMap.insert_insert hs, erase_paramMap]
    simp only [Nat.add_assoc]
  | after hw hv h1 h2 =>
    rename_i w v t
    have e : w ++ [61, 34] ++ escape v ++ [34] ++ t = w ++ 61 :: (34 :: (escape v ++ 34 :: t)) := by simp
    have hsp : spanN isSdName 32 (w ++ [61, 34] ++ escape v ++ [34] ++ t) = (w, 61 :: (34 :: (escape v ++ 34 :: t))) := by
      rw [e]; exact spanEq hw
    rw [dParams_after hsp hw.1 (val_iff.mpr ⟨v, hv, rfl, rfl⟩) h1 h2, SMap.insert_insert hs]
    congr 1
    · simp only [Nat.add_assoc]
    · congr 1
      rw [erase_insert_comm (paramMap_sorted ps), if_pos rfl, erase_paramMap]

theorem dpar_step {fuel : Nat} {id : Bytes} {sd : SD} (hs : sd.Sorted) {ps : List Param} {q : Param} (hq : q.WF) {pos : Nat} {rest x : Bytes}
    (h : 32 :: rest = q.render ++ 32 :: x) :
    dpar (fuel + 1) id sd ps pos rest = dpar fuel id sd (ps ++ [q]) (pos + q.render.length) x := by
  simp only [Param.render, List.cons_append, List.append_assoc, List.cons.injEq, true_and, List.nil_append] at h
  have hsp : spanN isSdName 32 rest = (q.name, 61 :: (34 :: (escape q.value ++ 34 :: (32 :: x)))) := by
    rw [h]; exact span_sdName hq.1 (by decide)
  unfold dpar
  rw [dParams_sp hsp hq.1.1 (val_iff.mpr ⟨q.value, hq.2, rfl, rfl⟩), unesc_escape, lastName_snoc, paramMap_snoc, SMap.insert_insert hs]
  congr 1
  simp only [Param.render, List.length_cons, List.length_append, List.length_nil]
  omega

theorem dpar_prefix {id : Bytes} {sd : SD} (hs : sd.Sorted) {x : Bytes} : ∀ (more : List Param) (fuel : Nat) (ps : List Param) (pos : Nat) (rest : Bytes),
    (∀ q ∈ more, q.WF) → 32 :: rest = more.flatMap Param.render ++ 32 :: x → rest.length < fuel →
    ∃ fuel', x.length < fuel' ∧
      dpar fuel id sd ps pos rest = dpar fuel' id sd (ps ++ more) (pos + (more.flatMap Param.render).length) x := by
  intro more
  induction more with
  | nil =>
    intro fuel ps pos rest _ h hf
    simp only [List.flatMap_nil, List.nil_append, List.cons.injEq, true_and] at h
    subst h
    exact ⟨fuel, hf, by simp⟩
  | cons q more ih =>
    intro fuel ps pos rest hwf h hf
    obtain ⟨fuel, rfl⟩ : ∃ f, fuel = f + 1 := ⟨fuel - 1, by omega⟩
    obtain ⟨t, ht⟩ : ∃ t, more.flatMap Param.render ++ 32 :: x = 32 :: t := by
      cases more with
      | nil => exact ⟨_, rfl⟩
      | cons q2 more => exact ⟨_, rfl⟩
    rw [List.flatMap_cons, List.append_assoc, ht] at h
    have hl := congrArg List.length h
    simp only [List.length_append, List.length_cons, Param.render] at hl
    rw [dpar_step hs (hwf q (by simp)) h]
    obtain ⟨f', h1, h2⟩ := ih fuel (ps ++ [q]) (pos + q.render.length) t (fun x hx => hwf x (by simp [hx])) ht.symm (by omega)
    refine ⟨f', h1, ?_⟩
    rw [h2]
    simp only [List.append_assoc, List.singleton_append, List.flatMap_cons, List.length_append, Nat.add_assoc]

theorem dpar_bad {id : Bytes} {sd : SD} (hs : sd.Sorted) : ∀ (fuel : Nat) (ps : List Param) (pos : Nat) (rest : Bytes)
    (k : ErrKind) (c : Nat) (sd' : SD), rest.length < fuel → dpar fuel id sd ps pos rest = .bad k c sd' →
    ∃ (more : List Param) (x : Bytes) (n : Nat) (ps' : List Param), (∀ q ∈ more, q.WF) ∧
      32 :: rest = more.flatMap Param.render ++ 32 :: x ∧ ParamStuck (ps ++ more) x k n ps' ∧
      c = pos + (more.flatMap Param.render).length + n ∧ sd' = sd.insert id (paramMap ps') := by
  intro fuel
  induction fuel with
  | zero => intro _ _ _ _ _ _ h; omega
  | succ fuel ih =>
    intro ps pos rest k c sd' hf h
    -- stuck at this very parameter
    have here : ∀ {n : Nat} {ps' : List Param} {k' : ErrKind}, ParamStuck ps rest k' n ps' →
        ∃ (more : List Param) (x : Bytes) (n : Nat) (ps' : List Param), (∀ q ∈ more, q.WF) ∧
          32 :: rest = more.flatMap Param.render ++ 32 :: x ∧ ParamStuck (ps ++ more) x k n ps' ∧
          c = pos + (more.flatMap Param.render).length + n ∧ sd' = sd.insert id (paramMap ps') := by
      intro n ps' k' hst
      have := dpar_stuck (fuel := fuel + 1) (id := id) (pos := pos) hs hst hf
      rw [h] at this
      simp only [SdRes.bad.injEq] at this
      obtain ⟨rfl, rfl, rfl⟩ := this
      exact ⟨[], rest, n, ps', by simp, rfl, by simpa using hst, by simp, rfl⟩
    obtain ⟨w, r, hsp⟩ : ∃ w r, spanN isSdName 32 rest = (w, r) := ⟨_, _, rfl⟩
    by_cases hno : w = [] ∨ ∀ t, r ≠ 61 :: t
    · exact here (.name ((name_fails hsp).mpr ⟨rfl, hno⟩))
    simp only [not_or, Classical.not_forall] at hno
    obtain ⟨hw, r1, hr1⟩ := hno
    have hr1 : r = 61 :: r1 := Classical.not_not.mp hr1
    subst hr1
    obtain ⟨hwf, happ⟩ := span_sdName_wf hsp hw
    by_cases hq : ∃ t, r1 = 34 :: t
    case neg =>
      have := ParamStuck.quote (ps := ps) (w := w) (t := r1) hwf (fun t ht => hq ⟨t, ht⟩)
      rw [show w ++ [61] ++ r1 = rest by rw [happ]; simp] at this
      exact here this
    obtain ⟨r2, rfl⟩ := hq
    have erest : w ++ [61, 34] ++ r2 = rest := by rw [happ]; simp
    cases hv : valScan (some .s0) r2 with
    | bad k' n =>
      obtain ⟨h1, ⟨hb, -⟩ | ⟨hb, -⟩⟩ := val_fails_of hv
      · have := ParamStuck.value (ps := ps) hwf h1 hb
        rw [erest] at this; exact here this
      · have := ParamStuck.char (ps := ps) hwf h1 hb
        rw [erest] at this; exact here this
    | ok raw tl =>
      obtain ⟨v, hu, rfl, hr2⟩ := val_iff.mp hv
      by_cases h32 : ∃ t, tl = 32 :: t
      · obtain ⟨t, rfl⟩ := h32
        have hren : 32 :: rest = (Param.mk w v).render ++ 32 :: t := by
          rw [← erest, hr2]; simp [Param.render]
        have hl := congrArg List.length hren
        simp only [List.length_append, List.length_cons, Param.render] at hl
        rw [dpar_step hs (q := ⟨w, v⟩) ⟨hwf, hu⟩ hren] at h
        obtain ⟨more, x, n, ps', g1, g2, g3, g4, g5⟩ := ih _ _ _ _ _ _ (by omega) h
        refine ⟨⟨w, v⟩ :: more, x, n, ps', ?_, ?_, by simpa using g3, ?_, g5⟩
        · intro q hq
          rcases List.mem_cons.mp hq with rfl | hq
          · exact ⟨hwf, hu⟩
          · exact g1 q hq
        · rw [hren, g2]; simp
        · rw [g4]; simp only [List.flatMap_cons, List.length_append]; omega
      by_cases h93 : ∃ t, tl = 93 :: t
      · obtain ⟨t, rfl⟩ := h93
        unfold dpar at h
        rw [dParams_close hsp hw hv] at h; simp at h
      · have := ParamStuck.after (ps := ps) (t := tl) hwf hu (fun t ht => h32 ⟨t, ht⟩) (fun t ht => h93 ⟨t, ht⟩)
        rw [show w ++ [61, 34] ++ escape v ++ [34] ++ tl = rest by rw [← erest, hr2]; simp] at this
        exact here this

/-! ## elements -/

/-- the state in which `dElems` is called when the elements `es` have been read -/
def delm (fuel : Nat) (es : List Elem) (pos : Nat) (rest : Bytes) : SdRes := dElems fuel (lastId es) (elemMap es) pos rest

theorem mem_ids {es : List Elem} {id : Bytes} : (∃ e ∈ es, e.id = id) ↔ id ∈ es.map Elem.id := by simp

theorem not_mem_ids {es : List Elem} {id : Bytes} : (∀ e ∈ es, e.id ≠ id) ↔ id ∉ es.map Elem.id := by
  simp

theorem delm_stuck {fuel : Nat} {es es' : List Elem} (hwf : ∀ e ∈ es, e.WF) (hnd : (es.map Elem.id).Nodup) {pos n : Nat} {x : Bytes} {k : ErrKind}
    (h : ElemStuck es x k n es') (hf : x.length < fuel) : delm fuel es pos x = .bad k (pos + n) (elemMap es') := by
  obtain ⟨fuel, rfl⟩ : ∃ f, fuel = f + 1 := ⟨fuel - 1, by omega⟩
  unfold delm
  cases h with
  | noId hx =>
    obtain ⟨w, r, hsp⟩ : ∃ w r, spanN isSdName 32 x = (w, r) := ⟨_, _, rfl⟩
    obtain ⟨h0, hr⟩ := (id_fails hsp).mp hx
    have hw : w = [] := List.length_eq_zero_iff.mp h0.symm
    subst hw
    rw [dElems_noid hsp, erase_lastId hnd]; rfl
  | badId hx hn hne =>
    obtain ⟨w, r, hsp⟩ : ∃ w r, spanN isSdName 32 x = (w, r) := ⟨_, _, rfl⟩
    obtain ⟨rfl, hr⟩ := (id_fails hsp).mp hx
    have hw : w ≠ [] := fun h => by rw [h] at hn; simp at hn
    have happ := (span_sdName_wf hsp hw).2
    rw [happ, List.take_left, not_mem_ids] at hne
    have hr' := hr.resolve_left hw
    rw [dElems_badid hsp hw (find_elemMap_none.mpr hne) hr'.1 hr'.2]
  | dupId hid ht =>
    rename_i id t
    have hidwf : SdNameWF id := by
      obtain ⟨e, he, rfl⟩ := hid
      exact (hwf e he).1
    rw [mem_ids] at hid
    have hsp : spanN isSdName 32 (id ++ t) = (id, t) := by
      rcases ht with ht | ht
      · rw [← ht]; exact spanN_full isSdName (sdName_wf.mp hidwf).2.2
      · refine spanN_eq isSdName (sdName_wf.mp hidwf).2.2 hidwf.2.1 ?_
        cases t with
        | nil => exact Or.inl rfl
        | cons b l =>
          refine Or.inr ⟨b, l, rfl, ?_⟩
          cases hb : isSdName b with
          | false => rfl
          | true => exact absurd (isSdName_iff.mp hb) (ht b l rfl)
    obtain ⟨ps, hps⟩ := Option.isSome_iff_exists.mp ((find_elemMap id es).mpr hid)
    rw [dElems_dup hsp hidwf.1 hps]
  | param hne he hst =>
    rename_i id x ps ps' n
    obtain ⟨t, ht⟩ : ∃ t, ps.flatMap Param.render ++ 32 :: x = 32 :: t := by
      cases ps with
      | nil => exact ⟨_, rfl⟩
      | cons q2 more => exact ⟨_, rfl⟩
    have e : id ++ ps.flatMap Param.render ++ [32] ++ x = id ++ 32 :: t := by rw [← ht]; simp
    have hsp : spanN isSdName 32 (id ++ ps.flatMap Param.render ++ [32] ++ x) = (id, 32 :: t) := by
      rw [e]; exact span_sdName he.1 (by decide)
    rw [not_mem_ids] at hne
    obtain ⟨f', h1, h2⟩ := dpar_prefix (elemMap_sorted es) (id := id) ps (t.length + 1) [] (pos + id.length + 1) t he.2 ht.symm (by omega)
    rw [List.nil_append, dpar_stuck (elemMap_sorted es) hst h1] at h2
    refine (dElems_params_bad hsp he.1.1 (find_elemMap_none.mpr hne) h2).trans ?_
    rw [elemMap_snoc]
    congr 1
    simp only [List.length_append]
    omega

theorem delm_step {fuel : Nat} {es : List Elem} {e : Elem} (he : e.WF) (hne : e.id ∉ es.map Elem.id) {pos : Nat} {rest tl : Bytes}
    (h : 91 :: rest = e.render ++ tl) :
    delm (fuel + 1) es pos rest = dNext fuel e.id (elemMap (es ++ [e])) (pos + e.render.length - 1) tl := by
  obtain ⟨p, h1, h2⟩ := elem_one fuel (lastId es) (elemMap es) pos rest tl he (find_elemMap_none.mpr hne) (elemMap_sorted es) h
  unfold delm
  have hl := congrArg List.length h
  simp only [List.length_append, List.length_cons] at hl
  rw [h1, elemMap_snoc, putElem, show p = pos + e.render.length - 1 by omega]

theorem delm_next {fuel : Nat} {es : List Elem} {e : Elem} {pos : Nat} {t : Bytes} :
    dNext fuel e.id (elemMap (es ++ [e])) pos (91 :: t) = delm fuel (es ++ [e]) (pos + 1) t := by
  rw [dNext_more, delm, lastId_snoc]

theorem render_length (e : Elem) : 2 ≤ e.render.length := by
  simp only [Elem.render, List.length_append, List.length_cons]; omega

theorem delm_prefix {x : Bytes} : ∀ (more : List Elem) (fuel : Nat) (es : List Elem) (pos : Nat) (rest : Bytes),
    (∀ e ∈ more, e.WF) → ((es ++ more).map Elem.id).Nodup → 91 :: rest = more.flatMap Elem.render ++ 91 :: x → rest.length < fuel →
    ∃ fuel', x.length < fuel' ∧
      delm fuel es pos rest = delm fuel' (es ++ more) (pos + (more.flatMap Elem.render).length) x := by
  intro more
  induction more with
  | nil =>
    intro fuel es pos rest _ _ h hf
    simp only [List.flatMap_nil, List.nil_append, List.cons.injEq, true_and] at h
    subst h
    exact ⟨fuel, hf, by simp⟩
  | cons e more ih =>
    intro fuel es pos rest hwf hnd h hf
    obtain ⟨fuel, rfl⟩ : ∃ f, fuel = f + 1 := ⟨fuel - 1, by omega⟩
    obtain ⟨t, ht⟩ : ∃ t, more.flatMap Elem.render ++ 91 :: x = 91 :: t := by
      cases more with
      | nil => exact ⟨_, rfl⟩
      | cons q2 more => exact ⟨_, rfl⟩
    rw [List.flatMap_cons, List.append_assoc, ht] at h
    have hl := congrArg List.length h
    have hr := render_length e
    simp only [List.length_append, List.length_cons] at hl
    have hne : e.id ∉ es.map Elem.id := by
      rw [List.map_append, List.nodup_append] at hnd
      intro hm
      exact hnd.2.2 _ hm e.id (by simp) rfl
    rw [delm_step (hwf e (by simp)) hne h, delm_next]
    obtain ⟨f', h1, h2⟩ := ih fuel (es ++ [e]) (pos + e.render.length - 1 + 1) t (fun x hx => hwf x (by simp [hx])) (by simpa using hnd) ht.symm (by omega)
    refine ⟨f', h1, ?_⟩
    rw [h2]
    simp only [List.append_assoc, List.singleton_append, List.flatMap_cons, List.length_append]
    congr 1
    omega

theorem delm_bad : ∀ (fuel : Nat) (es : List Elem) (pos : Nat) (rest : Bytes)
    (k : ErrKind) (c : Nat) (sd' : SD), (∀ e ∈ es, e.WF) → (es.map Elem.id).Nodup → rest.length < fuel → delm fuel es pos rest = .bad k c sd' →
    ∃ (more : List Elem) (x : Bytes) (n : Nat) (es' : List Elem), (∀ e ∈ more, e.WF) ∧ ((es ++ more).map Elem.id).Nodup ∧
      91 :: rest = more.flatMap Elem.render ++ 91 :: x ∧ ElemStuck (es ++ more) x k n es' ∧
      c = pos + (more.flatMap Elem.render).length + n ∧ sd' = elemMap es' := by
  intro fuel
  induction fuel with
  | zero => intro _ _ _ _ _ _ _ _ h; omega
  | succ fuel ih =>
    intro es pos rest k c sd' hwf hnd hf h
    have here : ∀ {n : Nat} {es' : List Elem} {k' : ErrKind}, ElemStuck es rest k' n es' →
        ∃ (more : List Elem) (x : Bytes) (n : Nat) (es' : List Elem), (∀ e ∈ more, e.WF) ∧ ((es ++ more).map Elem.id).Nodup ∧
          91 :: rest = more.flatMap Elem.render ++ 91 :: x ∧ ElemStuck (es ++ more) x k n es' ∧
          c = pos + (more.flatMap Elem.render).length + n ∧ sd' = elemMap es' := by
      intro n es' k' hst
      have := delm_stuck (fuel := fuel + 1) (pos := pos) hwf hnd hst hf
      rw [h] at this
      simp only [SdRes.bad.injEq] at this
      obtain ⟨rfl, rfl, rfl⟩ := this
      exact ⟨[], rest, n, es', by simp, by simpa using hnd, rfl, by simpa using hst, by simp, rfl⟩
    obtain ⟨w, r, hsp⟩ : ∃ w r, spanN isSdName 32 rest = (w, r) := ⟨_, _, rfl⟩
    by_cases hw : w = []
    · subst hw
      exact here (.noId ((id_fails hsp).mpr ⟨rfl, Or.inl rfl⟩))
    obtain ⟨hidwf, happ⟩ := span_sdName_wf hsp hw
    by_cases hid : w ∈ es.map Elem.id
    · have hmax := spanN_max isSdName 32 rest
      rw [hsp] at hmax
      have := ElemStuck.dupId (es := es) (id := w) (t := r) (mem_ids.mpr hid) (by
        rcases hmax with hm | hm | ⟨b, r', hm, hb⟩
        · exact Or.inl hm
        · right; intro b l hl; simp only at hm; rw [hm] at hl; simp at hl
        · right; intro b' l hl
          simp only at hm; rw [hm] at hl
          simp only [List.cons.injEq] at hl
          rw [← hl.1, ← isSdName_iff, hb]; simp)
      rw [← happ] at this
      exact here this
    have hfind := find_elemMap_none.mpr hid
    -- the element is complete
    have next : ∀ (ps : List Param) (tl : Bytes), (Elem.mk w ps).WF → 91 :: rest = (Elem.mk w ps).render ++ tl →
        ∃ (more : List Elem) (x : Bytes) (n : Nat) (es' : List Elem), (∀ e ∈ more, e.WF) ∧ ((es ++ more).map Elem.id).Nodup ∧
          91 :: rest = more.flatMap Elem.render ++ 91 :: x ∧ ElemStuck (es ++ more) x k n es' ∧
          c = pos + (more.flatMap Elem.render).length + n ∧ sd' = elemMap es' := by
      intro ps tl he hren
      rw [delm_step he hid hren] at h
      by_cases h91 : ∃ t, tl = 91 :: t
      case neg => rw [dNext_ok (fun t ht => h91 ⟨t, ht⟩)] at h; simp at h
      obtain ⟨t, rfl⟩ := h91
      rw [delm_next] at h
      have hl := congrArg List.length hren
      have hr := render_length ⟨w, ps⟩
      simp only [List.length_append, List.length_cons] at hl
      obtain ⟨more, x, n, es', g1, g2, g3, g4, g5, g6⟩ := ih _ _ _ _ _ _ (by
          intro e' he'
          rcases List.mem_append.mp he' with he' | he'
          · exact hwf e' he'
          · simp at he'; rw [he']; exact he)
        (by
          rw [List.map_append, List.nodup_append]
          refine ⟨hnd, by simp, ?_⟩
          intro a ha b hb
          simp at hb
          rintro rfl
          exact hid (hb ▸ ha)) (by omega) h
      refine ⟨⟨w, ps⟩ :: more, x, n, es', ?_, by simpa using g2, ?_, by simpa using g4, ?_, g6⟩
      · intro q hq
        rcases List.mem_cons.mp hq with rfl | hq
        · exact he
        · exact g1 q hq
      · rw [hren, g3]; simp
      · rw [g5]; simp only [List.flatMap_cons, List.length_append]; omega
    by_cases h93 : ∃ t, r = 93 :: t
    · obtain ⟨t, rfl⟩ := h93
      exact next [] t ⟨hidwf, by simp⟩ (by rw [happ]; simp [Elem.render])
    by_cases h32 : ∃ t, r = 32 :: t
    case neg =>
      refine here (.badId ((id_fails hsp).mpr ⟨rfl, Or.inr ⟨fun t ht => h32 ⟨t, ht⟩, fun t ht => h93 ⟨t, ht⟩⟩⟩) ?_ ?_)
      · cases w with
        | nil => exact absurd rfl hw
        | cons => simp
      · rw [happ, List.take_left]; exact not_mem_ids.mpr hid
    obtain ⟨t, rfl⟩ := h32
    cases hp : dParams (t.length + 1) w [] [] ((elemMap es).insert w []) (pos + w.length + 1) t with
    | ok sd1 p1 tl1 =>
      obtain ⟨params, g1, g2, g3, -⟩ := params_sound _ _ _ _ _ _ _ _ _ _ (SMap.sorted_insert (elemMap_sorted es)) hp
      refine next params tl1 ⟨hidwf, g2⟩ ?_
      rw [happ, g3]; simp [Elem.render]
    | bad k1 c1 sd1 =>
      obtain ⟨more, x, n, ps', g1, g2, g3, g4, g5⟩ := dpar_bad (elemMap_sorted es) (t.length + 1) [] (pos + w.length + 1) t k1 c1 sd1 (by omega) hp
      have := ElemStuck.param (es := es) (id := w) (ps := more) (not_mem_ids.mpr hid) ⟨hidwf, g1⟩ (by simpa using g3)
      rw [show w ++ more.flatMap Param.render ++ [32] ++ x = rest by rw [happ, g2]; simp] at this
      exact here this

end Verif.Rfc5424
