import Verif.Rfc5424.CutCases
import Verif.Props.Octet
import Verif.Props.NonTransparent

/-!
# C93: truncated messages
-/

namespace Verif.Props
open Verif.Spec Verif.Rfc5424

/-! ## maps -/

theorem find_params_mem {name v : Bytes} (ps : List Param) (m : SMap Bytes) (h : SMap.find name (ps.foldl (fun m p => m.insert p.name p.value) m) = some v) :
    ⟨name, v⟩ ∈ ps ∨ m.find name = some v := by
  induction ps generalizing m with
  | nil => exact Or.inr h
  | cons q ps ih =>
    rcases ih _ h with h | h
    · exact Or.inl (by simp [h])
    · rw [SMap.find_insert] at h
      split at h
      · rename_i hn
        obtain ⟨n, w⟩ := q
        simp only [Option.some.injEq] at h hn
        subst h hn
        exact Or.inl (by simp)
      · exact Or.inr h

theorem paramMap_mem {name v : Bytes} {ps : List Param} (h : (paramMap ps).find name = some v) : ⟨name, v⟩ ∈ ps := by
  rcases find_params_mem ps [] h with h | h
  · exact h
  · simp [SMap.find] at h

theorem find_elems_mem {id : Bytes} {ps : SMap Bytes} (es : List Elem) (m : SD)
    (h : SMap.find id (es.foldl (fun m e => m.insert e.id (paramMap e.params)) m) = some ps) :
    (∃ e ∈ es, e.id = id ∧ ps = paramMap e.params) ∨ m.find id = some ps := by
  induction es generalizing m with
  | nil => exact Or.inr h
  | cons q es ih =>
    rcases ih _ h with ⟨e, he, h⟩ | h
    · exact Or.inl ⟨e, by simp [he], h⟩
    · rw [SMap.find_insert] at h
      split at h
      · rename_i hn
        simp only [Option.some.injEq] at h
        exact Or.inl ⟨q, by simp, hn.symm, h.symm⟩
      · exact Or.inr h

theorem find_elems_other {id : Bytes} (es : List Elem) (m : SD) (h : ∀ e ∈ es, e.id ≠ id) :
    SMap.find id (es.foldl (fun m e => m.insert e.id (paramMap e.params)) m) = m.find id := by
  induction es generalizing m with
  | nil => rfl
  | cons q es ih =>
    rw [List.foldl_cons, ih _ (fun e he => h e (by simp [he])), SMap.find_insert, if_neg]
    exact fun hh => h q (by simp) hh.symm

theorem find_elems_of {es : List Elem} (hn : (es.map Elem.id).Nodup) (m : SD) {e : Elem} (he : e ∈ es) :
    SMap.find e.id (es.foldl (fun m e => m.insert e.id (paramMap e.params)) m) = some (paramMap e.params) := by
  induction es generalizing m with
  | nil => simp at he
  | cons q es ih =>
    rw [List.map_cons, List.nodup_cons] at hn
    rw [List.foldl_cons]
    rcases List.mem_cons.mp he with rfl | he
    · rw [find_elems_other, SMap.find_insert_self]
      intro e' he' hid
      exact hn.1 (hid ▸ List.mem_map_of_mem he')
    · exact ih hn.2 _ he

/-- the elements of a message with the elements `es` -/
theorem element_withElems (p : Parts) (es : List Elem) (id : Bytes) : element (p.withElems es) id = (elemMap es).find id := by
  simp only [element, Parts.withElems, Parts.toMessage]
  by_cases h : es = []
  · subst h; rfl
  · rw [if_neg h]; rfl

theorem element_first (p : Parts) (k : Nat) (id : Bytes) : element (p.first k) id = none := rfl

theorem element_toMessage (p : Parts) (id : Bytes) : element p.toMessage id = (elemMap p.sd).find id := by
  simp only [element, Parts.toMessage]
  by_cases h : p.sd = []
  · rw [if_pos h, h]; rfl
  · rw [if_neg h]; rfl

/-! ## what is kept of structured data -/

theorem dropName_sub {name : Bytes} {ps : List Param} : ∀ q ∈ dropName name ps, q ∈ ps := fun q hq => (List.mem_filter.mp hq).1

theorem paramStuck_sub {ps ps' : List Param} {x : Bytes} {kind : ErrKind} {n : Nat} (h : ParamStuck ps x kind n ps') : ∀ q ∈ ps', q ∈ ps := by
  cases h with
  | name _ =>
    intro q hq
    rw [dropLastName] at hq
    split at hq
    · simp at hq
    · exact dropName_sub q hq
  | quote _ _ => exact dropName_sub
  | value _ _ _ => exact fun q hq => hq
  | char _ _ _ => exact dropName_sub
  | after _ _ _ _ => exact dropName_sub

/-- the kept elements are elements of the message, except that the last one may lack parameters -/
theorem elemStuck_sub {es es' rest : List Elem} {f : Elem} {x t : Bytes} {kind : ErrKind} {n : Nat} (h : ElemStuck es x kind n es') (hf : f.WF)
    (hx : [91] ++ x <+: f.render ++ t) : ∀ e ∈ es', ∃ e' ∈ es ++ f :: rest, e'.id = e.id ∧ ∀ q ∈ e.params, q ∈ e'.params := by
  have keep : ∀ {l : List Elem}, (∀ e ∈ l, e ∈ es) → ∀ e ∈ l, ∃ e' ∈ es ++ f :: rest, e'.id = e.id ∧ ∀ q ∈ e.params, q ∈ e'.params :=
    fun hl e he => ⟨e, by simp [hl e he], rfl, fun q hq => hq⟩
  cases h with
  | noId _ => exact keep fun e he => (List.dropLast_prefix es).subset he
  | badId _ _ _ => exact keep fun e he => he
  | dupId _ _ => exact keep fun e he => he
  | @param id x ps ps' kind n hne hel hps =>
    obtain ⟨z, hz⟩ := hx
    simp only [Elem.render, List.cons_append, List.nil_append, List.append_assoc, List.cons.injEq, true_and] at hz
    have hd : ∀ (ps : List Param) (c : UInt8) (u : Bytes) (b : UInt8) (l : Bytes), (c = 32 ∨ c = 93) → ps.flatMap Param.render ++ c :: u = b :: l →
        isSdName b = false := by
      intro ps c u b l hc hbl
      cases ps with
      | nil => simp at hbl; rw [← hbl.1]; rcases hc with rfl | rfl <;> decide
      | cons p ps => simp [Param.render] at hbl; rw [← hbl.1]; decide
    obtain ⟨a, hz⟩ := sdName_split hel.1 hf.1 (fun b l => hd _ 32 _ b l (Or.inl rfl)) (fun b l => hd _ 93 t b l (Or.inr rfl)) hz
    obtain ⟨q, r, h1, h2⟩ := params_cut hel.2 hf.2 (x := x) (t := t) ⟨z, by rw [List.append_assoc]; exact hz⟩
    intro e he
    rcases List.mem_append.mp he with he | he
    · exact ⟨e, by simp [he], rfl, fun q hq => hq⟩
    · simp only [List.mem_singleton] at he
      subst he
      refine ⟨f, by simp, a.symm, ?_⟩
      intro y hy
      rw [h1]
      simp [paramStuck_sub hps y hy]

theorem cut_elem_text {p : Parts} {u : Bytes} (hu : u <+: p.render) {es rest : List Elem} {f : Elem} {x : Bytes} (hsd : p.sd = es ++ f :: rest)
    (he : u = p.lead 6 ++ es.flatMap Elem.render ++ [91] ++ x) : [91] ++ x <+: f.render ++ (rest.flatMap Elem.render ++ msgText p.msg) := by
  rw [he, render_lead p (k := 6) (by omega)] at hu
  simp only [tailOf] at hu
  rw [sdText_ne (by rw [hsd]; simp), hsd] at hu
  obtain ⟨z, hz⟩ := hu
  simp only [List.append_assoc, List.flatMap_append, List.flatMap_cons] at hz
  have hz := List.append_cancel_left (List.append_cancel_left hz)
  exact ⟨z, by simpa using hz⟩

/-! ## the theorems -/

/-- C93: the partial message of a truncated message is the one given by the place of the cut. -/
theorem C93_every_cut (co : Bool) (p : Parts) (hp : p.WF) (u : Bytes) (hu : u <+: p.render) :
    ∃ mo eo, parse1 ⟨true, co⟩ u = some ⟨mo, eo⟩ ∧ Cut co p u mo := by
  obtain ⟨⟨⟨mo, eo⟩, m'⟩, hr⟩ := C15_no_panic (newMachine ⟨true, co⟩) u
  have : parse1 ⟨true, co⟩ u = some ⟨mo, eo⟩ := by rw [parse1, hr]; rfl
  exact ⟨mo, eo, this, cut_of hp hu this⟩

theorem first_tells (p : Parts) (k : Nat) : Tells p (p.first k) where
  priority := rfl
  facility := rfl
  severity := rfl
  version := ⟨p.version, List.prefix_rfl, rfl⟩
  timestamp := by
    by_cases h : 2 ≤ k
    · exact Or.inr (by simp [Parts.first, Parts.toMessage, h])
    · exact Or.inl (by simp [Parts.first, Parts.toMessage, h])
  hostname := by
    by_cases h : 3 ≤ k
    · exact Or.inr (by simp [Parts.first, Parts.toMessage, h])
    · exact Or.inl (by simp [Parts.first, Parts.toMessage, h])
  appname := by
    by_cases h : 4 ≤ k
    · exact Or.inr (by simp [Parts.first, Parts.toMessage, h])
    · exact Or.inl (by simp [Parts.first, Parts.toMessage, h])
  procID := by
    by_cases h : 5 ≤ k
    · exact Or.inr (by simp [Parts.first, Parts.toMessage, h])
    · exact Or.inl (by simp [Parts.first, Parts.toMessage, h])
  msgID := by
    by_cases h : 6 ≤ k
    · exact Or.inr (by simp [Parts.first, Parts.toMessage, h])
    · exact Or.inl (by simp [Parts.first, Parts.toMessage, h])
  element := by intro id ps h; simp [element_first] at h
  message := by intro w h; simp [Parts.first, Parts.toMessage] at h

theorem withElems_tells (p : Parts) (es : List Elem) (h : ∀ e ∈ es, ∃ e' ∈ p.sd, e'.id = e.id ∧ ∀ q ∈ e.params, q ∈ e'.params) :
    Tells p (p.withElems es) where
  priority := rfl
  facility := rfl
  severity := rfl
  version := ⟨p.version, List.prefix_rfl, rfl⟩
  timestamp := Or.inr rfl
  hostname := Or.inr rfl
  appname := Or.inr rfl
  procID := Or.inr rfl
  msgID := Or.inr rfl
  element := by
    intro id ps hid
    rw [element_withElems] at hid
    rcases find_elems_mem es [] hid with ⟨e, he, h1, h2⟩ | hh
    · obtain ⟨e', h3, h4, h5⟩ := h e he
      refine ⟨e', h3, h4.trans h1, ?_⟩
      intro name v hv
      rw [h2] at hv
      exact h5 _ (paramMap_mem hv)
    · simp [SMap.find] at hh
  message := by intro w h; simp [Parts.withElems, Parts.toMessage] at h

theorem cut_tells {co : Bool} {p : Parts} (hp : p.WF) {u : Bytes} (hu : u <+: p.render) {m : SyslogMessage} (h : Cut co p u (some m)) : Tells p m := by
  cases h with
  | @version n h1 h2 =>
    refine { (first_tells p 1) with version := ⟨if 10 ≤ n then n / 10 else n, ?_, rfl⟩ }
    by_cases hn : 10 ≤ n
    · rw [if_pos hn]
      rw [dec_ge hn] at h2
      exact List.IsPrefix.trans ⟨_, rfl⟩ h2
    · rw [if_neg hn]; exact h2
  | field _ _ _ _ _ => exact first_tells p _
  | stamp _ => exact first_tells p 2
  | noSd _ => exact first_tells p 6
  | @element es rest es' f x kind n hsd he hno hs =>
    refine withElems_tells p es' ?_
    rw [hsd]
    exact elemStuck_sub hs (hp.sd f (by rw [hsd]; simp)) (cut_elem_text hu hsd he)
  | @elements es rest hsd _ _ => exact withElems_tells p es fun e he => ⟨e, by rw [hsd]; simp [he], rfl, fun q hq => hq⟩
  | @msg w w0 w' hw hpre he hk =>
    have hw' : w' <+: w := by
      rcases hk with ⟨-, rfl⟩ | ⟨-, -, n, -, -, -, rfl⟩
      · exact List.prefix_rfl
      · exact List.take_prefix n w
    exact {
      priority := rfl, facility := rfl, severity := rfl, version := ⟨p.version, List.prefix_rfl, rfl⟩, timestamp := Or.inr rfl
      hostname := Or.inr rfl, appname := Or.inr rfl, procID := Or.inr rfl, msgID := Or.inr rfl
      element := by
        intro id ps hid
        rw [element_toMessage] at hid
        rcases find_elems_mem p.sd [] hid with ⟨e, he, h1, h2⟩ | hh
        · exact ⟨e, he, h1, fun name v hv => paramMap_mem (h2 ▸ hv)⟩
        · simp [SMap.find] at hh
      message := by
        intro y hy
        refine ⟨w0, hw, ?_⟩
        simp only [Parts.toMessage] at hy
        split at hy
        · simp at hy
        · simp only [Option.some.injEq] at hy
          subst hy
          exact hw'.trans hpre }

/-- C93: a message returned for a truncated message, with or without error, says nothing that the whole message does not say. -/
theorem C93_truth (o : Opts) (p : Parts) (hp : p.WF) (u : Bytes) (hu : u <+: p.render) (m : SyslogMessage) (e : Option Err)
    (h : parse1 o u = some ⟨some m, e⟩) : Tells p m := by
  obtain ⟨be, co⟩ := o
  cases be with
  | true => exact cut_tells hp hu (cut_of hp hu h)
  | false =>
    have := (C57_every_outcome false co u ⟨some m, e⟩).mp h
    rcases this with ⟨q, hq, hr, hco, hm⟩ | ⟨k, c, m', hb, hm⟩
    · have : parse1 ⟨true, co⟩ u = some ⟨some q.toMessage, none⟩ := (C57_every_outcome true co u _).mpr (Or.inl ⟨q, hq, hr, hco, rfl⟩)
      cases hm
      exact cut_tells hp hu (cut_of hp hu this)
    · simp at hm

theorem lead_prefix (p : Parts) {j k : Nat} (h : j ≤ k) : p.lead j <+: p.lead k := by
  induction k with
  | zero => obtain rfl : j = 0 := by omega
            exact List.prefix_rfl
  | succ k ih =>
    by_cases hj : j = k + 1
    · subst hj; exact List.prefix_rfl
    · refine (ih (by omega)).trans ?_
      rw [Parts.lead, List.append_assoc]
      exact List.prefix_append _ _

theorem lead1_eq (p : Parts) : p.lead 1 = p.lead 0 ++ (dec p.version ++ [32]) := by simp [Parts.lead, Parts.piece]
theorem lead2_eq (p : Parts) : p.lead 2 = p.lead 1 ++ tsText p.timestamp ++ [32] := rfl

/-- the fields of a message that has the first `k` of them -/
theorem first_header {p : Parts} {u : Bytes} {k : Nat} {x : Bytes} (h1 : 1 ≤ k) (h6 : k ≤ 6) (hu : u = p.lead k ++ x) (hn : k < 6 → ¬ p.lead (k + 1) <+: u)
    (ht : k = 1 → p.timestamp ≠ none → ¬ p.lead 1 ++ tsText p.timestamp <+: u) : Header p u (p.first k) := by
  have up : ∀ j, j ≤ 6 → (p.lead j <+: u ↔ j ≤ k) := by
    intro j hj
    constructor
    · intro h
      refine Nat.le_of_not_lt fun hh => hn (by omega) ((lead_prefix p (by omega)).trans h)
    · intro h
      rw [hu]
      exact (lead_prefix p h).trans (List.prefix_append _ _)
  have sel : ∀ {j : Nat} {a : Option Bytes}, j ≤ 6 → (if j ≤ k then a else none) = (if p.lead j <+: u then a else none) := by
    intro j a hj
    by_cases hh : j ≤ k
    · rw [if_pos hh, if_pos ((up j hj).mpr hh)]
    · rw [if_neg hh, if_neg fun h => hh ((up j hj).mp h)]
  refine {
    version := fun _ => rfl
    digits := ?_
    timestamp := ?_
    hostname := sel (by omega)
    appname := sel (by omega)
    procID := sel (by omega)
    msgID := sel (by omega) }
  · intro ds hds hpre
    exfalso
    obtain ⟨z, hz⟩ := (up 1 (by omega)).mpr h1
    rw [hds, lead1_eq, List.append_assoc] at hz
    have hz := List.append_cancel_left hz
    have : (32 : UInt8) ∈ dec p.version := hpre.subset (by rw [← hz]; simp)
    exact absurd (dec_digits _ _ this) (by decide)
  · show (if 2 ≤ k then p.timestamp else none).map Stamp.time = _
    cases hts : p.timestamp with
    | none => simp
    | some s =>
      by_cases hk : 2 ≤ k
      · rw [if_pos hk, if_pos]
        have := (up 2 (by omega)).mpr hk
        refine List.IsPrefix.trans ?_ this
        rw [lead2_eq, hts]
        exact List.prefix_append _ _
      · rw [if_neg hk, if_neg]
        · rfl
        · have := ht (by omega) (by simp [hts])
          rwa [hts] at this

theorem header_congr {p : Parts} {u : Bytes} {m m' : SyslogMessage} (h : Header p u m) (h0 : m'.version = m.version) (h1 : m'.timestamp = m.timestamp)
    (h2 : m'.hostname = m.hostname) (h3 : m'.appname = m.appname) (h4 : m'.procID = m.procID) (h5 : m'.msgID = m.msgID) : Header p u m' where
  version := by rw [h0]; exact h.version
  digits := by rw [h0]; exact h.digits
  timestamp := by rw [h1]; exact h.timestamp
  hostname := by rw [h2]; exact h.hostname
  appname := by rw [h3]; exact h.appname
  procID := by rw [h4]; exact h.procID
  msgID := by rw [h5]; exact h.msgID

theorem cut_header {co : Bool} {p : Parts} (hp : p.WF) {u : Bytes} {m : SyslogMessage} (h : Cut co p u (some m)) : Header p u m := by
  cases h with
  | @version n h1 h2 =>
    have no : ∀ k, 1 ≤ k → ¬ p.lead k <+: u := by
      intro k hk hh
      obtain ⟨z, hz⟩ := (lead_prefix p hk).trans hh
      rw [h1, lead1_eq, List.append_assoc] at hz
      have hz := List.append_cancel_left hz
      have : (32 : UInt8) ∈ dec n := by rw [← hz]; simp
      exact absurd (dec_digits _ _ this) (by decide)
    refine {
      version := fun hh => absurd hh (no 1 (by omega))
      digits := ?_
      timestamp := ?_
      hostname := by rw [if_neg (no 3 (by omega))]; rfl
      appname := by rw [if_neg (no 4 (by omega))]; rfl
      procID := by rw [if_neg (no 5 (by omega))]; rfl
      msgID := by rw [if_neg (no 6 (by omega))]; rfl }
    · intro ds hds _
      rw [h1] at hds
      have := List.append_cancel_left hds
      subst this
      refine ⟨if 10 ≤ n then n / 10 else n, ?_, rfl⟩
      by_cases hn : 10 ≤ n
      · have hl : (dec n).length ≠ 1 := by
          rw [dec_ge hn, List.length_append]
          have := List.length_pos_iff.mpr (dec_ne_nil (n / 10))
          simp only [List.length_singleton]; omega
        rw [if_pos hn, if_neg hl, dec_ge hn, List.dropLast_concat]
      · have hl : (dec n).length = 1 := by rw [dec_lt (by omega)]; rfl
        rw [if_neg hn, if_pos hl]
    · rw [if_neg fun hh => no 1 (by omega) ((List.prefix_append _ _).trans hh)]; rfl
  | field h1 h5 hu hn ht => exact first_header h1 (by omega) hu (fun _ => hn) ht
  | stamp hu =>
    have no : ∀ k, 2 ≤ k → ¬ p.lead k <+: u := by
      intro k hk hh
      have := ((lead_prefix p hk).trans hh).length_le
      rw [hu, lead2_eq] at this
      simp only [List.length_append, List.length_singleton] at this
      omega
    refine {
      version := fun _ => rfl
      digits := ?_
      timestamp := by rw [if_pos (by rw [hu]; exact List.prefix_rfl)]; rfl
      hostname := by rw [if_neg (no 3 (by omega))]; rfl
      appname := by rw [if_neg (no 4 (by omega))]; rfl
      procID := by rw [if_neg (no 5 (by omega))]; rfl
      msgID := by rw [if_neg (no 6 (by omega))]; rfl }
    intro ds hds hpre
    exfalso
    rw [hu, lead1_eq, List.append_assoc] at hds
    have hz := List.append_cancel_left hds
    have : (32 : UInt8) ∈ dec p.version := hpre.subset (by rw [← hz]; simp)
    exact absurd (dec_digits _ _ this) (by decide)
  | noSd hu => exact first_header (x := []) (by omega) (by omega) (by simpa using hu) (by omega) (by omega)
  | element _ hu _ _ =>
    exact header_congr (first_header (k := 6) (by omega) (by omega) (by rw [hu, List.append_assoc, List.append_assoc]) (by omega) (by omega)) rfl rfl rfl rfl rfl rfl
  | elements _ _ hu =>
    exact header_congr (first_header (k := 6) (by omega) (by omega) hu (by omega) (by omega)) rfl rfl rfl rfl rfl rfl
  | msg _ _ hu _ =>
    exact header_congr (first_header (k := 6) (by omega) (by omega) (by rw [hu, List.append_assoc, List.append_assoc]) (by omega) (by omega)) rfl rfl rfl rfl rfl rfl

/-- C93: which header fields best effort returns for a truncated message: a message is returned as soon as one digit of VERSION arrived, and it has
exactly the fields that arrived with the space after them. -/
theorem C93_header (co : Bool) (p : Parts) (hp : p.WF) (u : Bytes) (hu : u <+: p.render) :
    ∃ mo eo, parse1 ⟨true, co⟩ u = some ⟨mo, eo⟩ ∧
      (mo = none ↔ u.length ≤ (p.lead 0).length) ∧ ∀ m, mo = some m → Header p u m := by
  obtain ⟨mo, eo, hres, hc⟩ := C93_every_cut co p hp u hu
  refine ⟨mo, eo, hres, ?_, ?_⟩
  · clear hres
    have long : ∀ {k : Nat} {x : Bytes}, u = p.lead k ++ x → 1 ≤ k → ¬ u.length ≤ (p.lead 0).length := by
      intro k x h1 h2
      have a := (lead_prefix p h2).length_le
      have b : (p.lead 1).length = (p.lead 0).length + (p.piece 1).length + 1 := by rw [lead1_eq]; simp [Parts.piece]; omega
      rw [h1, List.length_append]
      omega
    cases hc with
    | pri h => simp [h.length_le]
    | @version n h1 _ =>
      have := List.length_pos_iff.mpr (dec_ne_nil n)
      rw [h1, List.length_append]
      simp only [reduceCtorEq, false_iff]; omega
    | field h1 _ h3 _ _ => simpa using long h3 h1
    | stamp h => simpa using long h (by omega)
    | noSd h => simpa using long (k := 6) (x := []) (by simpa using h) (by omega)
    | element _ h _ _ => simpa using long (k := 6) (by rw [h, List.append_assoc, List.append_assoc]) (by omega)
    | elements _ _ h => simpa using long (k := 6) h (by omega)
    | msg _ _ h _ => simpa using long (k := 6) (by rw [h, List.append_assoc, List.append_assoc]) (by omega)
  · rintro m rfl
    exact cut_header hp hc

/-- after the header only these cuts are left -/
theorem elements_ids {p : Parts} (hp : p.WF) {es rest : List Elem} (h : p.sd = es ++ rest) : (es.map Elem.id).Nodup := by
  have := hp.ids
  rw [h, List.map_append] at this
  exact (List.nodup_append.mp this).1

theorem withElems_get {p : Parts} {es : List Elem} (hn : (es.map Elem.id).Nodup) {e : Elem} (he : e ∈ es) :
    element (p.withElems es) e.id = some (paramMap e.params) := by
  rw [element_withElems]; exact find_elems_of hn [] he

theorem render_pos (e : Elem) : 0 < e.render.length := by simp [Elem.render]

/-- C93: the elements that arrived complete are kept, with all their parameters, unless the cut is right after the `[` that follows them. -/
theorem C93_elements (co : Bool) (p : Parts) (hp : p.WF) (u : Bytes) (hu : u <+: p.render) (es rest : List Elem) (hsd : p.sd = es ++ rest)
    (hes : p.lead 6 ++ es.flatMap Elem.render <+: u) (hcut : u ≠ p.lead 6 ++ es.flatMap Elem.render ++ [91]) :
    ∃ m eo, parse1 ⟨true, co⟩ u = some ⟨some m, eo⟩ ∧ ∀ e ∈ es, element m e.id = some (paramMap e.params) := by
  obtain ⟨mo, eo, hres, hc⟩ := C93_every_cut co p hp u hu
  have h6 : p.lead 6 <+: u := (List.prefix_append _ _).trans hes
  have nov : ∀ {x : Bytes}, u = p.lead 0 ++ x → (32 : UInt8) ∉ x → False := by
    intro x h1 h2
    obtain ⟨z, hz⟩ := (lead_prefix p (j := 1) (k := 6) (by omega)).trans h6
    rw [h1, lead1_eq, List.append_assoc] at hz
    have hz := List.append_cancel_left hz
    exact h2 (by rw [← hz]; simp)
  cases hc with
  | pri h =>
    exfalso
    have := ((lead_prefix p (j := 1) (k := 6) (by omega)).trans h6).trans h
    have := this.length_le
    rw [lead1_eq] at this
    simp at this
    omega
  | @version n h1 _ => exact absurd (nov h1) fun hh => hh (dec_not_mem (by decide))
  | @field k x h1 h5 _ hn _ => exact absurd ((lead_prefix p (by omega)).trans h6) hn
  | stamp h =>
    exfalso
    have := ((lead_prefix p (j := 2) (k := 6) (by omega)).trans h6).length_le
    rw [h, lead2_eq] at this
    simp only [List.length_append, List.length_singleton] at this
    omega
  | noSd h =>
    refine ⟨_, _, hres, ?_⟩
    have := hes.length_le
    rw [h, List.length_append] at this
    have : es = [] := by
      cases es with
      | nil => rfl
      | cons e es =>
        have := render_pos e
        simp only [List.flatMap_cons, List.length_append] at *
        omega
    subst this
    simp
  | @element es1 rest1 es' f x kind n hsd1 hu1 hno hst =>
    refine ⟨_, _, hres, ?_⟩
    have hes' : es.flatMap Elem.render <+: es1.flatMap Elem.render ++ ([91] ++ x) := by
      obtain ⟨z, hz⟩ := hes
      rw [hu1] at hz
      simp only [List.append_assoc] at hz
      exact ⟨z, List.append_cancel_left hz⟩
    obtain ⟨more, hmore⟩ : ∃ more, es1 = es ++ more := by
      rw [hsd] at hsd1
      rcases List.append_eq_append_iff.mp hsd1 with ⟨a, h1, -⟩ | ⟨a, h1, h2⟩
      · exact ⟨a, h1⟩
      · cases a with
        | nil => exact ⟨[], by simpa using h1.symm⟩
        | cons g a =>
          exfalso
          simp only [List.cons_append, List.cons.injEq] at h2
          obtain ⟨rfl, -⟩ := h2
          apply hno
          rw [h1, List.flatMap_append] at hes'
          obtain ⟨z, hz⟩ := hes'
          rw [List.append_assoc] at hz
          have hz := List.append_cancel_left hz
          rw [List.flatMap_cons, List.append_assoc] at hz
          exact ⟨_, hz⟩
    have hn1 := elements_ids hp hsd1
    have hkeep : ∀ e ∈ es, e ∈ es1 := fun e he => by rw [hmore]; simp [he]
    cases hst with
    | badId _ _ _ => exact fun e he => withElems_get hn1 (hkeep e he)
    | dupId _ _ => exact fun e he => withElems_get hn1 (hkeep e he)
    | @param id y ps ps' k2 n2 hid _ _ =>
      intro e he
      refine withElems_get ?_ (by simp [hkeep e he])
      rw [List.map_append, List.nodup_append]
      refine ⟨hn1, by simp, ?_⟩
      intro a ha b hb
      simp only [List.map_cons, List.map_nil, List.mem_singleton] at hb
      obtain ⟨e', he', rfl⟩ := List.mem_map.mp ha
      rw [hb]
      exact hid e' he'
    | noId hf =>
      have hmne : more ≠ [] := by
        rintro rfl
        apply hcut
        have hx : x = [] := by
          cases x with
          | nil => rfl
          | cons b x =>
            exfalso
            have hwf := (hp.sd f (by rw [hsd1]; simp)).1
            have htx := cut_elem_text hu hsd1 hu1
            obtain ⟨z, hz⟩ := htx
            obtain ⟨id, ps⟩ := f
            cases id with
            | nil => exact hwf.1 rfl
            | cons c id =>
              simp only [Elem.render, List.cons_append, List.nil_append, List.cons.injEq, true_and] at hz
              obtain ⟨rfl, -⟩ := hz
              refine hf.stuck (by simp) (id ++ [32]) ⟨b :: id, 32, hwf, Or.inl rfl, by simp⟩
        rw [hu1, hx, hmore]; simp
      intro e he
      refine withElems_get ?_ ?_
      · rw [List.map_dropLast]
        exact hn1.sublist (List.dropLast_sublist _)
      · rw [hmore, List.dropLast_append_of_ne_nil hmne]
        simp [he]
  | @elements es1 rest1 hsd1 hnil hu1 =>
    refine ⟨_, _, hres, ?_⟩
    intro e he
    refine withElems_get (elements_ids hp hsd1) ?_
    have hlen := hes.length_le
    rw [hu1, List.length_append, List.length_append] at hlen
    rw [hsd] at hsd1
    by_cases h1 : es1 = []
    · exfalso
      have hp0 := hnil h1
      rw [hp0, h1] at hsd1
      simp only [List.append_nil, List.append_eq_nil_iff] at hsd1
      rw [hsd1.1] at he
      simp at he
    · rw [sdText_ne h1] at hlen
      rcases List.append_eq_append_iff.mp hsd1 with ⟨a, h1, -⟩ | ⟨a, h1, h2⟩
      · rw [h1]; simp [he]
      · rw [h1] at hlen he
        cases a with
        | nil => simpa using he
        | cons g a =>
          have := render_pos g
          simp only [List.flatMap_append, List.flatMap_cons, List.length_append] at hlen
          omega
  | @msg w w0 w' _ _ _ _ =>
    refine ⟨_, _, hres, ?_⟩
    intro e he
    rw [element_toMessage]
    exact find_elems_of hp.ids [] (by rw [hsd]; simp [he])

/-- C93 (false of the code: "the elements that arrived complete are kept"): a cut right after a `[` also removes the complete element before it. -/
theorem C93_bracket (co : Bool) (p : Parts) (hp : p.WF) (es rest : List Elem) (e : Elem) (hsd : p.sd = es ++ e :: rest) :
    ∃ m err, parse1 ⟨true, co⟩ (p.lead 6 ++ (es ++ [e]).flatMap Elem.render ++ [91]) = some ⟨some m, some err⟩ ∧ element m e.id = none := by
  have hq : ({ p with sd := es ++ [e], msg := none } : Parts).WF := by
    have hids := elements_ids hp (es := es ++ [e]) (rest := rest) (by rw [hsd]; simp)
    refine ⟨hp.pri, hp.version, hp.timestamp, hp.hostname, hp.appname, hp.procID, hp.msgID, ?_, hids⟩
    intro x hx
    refine hp.sd x ?_
    rw [hsd]
    simp only [List.mem_append, List.mem_singleton] at hx
    rcases hx with hx | rfl <;> simp [*]
  have h := C58_empty_id_drops_previous_element co _ hq [] (by simp)
  rw [← lead_head, List.append_nil] at h
  have h' : parse1 ⟨true, co⟩ (p.lead 6 ++ (es ++ [e]).flatMap Elem.render ++ [91]) = _ := h
  rw [h']
  refine ⟨_, _, rfl, ?_⟩
  · rw [element_toMessage]
    simp only [List.dropLast_concat]
    rw [elemMap, find_elems_other]
    · rfl
    · have hids := hp.ids
      rw [hsd, List.map_append, List.map_cons] at hids
      intro x hx hxe
      exact (List.nodup_append.mp hids).2.2 x.id (List.mem_map_of_mem hx) e.id (by simp) hxe

/-- C93: the cuts that go unnoticed (no error): right after an element or after the `-` in place of the elements, and everywhere in MSG. -/
theorem C93_unnoticed (o : Opts) (p : Parts) (hp : p.WF) (u : Bytes) (hu : u <+: p.render) (m : SyslogMessage) :
    parse1 o u = some ⟨some m, none⟩ ↔
      (∃ es rest, p.sd = es ++ rest ∧ (es = [] → rest = []) ∧ u = p.lead 6 ++ sdText es ∧ m = { p with sd := es, msg := none : Parts }.toMessage) ∨
      (∃ w, u = p.lead 6 ++ sdText p.sd ++ [32] ++ w ∧ (o.compliantMsg = true → MsgCompliant w) ∧ m = { p with msg := some w : Parts }.toMessage) := by
  obtain ⟨be, co⟩ := o
  rw [C57_every_outcome be co u ⟨some m, none⟩]
  constructor
  · rintro (⟨q, hq, rfl, hco, hr⟩ | ⟨k, c, m', _, hr⟩)
    · cases hr
      rcases accepted_cut hp hq hu with ⟨rest, h1, h2, h3, h4⟩ | ⟨w, w0, h1, h2, h3, h4, h5⟩
      · exact Or.inl ⟨q.sd, rest, h1, h2, h3, by rw [← h4]⟩
      · exact Or.inr ⟨w, h4, hco w h1, by rw [← h5]⟩
    · simp at hr
  · rintro (⟨es, rest, h1, h2, h3, rfl⟩ | ⟨w, h1, h2, rfl⟩)
    · refine Or.inl ⟨{ p with sd := es, msg := none }, ?_, ?_, by simp, rfl⟩
      · exact ⟨hp.pri, hp.version, hp.timestamp, hp.hostname, hp.appname, hp.procID, hp.msgID, fun e he => hp.sd e (by rw [h1]; simp [he]), elements_ids hp h1⟩
      · rw [h3, render_lead _ (k := 6) (by omega)]
        simp [tailOf, msgText, Parts.lead, Parts.piece]
    · refine Or.inl ⟨{ p with msg := some w }, ?_, ?_, ?_, rfl⟩
      · exact ⟨hp.pri, hp.version, hp.timestamp, hp.hostname, hp.appname, hp.procID, hp.msgID, hp.sd, hp.ids⟩
      · rw [h1, render_lead _ (k := 6) (by omega)]
        simp [tailOf, msgText, Parts.lead, Parts.piece]
      · intro w' hw' hc
        simp only [Option.some.injEq] at hw'
        subst hw'
        exact h2 hc

/-- C93: of a MSG that arrived in part, best effort returns what arrived (up to the last byte that may belong to UTF-8 text, if compliant MSGs are
asked for and the MSG starts with a BOM); of a message cut before MSG it returns no MSG. -/
theorem C93_message (co : Bool) (p : Parts) (hp : p.WF) (u : Bytes) (hu : u <+: p.render) (m : SyslogMessage) (eo : Option Err)
    (h : parse1 ⟨true, co⟩ u = some ⟨some m, eo⟩) :
    (¬ p.lead 6 ++ sdText p.sd ++ [32] <+: u → m.message = none) ∧
    ∀ w, u = p.lead 6 ++ sdText p.sd ++ [32] ++ w →
      ∃ w', m.message = (if w' = [] then none else some w') ∧ w' <+: w ∧ (co = false ∨ MsgCompliant w → w' = w) ∧
        (w' ≠ w → eo ≠ none ∧ (∃ t, Utf8 (w' ++ t)) ∧ ∀ w'', w'' <+: w → w'.length < w''.length → ¬ ∃ t, Utf8 (w'' ++ t)) := by
  have hc := cut_of hp hu h
  have msgcase : ∀ w w0, u = p.lead 6 ++ sdText p.sd ++ [32] ++ w → p.msg = some w0 → w <+: w0 → p.lead 6 ++ sdText p.sd ++ [32] <+: u :=
    fun w w0 h1 _ _ => by rw [h1]; exact List.prefix_append _ _
  -- the other cuts are before MSG
  have before : ∀ x : Bytes, u = p.lead 6 ++ x → x.length ≤ (sdText p.sd).length → ¬ p.lead 6 ++ sdText p.sd ++ [32] <+: u := by
    intro x h1 h2 h3
    have := h3.length_le
    rw [h1] at this
    simp only [List.length_append, List.length_singleton] at this
    omega
  have nolead : ¬ p.lead 6 <+: u → ¬ p.lead 6 ++ sdText p.sd ++ [32] <+: u := fun h1 h2 =>
    h1 (((List.prefix_append _ _).trans (List.prefix_append _ _)).trans h2)
  have fin : ¬ p.lead 6 ++ sdText p.sd ++ [32] <+: u → m.message = none →
      (¬ p.lead 6 ++ sdText p.sd ++ [32] <+: u → m.message = none) ∧
      ∀ w, u = p.lead 6 ++ sdText p.sd ++ [32] ++ w →
      ∃ w', m.message = (if w' = [] then none else some w') ∧ w' <+: w ∧ (co = false ∨ MsgCompliant w → w' = w) ∧
        (w' ≠ w → eo ≠ none ∧ (∃ t, Utf8 (w' ++ t)) ∧ ∀ w'', w'' <+: w → w'.length < w''.length → ¬ ∃ t, Utf8 (w'' ++ t)) := by
    intro h1 h2
    refine ⟨fun _ => h2, fun w hw => absurd ?_ h1⟩
    rw [hw]; exact List.prefix_append _ _
  cases hc with
  | @version n h1 h2 =>
    refine fin (nolead fun h6 => ?_) rfl
    obtain ⟨z, hz⟩ := (lead_prefix p (j := 1) (k := 6) (by omega)).trans h6
    rw [h1, lead1_eq, List.append_assoc] at hz
    have hz := List.append_cancel_left hz
    exact (dec_not_mem (n := n) (c := 32) (by decide)) (by rw [← hz]; simp)
  | @field k x h1 h5 _ hn _ => exact fin (nolead fun h6 => hn ((lead_prefix p (by omega)).trans h6)) rfl
  | stamp hst =>
    refine fin (nolead fun h6 => ?_) rfl
    have := ((lead_prefix p (j := 2) (k := 6) (by omega)).trans h6).length_le
    rw [hst, lead2_eq] at this
    simp only [List.length_append, List.length_singleton] at this
    omega
  | noSd hns => exact fin (before [] (by simpa using hns) (by simp)) rfl
  | @element es1 rest1 es' f x kind n hsd1 hu1 hno hst =>
    refine fin (fun hh => ?_) rfl
    apply hno
    rw [hu1, sdText_ne (by rw [hsd1]; simp), hsd1] at hh
    obtain ⟨z, hz⟩ := hh
    simp only [List.append_assoc, List.flatMap_append, List.flatMap_cons] at hz
    have hz := List.append_cancel_left (List.append_cancel_left hz)
    exact ⟨_, hz⟩
  | @elements es1 rest1 hsd1 hnil hu1 =>
    refine fin (before _ hu1 ?_) rfl
    by_cases h1 : es1 = []
    · rw [hsd1, h1, hnil h1]; exact Nat.le_refl _
    · rw [sdText_ne h1, sdText_ne (by rw [hsd1]; simp [h1]), hsd1, List.flatMap_append, List.length_append]
      omega
  | @msg w w0 w' hw hpre hu1 hk =>
    refine ⟨fun hh => absurd (msgcase w w0 hu1 hw hpre) hh, ?_⟩
    intro v hv
    have hvw : v = w := by rw [hu1] at hv; exact (List.append_cancel_left hv).symm
    subst hvw
    refine ⟨w', ?_, ?_, ?_, ?_⟩
    · simp only [Parts.toMessage, Option.some.injEq]
    · rcases hk with ⟨-, rfl⟩ | ⟨-, -, n, -, -, -, rfl⟩
      · exact List.prefix_rfl
      · exact List.take_prefix n v
    · rintro hco
      rcases hk with ⟨-, rfl⟩ | ⟨h1, h2, n, -, -, -, rfl⟩
      · rfl
      · rcases hco with hco | hco
        · rw [h1] at hco; simp at hco
        · exact absurd hco h2
    · intro hne
      rcases hk with ⟨-, rfl⟩ | ⟨h1, h2, n, hn, hv, hst, rfl⟩
      · exact absurd rfl hne
      · refine ⟨?_, hv, ?_⟩
        · rintro rfl
          rcases (C93_unnoticed ⟨true, co⟩ p hp u hu _).mp h with ⟨es, rest, a1, a2, a3, a4⟩ | ⟨w2, a1, a2, a3⟩
          · have := congrArg List.length (hu1.symm.trans a3)
            simp only [List.length_append, List.length_singleton] at this
            by_cases h1 : es = []
            · rw [a1, h1, a2 h1] at this; simp only [List.append_nil] at this; omega
            · rw [sdText_ne h1, sdText_ne (by rw [a1]; simp [h1]), a1, List.flatMap_append, List.length_append] at this
              omega
          · have : w2 = v := by rw [hu1] at a1; exact (List.append_cancel_left a1).symm
            subst this
            exact h2 (a2 h1)
        · rintro w'' hw'' hlt ⟨t, ht⟩
          have hnl : n < v.length := by
            rcases Nat.lt_or_ge n v.length with hh | hh
            · exact hh
            · exact absurd (List.take_of_length_le hh) hne
          have hlen : n < w''.length := by rw [List.length_take] at hlt; omega
          have e : v.take (n + 1) = w''.take (n + 1) := by
            obtain ⟨z, rfl⟩ := hw''
            rw [List.take_append_of_le_length (by omega)]
          apply hst hnl (w''.drop (n + 1) ++ t)
          rw [e, ← List.append_assoc, List.take_append_drop]
          exact ht

open Verif.Octet (Opt Read Error) in
/-- C93: an octet counting stream in best effort mode that ends inside a message: the last result says nothing that the message does not say. -/
theorem C93_octet (opts : List Opt) (hfit : Fits opts) (ms : List Bytes) (hbe : isBestEffort opts = true)
    (h60 : ∀ m ∈ ms, m.head? = some 60) (hmx : ∀ m ∈ ms, (m.length : Int) ≤ maxLength opts ∧ m.length < 2 ^ 63)
    (p : Parts) (hp : p.WF) (hlen : (p.render.length : Int) ≤ maxLength opts ∧ p.render.length < 2 ^ 63)
    (part : Bytes) (hpart : part <+: p.render) (hne : part ≠ []) (hcut : part ≠ p.render)
    (sched : List Read) (hs : Delivers sched (ms.flatMap octetFrame ++ (dec p.render.length ++ 32 :: part))) :
    ∃ (msg : Option SyslogMessage) (e : Error),
      results opts sched = some (ms.map (alone true) ++ [⟨msg, some e⟩]) ∧ ∀ m, msg = some m → Tells p m := by
  obtain ⟨msg, e, h1, -, h3⟩ := C45_truncated opts hfit ms h60 (fun _ _ => Or.inl hbe) hmx p.render rfl hlen (dec p.render.length ++ 32 :: part)
    (by simp) (by
      obtain ⟨z, hz⟩ := hpart
      exact ⟨z, by rw [octetFrame]; simp [← hz]⟩) (by
      intro hh
      rw [octetFrame] at hh
      exact hcut (by simpa using hh)) sched hs
  rw [hbe] at h1
  refine ⟨msg, e, h1, ?_⟩
  intro m hm
  have h4 := h3 hbe part rfl hne
  rw [hm, alone] at h4
  cases hp1 : parse1 { bestEffort := true } part with
  | none => rw [hp1] at h4; simp at h4
  | some r =>
    rw [hp1] at h4
    obtain ⟨rm, re⟩ := r
    simp only at h4
    subst h4
    exact C93_truth _ p hp part hpart m re hp1

open Verif.NonTransparent (Driver Opt ReadErr) in
/-- C93: the same with non-transparent framing, in both modes. -/
theorem C93_lines (d : Driver) (opts : List Opt) (ms : List Bytes) (h : ∀ m ∈ ms, Framable (NT.trailerByte opts) m)
    (p : Parts) (hp : p.WF) (part : Bytes) (hpart : part <+: p.render) (hne : part ≠ []) (htr : NT.trailerByte opts ∉ part) (e : ReadErr) :
    ∃ msg err, NT.results d opts (framed (NT.trailerByte opts) ms ++ part) e =
        some (ms.map (NT.alone (NT.isBestEffort opts)) ++ [⟨msg, some err⟩]) ∧ ∀ m, msg = some m → Tells p m := by
  obtain ⟨err, h1, -⟩ := C50_unterminated_rest d opts ms part e h htr hne
  refine ⟨_, err, h1, ?_⟩
  intro m hm
  rw [NT.alone] at hm
  cases hp1 : parse1 { bestEffort := NT.isBestEffort opts } part with
  | none => rw [hp1] at hm; simp at hm
  | some r =>
    rw [hp1] at hm
    obtain ⟨rm, re⟩ := r
    simp only at hm
    subst hm
    exact C93_truth _ p hp part hpart m re hp1

/-! ## examples -/

/-- `<165>1 2003-02-28T22:14:15.003-07:00 host.example.co`: the host name is incomplete and is not returned -/
example : (parse1 ⟨true, false⟩ (sample.render.take 52)).map (fun r => r.msg.map fun m => (m.timestamp.isSome, m.hostname, m.appname)) =
    some (some (true, none, none)) := by decide +kernel

/-- one byte later it is complete, but the space is missing -/
example : (parse1 ⟨true, false⟩ (sample.render.take 53)).map (fun r => r.msg.map fun m => (m.hostname, m.appname)) = some (some (none, none)) := by
  decide +kernel

/-- and then it is returned; the three cuts meet the hypotheses -/
example : (parse1 ⟨true, false⟩ (sample.render.take 54)).map (fun r => r.msg.map fun m => (m.hostname, m.appname)) =
    some (some (some (ascii "host.example.com"), none)) ∧ sample.render.take 54 <+: sample.render ∧ sample.lead 3 = sample.render.take 54 := by
  refine ⟨by decide +kernel, List.take_prefix _ _, by decide +kernel⟩

/-- the first element arrived, and the `[` of the second: no structured data is returned -/
example : (parse1 ⟨true, false⟩ (sample.lead 6 ++ ascii "[a@1 x=\"q\\\"uote\" x=\"b\\\\\"][")).map (fun r => r.msg.map fun m => m.structuredData) =
    some (some none) := by decide +kernel

/-- one byte later it is there -/
example : (parse1 ⟨true, false⟩ (sample.lead 6 ++ ascii "[a@1 x=\"q\\\"uote\" x=\"b\\\\\"][b")).map (fun r => r.msg.map fun m => m.structuredData) =
    some (some (some [(ascii "a@1", [(ascii "x", ascii "b\\")])])) := by decide +kernel

/-- cut after the first of two parameters of the same name, the first value is returned, which the whole message hides -/
example : (parse1 ⟨true, false⟩ (sample.lead 6 ++ ascii "[a@1 x=\"q\\\"uote\" x=\"b")).map (fun r => r.msg.map fun m => m.structuredData) =
    some (some (some [(ascii "a@1", [(ascii "x", ascii "q\"uote")])])) := by decide +kernel

/-- a cut in MSG goes unnoticed -/
example : (parse1 {} (sample.render.take (sample.render.length - 2))).map (fun r => (r.msg.map fun m => m.message, r.err)) =
    some (some (some (ascii "hel")), none) := by decide +kernel

end Verif.Props
