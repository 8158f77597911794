import Verif.Builder.Round
import Verif.Props.Rfc5424

/-! # C21-C29: the builder -/

namespace Verif.Props
open Verif.Spec Verif.Builder
open Verif.Rfc5424 (SyslogMessage SD parse1)

/-! ## C21: setters store exactly the well-formed values -/

/-- C21: `SetPriority`. -/
theorem C21_priority (sm : SyslogMessage) (g : Globals) (v : UInt8) :
    (v.toNat ≤ 191 → (Call.priority v).run (sm, g) =
      some ({ sm with priority := some v, facility := some (v / 8), severity := some (v % 8) }, g)) ∧
    (191 < v.toNat → (Call.priority v).run (sm, g) = some (sm, g)) := by
  constructor
  · intro h; simp only [Call.run, setPriority, if_pos ((validPriority_iff v).mpr h)]; rfl
  · intro h; simp only [Call.run, setPriority]; rw [if_neg (by rw [validPriority_iff]; omega)]

/-- C21: `SetVersion`. -/
theorem C21_version (sm : SyslogMessage) (g : Globals) (v : UInt16) :
    (1 ≤ v.toNat ∧ v.toNat ≤ 999 → (Call.version v).run (sm, g) = some ({ sm with version := v }, g)) ∧
    (¬ (1 ≤ v.toNat ∧ v.toNat ≤ 999) → (Call.version v).run (sm, g) = some (sm, g)) := by
  constructor
  · intro h; simp only [Call.run, setVersion, if_pos ((validVersion_iff v).mpr h)]
  · intro h; simp only [Call.run, setVersion]; rw [if_neg (by rw [validVersion_iff]; exact h)]

/-- C21: `SetTimestamp` stores the instant denoted by an RFC 3339 text of an existing date with at most six fraction digits. -/
theorem C21_timestamp (sm : SyslogMessage) (g : Globals) (w : Bytes) :
    (∀ s : Stamp, s.WF → s.Real → w = s.render → (Call.timestamp w).run (sm, g) = some ({ sm with timestamp := some s.time }, g)) ∧
    (¬ (∃ s : Stamp, s.WF ∧ s.Real ∧ w = s.render) → (Call.timestamp w).run (sm, g) = some (sm, g)) := by
  constructor
  · intro s h1 h2 h3; rw [Call.run, (set_timestamp g w sm).1 s h1 h2 h3]; rfl
  · intro h; rw [Call.run, (set_timestamp g w sm).2 h]; rfl

/-- C21: `SetHostname` stores 1 to 255 printable characters other than `-`. -/
theorem C21_hostname (sm : SyslogMessage) (g : Globals) (w : Bytes) :
    (NameWF 255 w ∧ w ≠ [45] → (Call.hostname w).run (sm, g) = some ({ sm with hostname := some w }, g)) ∧
    (¬ (NameWF 255 w ∧ w ≠ [45]) → (Call.hostname w).run (sm, g) = some (sm, g)) := by
  constructor
  · intro h; rw [Call.run, (set_hostname g w sm).1 h]; rfl
  · intro h; rw [Call.run, (set_hostname g w sm).2 h]; rfl

/-- C21: `SetAppname` stores 1 to 48 printable characters other than `-`. -/
theorem C21_appname (sm : SyslogMessage) (g : Globals) (w : Bytes) :
    (NameWF 48 w ∧ w ≠ [45] → (Call.appname w).run (sm, g) = some ({ sm with appname := some w }, g)) ∧
    (¬ (NameWF 48 w ∧ w ≠ [45]) → (Call.appname w).run (sm, g) = some (sm, g)) := by
  constructor
  · intro h; rw [Call.run, (set_appname g w sm).1 h]; rfl
  · intro h; rw [Call.run, (set_appname g w sm).2 h]; rfl

/-- C21: `SetProcID` stores 1 to 128 printable characters other than `-`. -/
theorem C21_procID (sm : SyslogMessage) (g : Globals) (w : Bytes) :
    (NameWF 128 w ∧ w ≠ [45] → (Call.procID w).run (sm, g) = some ({ sm with procID := some w }, g)) ∧
    (¬ (NameWF 128 w ∧ w ≠ [45]) → (Call.procID w).run (sm, g) = some (sm, g)) := by
  constructor
  · intro h; rw [Call.run, (set_procid g w sm).1 h]; rfl
  · intro h; rw [Call.run, (set_procid g w sm).2 h]; rfl

/-- C21: `SetMsgID` stores 1 to 32 printable characters other than `-`. -/
theorem C21_msgID (sm : SyslogMessage) (g : Globals) (w : Bytes) :
    (NameWF 32 w ∧ w ≠ [45] → (Call.msgID w).run (sm, g) = some ({ sm with msgID := some w }, g)) ∧
    (¬ (NameWF 32 w ∧ w ≠ [45]) → (Call.msgID w).run (sm, g) = some (sm, g)) := by
  constructor
  · intro h; rw [Call.run, (set_msgid g w sm).1 h]; rfl
  · intro h; rw [Call.run, (set_msgid g w sm).2 h]; rfl

/-- C21: `SetMessage` stores any non-empty text. -/
theorem C21_message (sm : SyslogMessage) (g : Globals) (w : Bytes) :
    (w ≠ [] → (Call.message w).run (sm, g) = some ({ sm with message := some w }, g)) ∧
    (Call.message []).run (sm, g) = some (sm, g) := by
  constructor
  · intro h; rw [Call.run, set_msg, if_neg h]; rfl
  · rw [Call.run, set_msg, if_pos rfl]; rfl

/-- C21: `SetElementID` with a well-formed identifier: the element exists afterwards, with the parameters it had before, if
any; all other elements and fields are as before. Otherwise nothing changes. -/
theorem C21_elementID (sm : SyslogMessage) (g : Globals) (w : Bytes) :
    (SdNameWF w → ∃ sm', (Call.elementID w).run (sm, g) = some (sm', g) ∧ { sm' with structuredData := sm.structuredData } = sm ∧
      element sm' w = some ((element sm w).getD []) ∧ ∀ id, id ≠ w → element sm' id = element sm id) ∧
    (¬ SdNameWF w → (Call.elementID w).run (sm, g) = some (sm, g)) := by
  constructor
  · intro h
    refine ⟨{ sm with structuredData := some (ensure (sm.structuredData.getD []) w) }, by rw [Call.run, (set_sdid g w sm).1 h]; rfl, rfl, ?_, ?_⟩
    · simp only [element, Option.bind_some]
      cases hs : sm.structuredData with
      | none => simp [ensure, SMap.find, SMap.insert]
      | some sd =>
        simp only [Option.getD_some, Option.bind_some, ensure]
        cases hf : sd.find w with
        | some ps => simp [hf]
        | none => simp [SMap.find_insert_self]
    · intro id hid
      simp only [element, Option.bind_some]
      cases hs : sm.structuredData with
      | none => simp [ensure, SMap.find, SMap.insert, hid]
      | some sd =>
        simp only [Option.getD_some, Option.bind_some, ensure]
        cases hf : sd.find w with
        | some ps => rfl
        | none => exact SMap.find_insert_ne _ _ hid
  · intro h; rw [Call.run, (set_sdid g w sm).2 h]; rfl

/-- the boundaries are as stated, on concrete values -/
example : ((Call.hostname (List.replicate 255 97)).run ({}, {})).map (·.1.hostname) = some (some (List.replicate 255 97)) ∧
    ((Call.hostname (List.replicate 256 97)).run ({}, {})).map (·.1.hostname) = some none ∧
    ((Call.hostname [45]).run ({}, {})).map (·.1.hostname) = some none ∧
    ((Call.timestamp (ascii "2003-02-29T22:14:15Z")).run ({}, {})).map (·.1.timestamp) = some none ∧
    ((Call.timestamp (ascii "2004-02-29T22:14:15Z")).run ({}, {})).map (·.1.timestamp.isSome) = some true := by decide +kernel

/-! ## C22: a setter touches only its own field -/

/-- the fields of a message, priority, facility and severity counting as one -/
inductive Field where
  | priority | version | timestamp | hostname | appname | procID | msgID | structuredData | message
  deriving DecidableEq

/-- `f` has the same value in both messages -/
def Field.same : Field → SyslogMessage → SyslogMessage → Prop
  | .priority, a, b => a.priority = b.priority ∧ a.facility = b.facility ∧ a.severity = b.severity
  | .version, a, b => a.version = b.version
  | .timestamp, a, b => a.timestamp = b.timestamp
  | .hostname, a, b => a.hostname = b.hostname
  | .appname, a, b => a.appname = b.appname
  | .procID, a, b => a.procID = b.procID
  | .msgID, a, b => a.msgID = b.msgID
  | .structuredData, a, b => a.structuredData = b.structuredData
  | .message, a, b => a.message = b.message

/-- the field a setter is for -/
def fieldOf : Call → Field
  | .priority _ => .priority | .version _ => .version | .timestamp _ => .timestamp | .hostname _ => .hostname
  | .appname _ => .appname | .procID _ => .procID | .msgID _ => .msgID | .message _ => .message
  | .elementID _ => .structuredData | .parameter _ _ _ => .structuredData

theorem Field.same_refl (f : Field) (a : SyslogMessage) : f.same a a := by cases f <;> simp [Field.same]

/-- the possible outcomes of `SetParameter` -/
theorem setParameter_sd (g : Globals) (id name value : Bytes) (sm : SyslogMessage) :
    ∃ x g', setParameter g id name value sm = some ({ sm with structuredData := x }, g') := by
  by_cases hstart : SdNameWF id ∨ (sm.structuredData.getD []).find id ≠ none
  · obtain ⟨sd, ps, h1, -, h3, -⟩ := setParameter_start g id sm hstart
    have ht := setParameter_tail (name := name) (value := value) h1 rfl h3
    by_cases hn : SdNameWF name
    · by_cases hv : ∃ v, Utf8 v ∧ value = escape v
      · obtain ⟨v, hu, hv⟩ := hv
        exact ⟨_, _, ht.1 hn v hu hv⟩
      · exact ⟨_, _, ht.2.1 hn hv⟩
    · by_cases hf : ps.find name = none
      · exact ⟨_, _, ht.2.2.1 hn hf⟩
      · by_cases hv : ∃ v, Utf8 v ∧ value = escape v
        · obtain ⟨v, hu, hv⟩ := hv
          exact ⟨_, _, ht.2.2.2.1 hn hf v hu hv⟩
        · exact ⟨_, _, ht.2.2.2.2 hn hf hv⟩
  · rw [not_or] at hstart
    exact ⟨sm.structuredData, g, setParameter_none hstart.1 (Decidable.byContradiction hstart.2)⟩

/-- C22: no setter panics, and none changes a field that is not its own, whatever the message and the arguments. -/
theorem C22_only_own_field (c : Call) (sm : SyslogMessage) (g : Globals) :
    ∃ sm' g', c.run (sm, g) = some (sm', g') ∧ ∀ f, f ≠ fieldOf c → f.same sm sm' := by
  have self : ∀ f : Field, f ≠ fieldOf c → f.same sm sm := fun f _ => Field.same_refl f sm
  cases c with
  | priority v =>
    by_cases h : v.toNat ≤ 191
    · exact ⟨_, _, (C21_priority sm g v).1 h, fun f hf => by cases f <;> simp_all [Field.same, fieldOf]⟩
    · exact ⟨_, _, (C21_priority sm g v).2 (by omega), self⟩
  | version v =>
    by_cases h : 1 ≤ v.toNat ∧ v.toNat ≤ 999
    · exact ⟨_, _, (C21_version sm g v).1 h, fun f hf => by cases f <;> simp_all [Field.same, fieldOf]⟩
    · exact ⟨_, _, (C21_version sm g v).2 h, self⟩
  | timestamp w =>
    by_cases h : ∃ s : Stamp, s.WF ∧ s.Real ∧ w = s.render
    · obtain ⟨s, h1, h2, h3⟩ := h
      exact ⟨_, _, (C21_timestamp sm g w).1 s h1 h2 h3, fun f hf => by cases f <;> simp_all [Field.same, fieldOf]⟩
    · exact ⟨_, _, (C21_timestamp sm g w).2 h, self⟩
  | hostname w =>
    by_cases h : NameWF 255 w ∧ w ≠ [45]
    · exact ⟨_, _, (C21_hostname sm g w).1 h, fun f hf => by cases f <;> simp_all [Field.same, fieldOf]⟩
    · exact ⟨_, _, (C21_hostname sm g w).2 h, self⟩
  | appname w =>
    by_cases h : NameWF 48 w ∧ w ≠ [45]
    · exact ⟨_, _, (C21_appname sm g w).1 h, fun f hf => by cases f <;> simp_all [Field.same, fieldOf]⟩
    · exact ⟨_, _, (C21_appname sm g w).2 h, self⟩
  | procID w =>
    by_cases h : NameWF 128 w ∧ w ≠ [45]
    · exact ⟨_, _, (C21_procID sm g w).1 h, fun f hf => by cases f <;> simp_all [Field.same, fieldOf]⟩
    · exact ⟨_, _, (C21_procID sm g w).2 h, self⟩
  | msgID w =>
    by_cases h : NameWF 32 w ∧ w ≠ [45]
    · exact ⟨_, _, (C21_msgID sm g w).1 h, fun f hf => by cases f <;> simp_all [Field.same, fieldOf]⟩
    · exact ⟨_, _, (C21_msgID sm g w).2 h, self⟩
  | message w =>
    by_cases h : w = []
    · subst h; exact ⟨_, _, (C21_message sm g []).2, self⟩
    · exact ⟨_, _, (C21_message sm g w).1 h, fun f hf => by cases f <;> simp_all [Field.same, fieldOf]⟩
  | elementID w =>
    by_cases h : SdNameWF w
    · obtain ⟨sm', h1, h2, -, -⟩ := (C21_elementID sm g w).1 h
      refine ⟨sm', g, h1, fun f hf => ?_⟩
      rw [← h2]
      cases f <;> simp_all [Field.same, fieldOf]
    · exact ⟨_, _, (C21_elementID sm g w).2 h, self⟩
  | parameter id name value =>
    obtain ⟨x, g', h⟩ := setParameter_sd g id name value sm
    exact ⟨_, g', h, fun f hf => by cases f <;> simp_all [Field.same, fieldOf]⟩

/-! ## C23: `SetParameter` -/

theorem element_some {sm : SyslogMessage} {sd : SD} (x : Bytes) : element { sm with structuredData := some sd } x = sd.find x := rfl

theorem element_getD (sm : SyslogMessage) (x : Bytes) : (sm.structuredData.getD []).find x = element sm x := by
  unfold element; cases sm.structuredData <;> rfl

theorem find_ensure_ne (sd : SD) {id x : Bytes} (h : x ≠ id) : (ensure sd id).find x = sd.find x := by
  unfold ensure
  split
  · rfl
  · exact SMap.find_insert_ne _ _ h

/-- C23: with well-formed identifier and name, the parameter has the unescaped value afterwards if the value is a well-formed
PARAM-VALUE, and the empty string otherwise — also when the parameter had a value before, so the documented "when a
parameter with the given name already exists the operation is discarded" is not what happens. Everything else is
unchanged. -/
theorem C23_well_formed (sm : SyslogMessage) (g : Globals) (id name value : Bytes) (hid : SdNameWF id) (hname : SdNameWF name) :
    ∃ sm' g', (Call.parameter id name value).run (sm, g) = some (sm', g') ∧
      (∀ v, Utf8 v → Unescaped value v → param sm' id name = some v) ∧
      ((¬ ∃ v, Utf8 v ∧ Unescaped value v) → param sm' id name = some []) ∧
      (∀ name', name' ≠ name → param sm' id name' = param sm id name') ∧
      (∀ id', id' ≠ id → element sm' id' = element sm id') := by
  obtain ⟨sd, ps, h1, h2, h3, h4⟩ := setParameter_start g id sm (Or.inl hid)
  have ht := setParameter_tail (name := name) (value := value) h1 rfl h3
  simp only [unescaped_iff]
  have old : ∀ name', (ps.find name') = param sm id name' := by
    intro name'
    rw [h4, element_getD, param]
    cases element sm id <;> rfl
  have key : ∀ x : Bytes, ∀ sm', sm' = ({ sm with structuredData := some (sd.insert id (ps.insert name x)) } : SyslogMessage) →
      param sm' id name = some x ∧ (∀ name', name' ≠ name → param sm' id name' = param sm id name') ∧
      (∀ id', id' ≠ id → element sm' id' = element sm id') := by
    rintro x sm' rfl
    refine ⟨?_, ?_, ?_⟩
    · simp only [param, element_some, SMap.find_insert_self, Option.bind_some]
    · intro name' hn
      simp only [param, element_some, SMap.find_insert_self, Option.bind_some]
      rw [SMap.find_insert_ne _ _ hn, old, param]
    · intro id' hi
      rw [element_some, SMap.find_insert_ne _ _ hi, h2, find_ensure_ne _ hi, element_getD]
  by_cases hv : ∃ v, Utf8 v ∧ value = escape v
  · obtain ⟨v, hu, hv⟩ := hv
    have hk := key v _ rfl
    refine ⟨_, _, ht.1 hname v hu hv, ?_, fun hn => absurd ⟨v, hu, hv⟩ hn, hk.2⟩
    intro v' _ hv'
    have : v' = v := by rw [← Rfc5424.unesc_escape v', ← hv', hv, Rfc5424.unesc_escape]
    rw [this]; exact hk.1
  · have hk := key [] _ rfl
    exact ⟨_, _, ht.2.1 hname hv, fun v hu hv' => absurd ⟨v, hu, hv'⟩ hv, fun _ => hk.1, hk.2⟩

/-- C23: an ill-formed identifier changes nothing when there is no such element. -/
theorem C23_bad_id (sm : SyslogMessage) (g : Globals) (id name value : Bytes) (hid : ¬ SdNameWF id) (he : element sm id = none) :
    (Call.parameter id name value).run (sm, g) = some (sm, g) :=
  setParameter_none hid (by rw [element_getD]; exact he)

/-- C23: a well-formed identifier with an ill-formed new name does what `SetElementID` does. -/
theorem C23_bad_name (sm : SyslogMessage) (g : Globals) (id name value : Bytes) (hid : SdNameWF id) (hname : ¬ SdNameWF name)
    (he : param sm id name = none) : ∃ sm' g', (Call.parameter id name value).run (sm, g) = some (sm', g') ∧
      (Call.elementID id).run (sm, g) = some (sm', g) := by
  obtain ⟨sd, ps, h1, h2, h3, h4⟩ := setParameter_start g id sm (Or.inl hid)
  have ht := setParameter_tail (name := name) (value := value) h1 rfl h3
  refine ⟨_, _, ht.2.2.1 hname ?_, by rw [Call.run, h1]; rfl⟩
  rw [h4, element_getD]
  rw [param] at he
  cases hx : element sm id with
  | none => rfl
  | some ps' => rw [hx] at he; exact he

/-- an existing value is replaced, and an ill-formed one erases it -/
example :
    ((runCalls [.parameter (ascii "a") (ascii "x") (ascii "1"), .parameter (ascii "a") (ascii "x") (ascii "2")] ({}, {})).map
      fun s => param s.1 (ascii "a") (ascii "x")) = some (some (ascii "2")) ∧
    ((runCalls [.parameter (ascii "a") (ascii "x") (ascii "1"), .parameter (ascii "a") (ascii "x") (ascii "]")] ({}, {})).map
      fun s => param s.1 (ascii "a") (ascii "x")) = some (some []) := by decide +kernel

/-! ## C24, C25: `String` -/

/-- `outer` and `inner` are possible iteration orders of the maps of `sm` -/
def IterationOrder (sm : SyslogMessage) (outer : List Bytes) (inner : Bytes → List Bytes) : Prop :=
  outer.Perm (keys (sm.structuredData.getD [])) ∧
  ∀ id ps, element sm id = some ps → (inner id).Perm (keys ps)

/-- C24: `String` returns an error exactly when `Valid` is false: no priority, or one above 191, or a version outside 1..999. -/
theorem C24_error_iff_invalid (sm : SyslogMessage) (outer : List Bytes) (inner : Bytes → List Bytes) :
    (stringWith outer inner sm = none ↔ sm.valid = false) ∧
    (sm.valid = true ↔ (∃ v, sm.priority = some v ∧ v.toNat ≤ 191) ∧ 1 ≤ sm.version.toNat ∧ sm.version.toNat ≤ 999) := by
  refine ⟨?_, valid_iff sm⟩
  unfold stringWith
  constructor
  · intro h
    cases hv : sm.valid with
    | false => rfl
    | true =>
      obtain ⟨⟨v, hp, -⟩, -⟩ := (valid_iff sm).mp hv
      rw [if_neg (by rw [hv]; simp)] at h
      simp [hp] at h
  · intro h; rw [if_pos h]

example : (({} : SyslogMessage).valid = false) ∧
    ((runCalls [.priority 191, .version 999] ({}, {})).map fun s => (s.1.valid, string s.1)) =
      some (true, some (ascii "<191>999 - - - - - -")) := by decide +kernel

/-- C25: the text does not depend on the iteration orders of the maps. -/
theorem C25_order_irrelevant (sm : SyslogMessage) {outer outer' : List Bytes} {inner inner' : Bytes → List Bytes}
    (h : IterationOrder sm outer inner) (h' : IterationOrder sm outer' inner') :
    stringWith outer inner sm = stringWith outer' inner' sm := by
  have key : textSD outer inner sm.structuredData = textSD outer' inner' sm.structuredData := by
    cases hs : sm.structuredData with
    | none => rfl
    | some sd =>
      simp only [textSD, printSD]
      rw [sortStrings_of_perm (h.1.trans h'.1.symm)]
      apply flatMap_congr'
      intro id hid
      have hmem : id ∈ keys sd := by
        have := ((sortStrings_perm outer').trans h'.1).mem_iff.mp hid
        rwa [hs] at this
      have hf : ∃ ps, sd.find id = some ps := by
        clear h h' hs hid
        induction sd with
        | nil => simp [keys] at hmem
        | cons x r ih =>
          obtain ⟨k, v⟩ := x
          simp only [SMap.find]
          by_cases hk : id = k
          · rw [if_pos hk]; exact ⟨v, rfl⟩
          · rw [if_neg hk]
            simp only [keys, List.map_cons, List.mem_cons] at hmem
            exact ih (hmem.resolve_left hk)
      obtain ⟨ps, hf⟩ := hf
      have he : element sm id = some ps := by rw [← hf]; unfold element; rw [hs]; rfl
      rw [sortStrings_of_perm ((h.2 id ps he).trans (h'.2 id ps he).symm)]
  unfold stringWith
  rw [key]

/-- C25: and not on the sorting algorithm: the sorted permutation of the keys is unique. -/
theorem C25_any_sorting_algorithm {l r : List Bytes} (h : r.Perm l) (hs : r.Pairwise fun a b => blt b a = false) : r = sortStrings l :=
  sortStrings_unique h (hs.imp fun h => by simp [ble, h])

example : ((runCalls [.priority 1, .version 1, .parameter (ascii "b") (ascii "y") (ascii "1"), .parameter (ascii "b") (ascii "x") (ascii "2"),
    .elementID (ascii "a")] ({}, {})).map fun s => (stringWith [ascii "a", ascii "b"] (fun _ => []) s.1,
      stringWith [ascii "b", ascii "a"] (fun id => if id = ascii "b" then [ascii "y", ascii "x"] else []) s.1)) =
    some (some (ascii "<1>1 - - - - - [a][b]"), some (ascii "<1>1 - - - - - [a][b x=\"2\" y=\"1\"]")) := by decide +kernel

/-! ## C26-C28: built messages parse, and come back -/

/-- all parameter values are US-ASCII -/
def AsciiValues (sm : SyslogMessage) : Prop := ∀ id name v, param sm id name = some v → ∀ b ∈ v, b.toNat < 128

/-- `m'` is `m` with every parameter value mangled (see `Mangled`) -/
def ValuesMangled (m m' : SyslogMessage) : Prop :=
  { m' with structuredData := m.structuredData } = m ∧
  (∀ id, (element m' id).isSome = (element m id).isSome) ∧
  (∀ id name, (param m' id name).isSome = (param m id name).isSome) ∧
  (∀ id name v, param m id name = some v → ∃ w, Mangled v w ∧ param m' id name = some w)

theorem element_mangle (sm : SyslogMessage) (id : Bytes) :
    element (mangleMsg sm) id = (element sm id).map fun ps => ps.map fun p => (p.1, mangle p.2) := by
  unfold element mangleMsg
  cases sm.structuredData with
  | none => rfl
  | some sd => exact find_map sd _ id

theorem param_mangle (sm : SyslogMessage) (id name : Bytes) : param (mangleMsg sm) id name = (param sm id name).map mangle := by
  unfold param
  rw [element_mangle]
  cases element sm id with
  | none => rfl
  | some ps => exact find_map ps _ name

theorem built_values {sm : SyslogMessage} (h : Built sm) {id name v : Bytes} (hp : param sm id name = some v) : Utf8 v := by
  unfold param at hp
  rw [← element_getD] at hp
  obtain ⟨ps, h1, h2⟩ := Option.bind_eq_some_iff.mp hp
  exact ((h.getD.2 _ (SMap.mem_of_find h1)).2.2 _ (SMap.mem_of_find h2)).2

theorem built_mangled {sm : SyslogMessage} (h : Built sm) : ValuesMangled sm (mangleMsg sm) := by
  refine ⟨rfl, fun id => ?_, fun id name => ?_, fun id name v hv => ?_⟩
  · rw [element_mangle]; cases element sm id <;> rfl
  · rw [param_mangle]; cases param sm id name <;> rfl
  · exact ⟨mangle v, mangled_mangle (built_values h hv), by rw [param_mangle, hv]; rfl⟩

theorem mangleMsg_eq_iff {sm : SyslogMessage} (h : Built sm) :
    mangleMsg sm = sm ↔ ∀ id name v, param sm id name = some v → Stable v := by
  constructor
  · intro he id name v hv
    have := param_mangle sm id name
    rw [he, hv, Option.map_some, Option.some.injEq] at this
    exact stable_of_mangle (built_values h hv) this.symm
  · intro hst
    have hp : ∀ id name v, param sm id name = some v → mangle v = v := fun id name v hv => mangle_stable_of (hst id name v hv)
    unfold mangleMsg
    have : sm.structuredData.map mangleSD = sm.structuredData := by
      cases hs : sm.structuredData with
      | none => rfl
      | some sd =>
        have hok := (h.sd sd hs).2
        rw [Option.map_some]
        congr 1
        rw [mangleSD]
        conv => rhs; rw [← List.map_id sd]
        apply List.map_congr_left
        intro e he
        obtain ⟨id, ps⟩ := e
        have hpsort := (hok.2 _ he).2.1
        have hel : element sm id = some ps := by
          unfold element; rw [hs]; exact SMap.find_of_mem hok.1 he
        simp only [id_eq, Prod.mk.injEq, true_and]
        conv => rhs; rw [← List.map_id ps]
        apply List.map_congr_left
        intro p hpm
        obtain ⟨name, v⟩ := p
        simp only [id_eq, Prod.mk.injEq, true_and]
        exact hp id name v (by rw [param, hel]; exact SMap.find_of_mem hpsort hpm)
    rw [this]

theorem IterationOrder.inner_perm {sm : SyslogMessage} {outer : List Bytes} {inner : Bytes → List Bytes} (h : IterationOrder sm outer inner) :
    ∀ id ps, (sm.structuredData.getD []).find id = some ps → (inner id).Perm (keys ps) :=
  fun id ps hf => h.2 id ps (by rw [← element_getD]; exact hf)

/-- parsing the text of a built message -/
theorem parse_string {sm : SyslogMessage} (h : Built sm) (hv : sm.valid = true) {outer : List Bytes} {inner : Bytes → List Bytes}
    (ho : IterationOrder sm outer inner) (be co : Bool) (hco : co = true → ∀ w, sm.message = some w → MsgCompliant w) :
    ∃ text, stringWith outer inner sm = some text ∧ parse1 ⟨be, co⟩ text = some ⟨some (mangleMsg sm), none⟩ := by
  obtain ⟨p, h1, h2, h3, h4, -⟩ := string_built h hv ho.1 ho.inner_perm
  refine ⟨_, h2, ?_⟩
  rw [Rfc5424.parse1_eq, Rfc5424.descend_iff.mpr ⟨p, h1, fun w hw hc => hco hc w (h4.symm.trans hw), rfl, rfl⟩]
  simp only [Rfc5424.resultOf, Rfc5424.export_outOf h1, h3]

/-- C26: no sequence of setter calls on a new message panics, and if the message is then valid, `String` gives a text
that the parser accepts (strict or best effort, whatever the iteration order of the maps and the package
variables). -/
theorem C26_built_messages_parse (calls : List Call) (g : Globals) :
    ∃ m g', runCalls calls ({}, g) = some (m, g') ∧
      (m.valid = true → ∀ outer inner, IterationOrder m outer inner → ∀ be,
        ∃ text, stringWith outer inner m = some text ∧ ∃ m', parse1 ⟨be, false⟩ text = some ⟨some m', none⟩) := by
  obtain ⟨m, g', h1, hb⟩ := runCalls_built calls {} g built_empty
  refine ⟨m, g', h1, fun hv outer inner ho be => ?_⟩
  obtain ⟨text, h2, h3⟩ := parse_string hb hv ho be false (by simp)
  exact ⟨text, h2, _, h3⟩

/-- C26: with the compliant-message option this needs the message to satisfy it. -/
theorem C26_built_messages_parse_compliant (calls : List Call) (g : Globals) (m : SyslogMessage) (g' : Globals)
    (h : runCalls calls ({}, g) = some (m, g')) (hv : m.valid = true) (hm : ∀ w, m.message = some w → MsgCompliant w)
    (outer : List Bytes) (inner : Bytes → List Bytes) (ho : IterationOrder m outer inner) (be : Bool) :
    ∃ text, stringWith outer inner m = some text ∧ ∃ m', parse1 ⟨be, true⟩ text = some ⟨some m', none⟩ := by
  obtain ⟨m2, g2, h1, hb⟩ := runCalls_built calls {} g built_empty
  rw [h, Option.some.injEq, Prod.mk.injEq] at h1
  obtain ⟨rfl, rfl⟩ := h1
  obtain ⟨text, h2, h3⟩ := parse_string hb hv ho be true (fun _ => hm)
  exact ⟨text, h2, _, h3⟩

/-- C27: a valid message built with US-ASCII parameter values is what parsing its text returns. -/
theorem C27_round_trip (calls : List Call) (g : Globals) (m : SyslogMessage) (g' : Globals)
    (h : runCalls calls ({}, g) = some (m, g')) (hv : m.valid = true) (ha : AsciiValues m)
    (outer : List Bytes) (inner : Bytes → List Bytes) (ho : IterationOrder m outer inner) (be : Bool) :
    ∃ text, stringWith outer inner m = some text ∧ parse1 ⟨be, false⟩ text = some ⟨some m, none⟩ := by
  obtain ⟨m2, g2, h1, hb⟩ := runCalls_built calls {} g built_empty
  rw [h, Option.some.injEq, Prod.mk.injEq] at h1
  obtain ⟨rfl, rfl⟩ := h1
  obtain ⟨text, h2, h3⟩ := parse_string hb hv ho be false (by simp)
  rw [(mangleMsg_eq_iff hb).mpr fun id name v hp => stable_ascii (ha id name v hp)] at h3
  exact ⟨text, h2, h3⟩

/-- the hypotheses of C26 and C27 are met: an escaped character, a repeated parameter, a refused value, a compliant message -/
def hello : List Call := [.priority 165, .version 1, .timestamp (ascii "2003-10-11T22:14:15.003Z"), .hostname (ascii "host"), .appname (ascii "no way"),
  .parameter (ascii "b") (ascii "y") (ascii "1"), .parameter (ascii "b") (ascii "y") (ascii "a\\]\\\"c"), .elementID (ascii "a"), .message (ascii "hi")]

/-- what the calls make -/
def helloMsg : SyslogMessage :=
  { priority := some 165, facility := some 20, severity := some 5, version := 1, timestamp := some ⟨2003, 10, 11, 22, 14, 15, 3000000, 0⟩,
    hostname := some (ascii "host"), message := some (ascii "hi"),
    structuredData := some [(ascii "a", []), (ascii "b", [(ascii "y", ascii "a]\"c")])] }

example : (runCalls hello ({}, {})).map (·.1) = some helloMsg ∧ helloMsg.valid = true ∧
    string helloMsg = some (ascii "<165>1 2003-10-11T22:14:15.003Z host - - - [a][b y=\"a\\]\\\"c\"] hi") :=
  ⟨by decide +kernel, by decide +kernel, by decide +kernel⟩

example : ∀ w, helloMsg.message = some w → MsgCompliant w := by
  intro w hw hb
  have : w = ascii "hi" := (Option.some.inj hw).symm
  subst this
  exact absurd hb (by decide)

/-- C28: in general, parsing the text returns the message with the parameter values mangled, and this is the message
itself exactly when all values consist of US-ASCII characters and `Ã`. -/
theorem C28_exact_boundary (calls : List Call) (g : Globals) (m : SyslogMessage) (g' : Globals)
    (h : runCalls calls ({}, g) = some (m, g')) (hv : m.valid = true)
    (outer : List Bytes) (inner : Bytes → List Bytes) (ho : IterationOrder m outer inner) (be : Bool) :
    ∃ text m', stringWith outer inner m = some text ∧ parse1 ⟨be, false⟩ text = some ⟨some m', none⟩ ∧ ValuesMangled m m' ∧
      (m' = m ↔ ∀ id name v, param m id name = some v → Stable v) := by
  obtain ⟨m2, g2, h1, hb⟩ := runCalls_built calls {} g built_empty
  rw [h, Option.some.injEq, Prod.mk.injEq] at h1
  obtain ⟨rfl, rfl⟩ := h1
  obtain ⟨text, h2, h3⟩ := parse_string hb hv ho be false (by simp)
  exact ⟨text, _, h2, h3, built_mangled hb, mangleMsg_eq_iff hb⟩

def cafe : List Call := [.priority 165, .version 1, .parameter (ascii "a") (ascii "x") [99, 97, 102, 0xC3, 0xA9]]

def cafeMsg (v : Bytes) : SyslogMessage :=
  { priority := some 165, facility := some 20, severity := some 5, version := 1,
    structuredData := some [(ascii "a", [(ascii "x", v)])] }

/-- C28: there are calls after which the message is valid and its text parses to another message: `é` becomes `Ã`. -/
theorem C28_counterexample :
    ∃ m g text m', runCalls cafe ({}, {}) = some (m, g) ∧ m.valid = true ∧ string m = some text ∧
      parse1 {} text = some ⟨some m', none⟩ ∧ param m (ascii "a") (ascii "x") = some [99, 97, 102, 0xC3, 0xA9] ∧
      param m' (ascii "a") (ascii "x") = some [99, 97, 102, 0xC3, 0x83] ∧ m' ≠ m := by
  refine ⟨cafeMsg [99, 97, 102, 0xC3, 0xA9], ⟨ascii "a", ascii "x"⟩, ascii "<165>1 - - - - - [a x=\"caf" ++ [0xC3, 0x83] ++ ascii "\"]",
    cafeMsg [99, 97, 102, 0xC3, 0x83], ?_, ?_, ?_, ?_, ?_, ?_, ?_⟩ <;> decide +kernel

/-! ## C29 -/

/-- C29: what the parser accepted can be printed and parsed again; the result is the same message when its parameter values
are US-ASCII, and in general the message with mangled values. -/
theorem C29_parse_string_parse (o : Rfc5424.Opts) (input : Bytes) (m : SyslogMessage) (h : parse1 o input = some ⟨some m, none⟩)
    (outer : List Bytes) (inner : Bytes → List Bytes) (ho : IterationOrder m outer inner) (be : Bool) :
    ∃ text m', stringWith outer inner m = some text ∧ parse1 ⟨be, false⟩ text = some ⟨some m', none⟩ ∧ ValuesMangled m m' ∧
      (AsciiValues m → m' = m) := by
  rw [Rfc5424.parse1_eq, Option.some.injEq, resultOf_ok] at h
  obtain ⟨out, h, rfl⟩ := h
  obtain ⟨p, h1, -, rfl, rfl⟩ := Rfc5424.descend_iff.mp h
  rw [Rfc5424.export_outOf h1] at *
  have hb := built_toMessage h1
  have hv : p.toMessage.valid = true := by
    rw [valid_iff]
    have hp := h1.pri
    have hver := h1.version
    refine ⟨⟨_, rfl, by rw [UInt8.toNat_ofNat']; omega⟩, ?_⟩
    simp only [Parts.toMessage, UInt16.toNat_ofNat']
    omega
  obtain ⟨text, h2, h3⟩ := parse_string hb hv ho be false (by simp)
  refine ⟨text, _, h2, h3, built_mangled hb, fun ha => ?_⟩
  exact (mangleMsg_eq_iff hb).mpr fun id name v hp => stable_ascii (ha id name v hp)

/-- the text may differ from the input (fraction digits, order of elements, repeated names) -/
example : ∃ m, parse1 {} (ascii "<1>1 2003-02-28T22:14:15.100+00:00 - - - - [b y=\"1\" y=\"2\"][a]") = some ⟨some m, none⟩ ∧
    string m = some (ascii "<1>1 2003-02-28T22:14:15.1Z - - - - [a][b y=\"2\"]") := ex_of (by decide +kernel)

end Verif.Props
