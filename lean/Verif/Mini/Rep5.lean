import Verif.Mini.Build5

/-!
# Facts about messages in memory: a world represents one message only; maps stay proper
-/

set_option linter.constructorNameAsVariable false
set_option linter.unusedSimpArgs false

namespace Verif.Mini
open Verif.Gen.Mini
open Verif.Builder (Globals Entry Call)
open Verif.Rfc5424 (SyslogMessage)

variable {E : Type}

/-! ## A world represents one message only -/

theorem Points.uniq {α : Type} {w : W E} {own : Nat} {v : Val} {enc : α → Val} (hi : ∀ x y, enc x = enc y → x = y) {o o' : Option α} (h : Points w own v enc o) (h' : Points w own v enc o') : o = o' := by
  cases o with
  | none =>
    obtain rfl : v = .nil := h
    cases o' with
    | none => rfl
    | some y => obtain ⟨a, p, q, _⟩ := h'; cases q
  | some x =>
    obtain ⟨a, p, rfl, _, _, q⟩ := h
    cases o' with
    | none => cases h'
    | some y =>
      obtain ⟨a', p', e, _, _, q'⟩ := h'
      injection e with e1 e2
      subst e1; subst e2
      rw [q] at q'
      rw [hi _ _ (Option.some.inj q')]

theorem FieldAt.uniq {α : Type} {w : W E} {own : Nat} {fs : List (Nm × Val)} {f : Nm} {enc : α → Val} (hi : ∀ x y, enc x = enc y → x = y) {o o' : Option α} (h : FieldAt w own fs f enc o)
    (h' : FieldAt w own fs f enc o') : o = o' := by
  obtain ⟨v, h1, h2⟩ := h
  obtain ⟨v', h1', h2'⟩ := h'
  rw [h1] at h1'
  obtain rfl := Option.some.inj h1'
  exact h2.uniq hi h2'

theorem byteVal_inj (x y : UInt8) (h : byteVal x = byteVal y) : x = y := by
  injection h with _ h
  exact UInt8.toNat_inj.mp (by omega)

theorem strVal_inj (x y : Bytes) (h : Val.str x = Val.str y) : x = y := by injection h

theorem timeVal_inj (x y : GoTime.Time) (h : timeVal x = timeVal y) : x = y := by
  injection h with h; injection h

theorem HasBase.uniq {w : W E} {a : Nat} {b b' : Base} (h : HasBase w a b) (h' : HasBase w a b') : b = b' := by
  obtain ⟨ty, fs, h1, _, f⟩ := h
  obtain ⟨ty', fs', h1', _, f'⟩ := h'
  rw [h1] at h1'
  injection h1' with e1 e2
  subst e1; subst e2
  have a1 := f.facility.uniq byteVal_inj f'.facility
  have a2 := f.severity.uniq byteVal_inj f'.severity
  have a3 := f.priority.uniq byteVal_inj f'.priority
  have a4 := f.timestamp.uniq timeVal_inj f'.timestamp
  have a5 := f.hostname.uniq strVal_inj f'.hostname
  have a6 := f.appname.uniq strVal_inj f'.appname
  have a7 := f.procID.uniq strVal_inj f'.procID
  have a8 := f.msgID.uniq strVal_inj f'.msgID
  have a9 := f.message.uniq strVal_inj f'.message
  cases b; cases b'
  simp_all

theorem ParamMap.uniq {w : W E} {own : Nat} {v : Val} {ps ps' : SMap Bytes} (h : ParamMap w own v ps) (h' : ParamMap w own v ps') : ps = ps' := by
  rcases h with ⟨rfl, rfl⟩ | ⟨c, rfl, _, _, hc⟩
  · rcases h' with ⟨_, rfl⟩ | ⟨c, h, _⟩
    · rfl
    · cases h
  · rcases h' with ⟨h, _⟩ | ⟨c', h, _, _, hc'⟩
    · cases h
    · injection h with h
      subst h
      rw [hc] at hc'
      injection hc' with e
      exact (List.map_inj_right (fun x y hxy => by
        obtain ⟨x1, x2⟩ := x
        obtain ⟨y1, y2⟩ := y
        simp only [Prod.mk.injEq, Val.str.injEq] at hxy
        simp [hxy])).mp e

theorem ElemEntries.uniq {w : W E} {own : Nat} : ∀ {m : List (Bytes × Val)} {sd sd' : Rfc5424.SD}, ElemEntries w own m sd → ElemEntries w own m sd' → sd = sd'
  | [], [], [], _, _ => rfl
  | e :: m, x :: sd, x' :: sd', h, h' => by
    have h1 : x.1 = x'.1 := h.1.symm.trans h'.1
    have h2 := h.2.1.uniq h'.2.1
    have h3 := h.2.2.uniq h'.2.2
    rw [h3, show x = x' from Prod.ext h1 h2]

theorem HasSD.uniq {w : W E} {a : Nat} {sd sd' : Option Rfc5424.SD} (h : HasSD w a sd) (h' : HasSD w a sd') : sd = sd' := by
  obtain ⟨ty, fs, v, h1, h2, h3⟩ := h
  obtain ⟨ty', fs', v', h1', h2', h3'⟩ := h'
  rw [h1] at h1'
  injection h1' with e1 e2
  subst e1; subst e2
  rw [h2] at h2'
  obtain rfl := Option.some.inj h2'
  cases sd with
  | none =>
    obtain rfl : v = .nil := h3
    cases sd' with
    | none => rfl
    | some sd' => obtain ⟨c, p, u, q, _⟩ := h3'; cases q
  | some sd =>
    obtain ⟨c, p, u, rfl, _, _, q1, q2⟩ := h3
    cases sd' with
    | none => cases h3'
    | some sd' =>
      obtain ⟨c', p', u', e, _, _, q1', q2'⟩ := h3'
      injection e with e1 e2
      subst e1; subst e2
      rw [q1] at q1'
      obtain rfl := Option.some.inj q1'
      rcases q2 with ⟨rfl, rfl⟩ | ⟨d, m, rfl, _, _, r1, r2⟩
      · rcases q2' with ⟨_, rfl⟩ | ⟨d, m, h, _⟩
        · rfl
        · cases h
      · rcases q2' with ⟨h, _⟩ | ⟨d', m', h, _, _, r1', r2'⟩
        · cases h
        · injection h with h
          subst h
          rw [r1] at r1'
          injection r1' with e
          subst e
          rw [r2.uniq r2']

theorem RepMsg.uniq {w : W E} {a : Nat} {m m' : SyslogMessage} (h : RepMsg w a m) (h' : RepMsg w a m') : m = m' := by
  have h1 := h.msg.base.uniq h'.msg.base
  have h3 := h.msg.sd.uniq h'.msg.sd
  have h2 : m.version = m'.version := by
    obtain ⟨ty, fs, q1, q2⟩ := h.msg.version
    obtain ⟨ty', fs', q1', q2'⟩ := h'.msg.version
    rw [q1] at q1'
    injection q1' with e1 e2
    subst e1; subst e2
    rw [q2] at q2'
    have := Option.some.inj q2'
    injection this with _ this
    exact UInt16.toNat_inj.mp (by omega)
  cases m; cases m'
  simp_all

theorem HasGlob.uniq {w : W E} {g g' : Globals} (h : HasGlob w g) (h' : HasGlob w g') : g = g' := by
  have h1 := h.1.symm.trans h'.1
  have h2 := h.2.symm.trans h'.2
  injection h1 with h1
  injection h2 with h2
  cases g; cases g'
  simp_all

theorem entryCode_inj {e e' : Entry} (h : entryCode e = entryCode e') : e = e' := by
  cases e <;> cases e' <;> first | rfl | (exfalso; revert h; decide)

/-! ## Maps -/

theorem sorted_put {m : SyslogMessage} (h : SdSorted m) {sd : Rfc5424.SD} (hsd : m.structuredData = some sd ∨ m.structuredData = none ∧ sd = []) {k : Bytes} {ps : SMap Bytes} (hps : SMap.Sorted ps) :
    SMap.Sorted (SMap.insert k ps sd) ∧ ∀ e ∈ SMap.insert k ps sd, SMap.Sorted e.2 := by
  have h1 : SMap.Sorted sd ∧ ∀ e ∈ sd, SMap.Sorted e.2 := by
    rcases hsd with hsd | ⟨_, rfl⟩
    · exact h sd hsd
    · exact ⟨trivial, fun e he => by cases he⟩
  refine ⟨SMap.sorted_insert h1.1, fun e he => ?_⟩
  rcases SMap.mem_insert he with rfl | he
  · exact hps
  · exact h1.2 e he

theorem find_sorted {m : SyslogMessage} (h : SdSorted m) {sd : Rfc5424.SD} (hsd : m.structuredData = some sd) {k : Bytes} {ps : SMap Bytes} (hf : SMap.find k sd = some ps) : SMap.Sorted ps := by
  have h1 := (h sd hsd).2
  clear hsd h
  induction sd with
  | nil => cases hf
  | cons e sd ih =>
    by_cases hk : k = e.1
    · obtain rfl : e.2 = ps := by simpa [SMap.find, hk] using hf
      exact h1 e (by simp)
    · exact ih (by simpa [SMap.find, hk] using hf) fun x hx => h1 x (by simp [hx])

end Verif.Mini
