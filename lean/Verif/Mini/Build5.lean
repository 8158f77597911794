import Verif.Mini.Text5
import Verif.Builder.Set

/-!
# The setters of `SyslogMessage` (rfc5424/builder.go:9270-9349), run symbolically

`set` itself (rfc5424/builder.go:67-9265, generated by Ragel) is not written in this language: what it does is an assumption here (`SetOk`), in the words of
`Builder.set`, which is about the generated code elsewhere.
-/

set_option linter.constructorNameAsVariable false
set_option linter.unusedSimpArgs false

namespace Verif.Mini
open Verif.Gen.Mini
open Verif.Builder (Globals Entry Call)
open Verif.Rfc5424 (SyslogMessage)

variable {E : Type}

/-- the map of the structured data and the maps of its elements exist, and no two elements have the same map -/
def Shape (w : W E) (a : Nat) : Prop :=
  ∀ ty fs c p, w.heap a = .struct ty fs → fs.lookup .StructuredData = some (.ptr c p) →
    ∃ c' m, (w.heap c).getPath p = some (.map c') ∧ w.heap c' = .entries m ∧ (m.map Prod.snd).Nodup ∧ ∀ e ∈ m, ∃ d, e.2 = .map d

/-- the maps of a message have each key once (and are listed by key, as all maps of the model) -/
def SdSorted (m : SyslogMessage) : Prop := ∀ sd, m.structuredData = some sd → SMap.Sorted sd ∧ ∀ e ∈ sd, SMap.Sorted e.2

/-- the struct in the variable `a` represents the message `m` -/
structure RepMsg (w : W E) (a : Nat) (m : SyslogMessage) : Prop where
  msg : HasMsg5 w a m
  shape : Shape w a
  sorted : SdSorted m

/-- the package variables `currentid` and `currentparamname` (rfc5424/builder.go:64-65) -/
def HasGlob (w : W E) (g : Globals) : Prop := w.glob .currentid = .str g.currentid ∧ w.glob .currentparamname = .str g.currentparamname

/-- the map of the structured data is the same map, if there was one and there is one -/
def SameMap (w w' : W E) (a : Nat) : Prop :=
  ∀ ty fs c p c' ty' fs' v, w.heap a = .struct ty fs → fs.lookup .StructuredData = some (.ptr c p) → (w.heap c).getPath p = some (.map c') →
    w'.heap a = .struct ty' fs' → fs'.lookup .StructuredData = some v → v = .nil ∨ v = .ptr c p ∧ (w'.heap c).getPath p = some (.map c')

/-- The variables that belong to the message in the variable `a`: the struct, the map of its structured data, the maps of its elements. (Not the variables that
its other fields point to: they are not written to.) -/
def Owns (w : W E) (a x : Nat) : Prop :=
  x = a ∨ ∃ ty fs c p c' mm, w.heap a = .struct ty fs ∧ fs.lookup .StructuredData = some (.ptr c p) ∧ (w.heap c).getPath p = some (.map c') ∧ w.heap c' = .entries mm ∧
    (x = c' ∨ ∃ k, (k, Val.map x) ∈ mm)

/-- the structured data, if there are any, are still the same map -/
def KeepsMap (w w' : W E) (a : Nat) : Prop :=
  ∀ ty fs c p c', w.heap a = .struct ty fs → fs.lookup .StructuredData = some (.ptr c p) → (w.heap c).getPath p = some (.map c') →
    ∃ ty' fs', w'.heap a = .struct ty' fs' ∧ fs'.lookup .StructuredData = some (.ptr c p) ∧ (w'.heap c).getPath p = some (.map c')

theorem KeepsMap.refl (w : W E) (a : Nat) : KeepsMap w w a := fun _ _ _ _ _ h1 h2 h3 => ⟨_, _, h1, h2, h3⟩

theorem KeepsMap.trans {w1 w2 w3 : W E} {a : Nat} (h : KeepsMap w1 w2 a) (h' : KeepsMap w2 w3 a) : KeepsMap w1 w3 a := by
  intro ty fs c p c' h1 h2 h3
  obtain ⟨ty', fs', q1, q2, q3⟩ := h ty fs c p c' h1 h2 h3
  exact h' ty' fs' c p c' q1 q2 q3

/-- From `w` to `w'` only variables of the message have changed, it owns nothing that it did not own, except new variables,
and its structured data are the same map as before, if there were any. -/
structure Frame0 (w w' : W E) (a : Nat) : Prop where
  next : w.next ≤ w'.next
  same : ∀ x, x < w.next → ¬ Owns w a x → w'.heap x = w.heap x
  owns : ∀ x, x < w.next → Owns w' a x → Owns w a x
  map : KeepsMap w w' a
  ext : w'.ext = w.ext

theorem Frame0.trans {w1 w2 w3 : W E} {a : Nat} (h : Frame0 w1 w2 a) (h' : Frame0 w2 w3 a) : Frame0 w1 w3 a where
  next := Nat.le_trans h.next h'.next
  same := fun x hx ho => (h'.same x (Nat.lt_of_lt_of_le hx h.next) (fun hc => ho (h.owns x hx hc))).trans (h.same x hx ho)
  owns := fun x hx ho => h.owns x hx (h'.owns x (Nat.lt_of_lt_of_le hx h.next) ho)
  map := h.map.trans h'.map
  ext := h'.ext.trans h.ext

/-- ... and its fields point where they pointed before, or to new variables -/
structure Frame (w w' : W E) (a : Nat) : Prop extends Frame0 w w' a where
  ptrs : ∀ ty' fs' f x p, w'.heap a = .struct ty' fs' → fs'.lookup f = some (.ptr x p) → x < w.next → ∃ ty fs p0, w.heap a = .struct ty fs ∧ fs.lookup f = some (.ptr x p0)

theorem Frame.refl (w : W E) (a : Nat) : Frame w w a where
  next := Nat.le_refl _
  same := fun _ _ _ => rfl
  owns := fun _ _ h => h
  map := KeepsMap.refl w a
  ext := rfl
  ptrs := fun _ _ _ _ _ h1 h2 _ => ⟨_, _, _, h1, h2⟩

theorem Frame.trans {w1 w2 w3 : W E} {a : Nat} (h : Frame w1 w2 a) (h' : Frame w2 w3 a) : Frame w1 w3 a where
  toFrame0 := h.toFrame0.trans h'.toFrame0
  ptrs := fun ty' fs' f x p h1 h2 hx => by
    obtain ⟨ty, fs, p0, g1, g2⟩ := h'.ptrs ty' fs' f x p h1 h2 (Nat.lt_of_lt_of_le hx h.next)
    exact h.ptrs ty fs f x p0 g1 g2 hx

/-- the package variables may change -/
theorem Frame.glob {w w' : W E} {a : Nat} (h : Frame w w' a) (gl : Nm → Val) : Frame w { w' with glob := gl } a := ⟨⟨h.next, h.same, h.owns, h.map, h.ext⟩, h.ptrs⟩

theorem Frame.glob' {w w' : W E} {a : Nat} {gl : Nm → Val} (h : Frame { w with glob := gl } w' a) : Frame w w' a := ⟨⟨h.next, h.same, h.owns, h.map, h.ext⟩, h.ptrs⟩

/-- the numbers of the entry points (rfc5424/builder.go:25-37) -/
def entryCode : Entry → Int
  | .timestamp => 0
  | .hostname => 1
  | .appname => 2
  | .procid => 3
  | .msgid => 4
  | .sdid => 5
  | .sdpn => 6
  | .sdpv => 7
  | .msg => 8

/-- What the generated function `set` does: what `Builder.set` says, and it returns its receiver. -/
def SetOk (ext : Nm → List Val → M E Val) : Prop :=
  ∀ (w : W E) (a : Nat) (m : SyslogMessage) (g : Globals) (e : Entry) (v : Bytes), RepMsg w a m → HasGlob w g →
    match Builder.set g e v m with
    | some m' => ∃ w', ext .rfc5424_SyslogMessage_set [.ptr a [], .int .int (entryCode e), .str v] w = some (.ok (.ptr a []) w') ∧ RepMsg w' a m' ∧ w'.glob = w.glob ∧ SameMap w w' a ∧ Frame w w' a
    | none => ∃ w', ext .rfc5424_SyslogMessage_set [.ptr a [], .int .int (entryCode e), .str v] w = some (.panic w')

/-- `translate` (rfc5424/builder.go:39-62) -/
theorem translate_call {X : Env0 E} (hp : X.prog = prog) (n : Nat) (e : Entry) (w : W E) :
    call X (n + 1) .rfc5424_entrypoint_translate [.int .int (entryCode e)] w = some (.ok (.int .int e.translate) w) := by
  rw [call_fn hp prog_rfc5424_entrypoint_translate]
  cases e <;> simp [rfc5424_entrypoint_translate, entryCode, Loc.set, Entry.translate]

variable {X : Env0 E}

theorem set_call (hp : X.prog = prog) (n : Nat) (args : List Val) : call X (n + 1) .rfc5424_SyslogMessage_set args = X.call .rfc5424_SyslogMessage_set args :=
  call_ext hp rfl n args

/-- the outcome of a setter that is called in `w` -/
def Sets (w : W E) (a : Nat) (r : Option (SyslogMessage × Globals)) (o : Option (Out E Val)) : Prop :=
  match r with
  | some (m, g) => ∃ w', o = some (.ok (.ptr a []) w') ∧ RepMsg w' a m ∧ HasGlob w' g ∧ Frame w w' a
  | none => ∃ w', o = some (.panic w')

/-- the setters that only call `set` -/
theorem simple_call (hp : X.prog = prog) (hs : SetOk X.call) (n : Nat) {f : Nm} (e : Entry)
    (hf : prog f = some ⟨[.sm, .value], (.ret (.call .rfc5424_SyslogMessage_set (.cons (.var .sm) (.cons (.lit (.int .int (entryCode e))) (.cons (.var .value) .unit)))))⟩)
    {w : W E} {a : Nat} {m : SyslogMessage} {g : Globals} (hr : RepMsg w a m) (hg : HasGlob w g) (v : Bytes) :
    Sets w a ((Builder.set g e v m).map (·, g)) (call X (n + 2) f [.ptr a [], .str v] w) := by
  rw [call_fn hp hf]
  have h := hs w a m g e v hr hg
  cases hb : Builder.set g e v m with
  | none =>
    simp only [hb] at h
    obtain ⟨w', h⟩ := h
    exact ⟨w', by simp [Loc.set, set_call hp, h]⟩
  | some m' =>
    simp only [hb] at h
    obtain ⟨w', h, h1, h2, _, h3⟩ := h
    exact ⟨w', by simp [Loc.set, set_call hp, h], h1, by rw [HasGlob, h2]; exact hg, h3⟩

/-- the cell that the pointer to the structured data points into -/
theorem HasSD.cell {w : W E} {a : Nat} {sd : Option Rfc5424.SD} (hm : HasSD w a sd) {ty : Nm} {fs : List (Nm × Val)} {c : Nat} {p : List Nm} (h1 : w.heap a = .struct ty fs)
    (h2 : fs.lookup .StructuredData = some (.ptr c p)) : c < w.next ∧ c ≠ a ∧ ∀ c', (w.heap c).getPath p = some (.map c') → c' < w.next ∧ c' ≠ a := by
  obtain ⟨ty2, fs2, v, r1, r2, r3⟩ := hm
  obtain ⟨rfl, rfl⟩ : ty = ty2 ∧ fs = fs2 := by rw [h1] at r1; injection r1 with q1 q2; exact ⟨q1, q2⟩
  rw [h2] at r2
  obtain rfl := Option.some.inj r2
  cases sd with
  | none => cases r3
  | some sd =>
    obtain ⟨c2, p2, u, s1, s2, s3, s4, s5⟩ := r3
    injection s1 with e1 e2
    subst e1; subst e2
    refine ⟨s2, s3, fun c' hc' => ?_⟩
    rw [hc'] at s4
    obtain rfl := Option.some.inj s4
    rcases s5 with ⟨s5, _⟩ | ⟨c3, m3, s5, s6, s7, _⟩
    · cases s5
    · injection s5 with s5
      subst s5
      exact ⟨s6, s7⟩

/-- only the struct changes, and not its structured data -/
theorem Frame0.struct {w w' : W E} {a : Nat} {sd : Option Rfc5424.SD} (hm : HasSD w a sd) (hk : KeepsBut a w w') {ty : Nm} {fs fs' : List (Nm × Val)} (h1 : w.heap a = .struct ty fs)
    (h2 : w'.heap a = .struct ty fs') (h3 : fs'.lookup .StructuredData = fs.lookup .StructuredData) : Frame0 w w' a where
  next := hk.2.1
  same := fun x hx ho => hk.1 x hx (fun hc => ho (Or.inl hc))
  owns := by
    intro x hx ho
    rcases ho with rfl | ⟨ty4, fs4, c, p, c', mm, g1, g2, g3, g4, g5⟩
    · exact Or.inl rfl
    · obtain ⟨rfl, rfl⟩ : ty = ty4 ∧ fs' = fs4 := by rw [h2] at g1; injection g1 with q1 q2; exact ⟨q1, q2⟩
      rw [h3] at g2
      obtain ⟨k1, k2, k3⟩ := hm.cell h1 g2
      rw [hk.1 c k1 k2] at g3
      obtain ⟨k4, k5⟩ := k3 c' g3
      rw [hk.1 c' k4 k5] at g4
      exact Or.inr ⟨_, _, c, p, c', mm, h1, g2, g3, g4, g5⟩
  map := by
    intro ty4 fs4 c p c' g1 g2 g3
    obtain ⟨rfl, rfl⟩ : ty = ty4 ∧ fs = fs4 := by rw [h1] at g1; injection g1 with q1 q2; exact ⟨q1, q2⟩
    obtain ⟨k1, k2, k3⟩ := hm.cell h1 g2
    exact ⟨_, _, h2, by rw [h3]; exact g2, by rw [hk.1 c k1 k2]; exact g3⟩
  ext := hk.2.2.2

/-- … and its pointers are as before, or to new variables -/
theorem Frame.struct {w w' : W E} {a : Nat} {sd : Option Rfc5424.SD} (hm : HasSD w a sd) (hk : KeepsBut a w w') {ty : Nm} {fs fs' : List (Nm × Val)} (h1 : w.heap a = .struct ty fs)
    (h2 : w'.heap a = .struct ty fs') (h3 : fs'.lookup .StructuredData = fs.lookup .StructuredData)
    (h4 : ∀ f x p, fs'.lookup f = some (.ptr x p) → x < w.next → ∃ p0, fs.lookup f = some (.ptr x p0)) : Frame w w' a where
  toFrame0 := Frame0.struct hm hk h1 h2 h3
  ptrs := by
    intro ty4 fs4 f x p g1 g2 hx
    obtain ⟨rfl, rfl⟩ : ty = ty4 ∧ fs' = fs4 := by rw [h2] at g1; injection g1 with q1 q2; exact ⟨q1, q2⟩
    obtain ⟨p0, g3⟩ := h4 f x p g2 hx
    exact ⟨_, _, p0, h1, g3⟩

/-- a field that is set -/
theorem lookup_put {fs : List (Nm × Val)} {f g : Nm} {v : Val} {c : Nat} {p : List Nm} (h : List.lookup g (setField fs f v) = some (.ptr c p)) : v = .ptr c p ∨ List.lookup g fs = some (.ptr c p) := by
  rw [lookup_setField] at h
  by_cases hg : g = f
  · rw [if_pos hg] at h
    cases hl : List.lookup g fs with
    | none => rw [hl] at h; cases h
    | some u =>
      rw [hl] at h
      have h : u.coerce v = .ptr c p := Option.some.inj h
      unfold Val.coerce at h
      split at h
      · cases h
      · exact Or.inl h
  · rw [if_neg hg] at h; exact Or.inr h

theorem HasSD.put {w w' : W E} {a : Nat} {sd : Option Rfc5424.SD} (h : HasSD w a sd) (hk : KeepsBut a w w') {ty : Nm} {fs fs' : List (Nm × Val)} (h1 : w.heap a = .struct ty fs)
    (h2 : w'.heap a = .struct ty fs') (h3 : fs'.lookup .StructuredData = fs.lookup .StructuredData) : HasSD w' a sd := by
  obtain ⟨ty1, fs1, v, g1, g2, g3⟩ := h
  obtain ⟨rfl, rfl⟩ : ty1 = ty ∧ fs1 = fs := by rw [h1] at g1; injection g1 with q1 q2; exact ⟨q1.symm, q2.symm⟩
  refine ⟨_, fs', v, h2, by rw [h3, g2], ?_⟩
  cases sd with
  | none => exact g3
  | some sd =>
    obtain ⟨c, p, u, q1, q2, q3, q4, q5⟩ := g3
    exact ⟨c, p, u, q1, by have := hk.2.1; omega, q3, by rw [hk.1 c q2 q3]; exact q4, q5.keep hk⟩

theorem Shape.put {w w' : W E} {a : Nat} {sd : Option Rfc5424.SD} (hm : HasSD w a sd) (h : Shape w a) (hk : KeepsBut a w w') {ty : Nm} {fs fs' : List (Nm × Val)} (h1 : w.heap a = .struct ty fs)
    (h2 : w'.heap a = .struct ty fs') (h3 : fs'.lookup .StructuredData = fs.lookup .StructuredData) : Shape w' a := by
  intro ty1 fs1 c p g1 g2
  obtain ⟨rfl, rfl⟩ : ty1 = ty ∧ fs1 = fs' := by rw [h2] at g1; injection g1 with q1 q2; exact ⟨q1.symm, q2.symm⟩
  rw [h3] at g2
  obtain ⟨c', m, q1, q2, q3, q4⟩ := h _ _ c p h1 g2
  obtain ⟨ty2, fs2, v, r1, r2, r3⟩ := hm
  obtain ⟨rfl, rfl⟩ : ty2 = _ ∧ fs2 = _ := by rw [h1] at r1; injection r1 with q1 q2; exact ⟨q1.symm, q2.symm⟩
  rw [g2] at r2
  obtain rfl := Option.some.inj r2
  cases sd with
  | none => cases r3
  | some sd =>
    obtain ⟨c2, p2, u, s1, s2, s3, s4, s5⟩ := r3
    injection s1 with e1 e2
    subst e1; subst e2
    rw [q1] at s4
    obtain rfl := Option.some.inj s4
    rcases s5 with ⟨s5, _⟩ | ⟨c3, m3, s5, s6, s7, _⟩
    · cases s5
    · injection s5 with s5
      subst s5
      exact ⟨c', m, by rw [hk.1 c s2 s3]; exact q1, by rw [hk.1 c' s6 s7]; exact q2, q3, q4⟩

/-- `SetPriority` (rfc5424/builder.go:9270-9276) -/
theorem setPriority_call (hp : X.prog = prog) (n : Nat) {w : W E} {a : Nat} {m : SyslogMessage} {g : Globals} (hr : RepMsg w a m) (hg : HasGlob w g) (v : UInt8) :
    Sets w a (some (Builder.setPriority m v, g)) (call X (n + 3) .rfc5424_SyslogMessage_SetPriority [.ptr a [], byteVal v] w) := by
  rw [call_fn hp prog_rfc5424_SyslogMessage_SetPriority]
  unfold Builder.setPriority
  cases hv : Common.validPriority v with
  | false =>
    exact ⟨w, by simp [rfc5424_SyslogMessage_SetPriority, Loc.set, validPriority_call hp, hv], by simpa using hr, hg, Frame.refl w a⟩
  | true =>
    obtain ⟨w', ty, fs, c, hc, e1, h1, h2, hk, hb⟩ := computeFromPriority_call hp (n + 1) a m.toBase v w hr.msg.base
    have h3 : ∀ f, f ≠ .Priority → f ≠ .Facility → f ≠ .Severity → List.lookup f (setField (setField (setField fs .Priority (.ptr c [])) .Facility (.ptr (c + 1) [])) .Severity (.ptr (c + 2) [])) = List.lookup f fs := by
      intro f f1 f2 f3
      rw [lookup_setField, if_neg f3, lookup_setField, if_neg f2, lookup_setField, if_neg f1]
    obtain ⟨ty', fs', v1, v2⟩ := hr.msg.version
    obtain ⟨rfl, rfl⟩ : ty' = ty ∧ fs' = fs := by rw [h1] at v1; injection v1 with q1 q2; exact ⟨q1.symm, q2.symm⟩
    refine ⟨w', by simp [rfc5424_SyslogMessage_SetPriority, Loc.set, validPriority_call hp, hv, e1], ⟨⟨by simpa using hb, ⟨_, _, h2, ?_⟩, ?_⟩, ?_, by simpa [SdSorted] using hr.sorted⟩, ?_⟩
    · rw [h3 _ (by decide) (by decide) (by decide), v2]; simp
    · have := hr.msg.sd.put hk h1 h2 (h3 _ (by decide) (by decide) (by decide))
      simpa using this
    · exact Shape.put hr.msg.sd hr.shape hk h1 h2 (h3 _ (by decide) (by decide) (by decide))
    · exact ⟨by rw [HasGlob, hk.2.2.1]; exact hg, Frame.struct hr.msg.sd hk h1 h2 (h3 _ (by decide) (by decide) (by decide)) fun f x p hf hx => by
        rcases lookup_put hf with h | hf
        · injection h with h; omega
        rcases lookup_put hf with h | hf
        · injection h with h; omega
        rcases lookup_put hf with h | hf
        · injection h with h; omega
        exact ⟨p, hf⟩⟩

/-- `SetVersion` (rfc5424/builder.go:9281-9287) -/
theorem setVersion_call (hp : X.prog = prog) (n : Nat) {w : W E} {a : Nat} {m : SyslogMessage} {g : Globals} (hr : RepMsg w a m) (hg : HasGlob w g) (v : UInt16) :
    Sets w a (some (Builder.setVersion m v, g)) (call X (n + 3) .rfc5424_SyslogMessage_SetVersion [.ptr a [], .int .u16 v.toNat] w) := by
  rw [call_fn hp prog_rfc5424_SyslogMessage_SetVersion]
  unfold Builder.setVersion
  cases hv : Common.validVersion v with
  | false =>
    exact ⟨w, by simp [rfc5424_SyslogMessage_SetVersion, Loc.set, validVersion_call hp, hv], by simpa using hr, hg, Frame.refl w a⟩
  | true =>
    obtain ⟨ty, fs, v1, v2⟩ := hr.msg.version
    have st := store_field v1 v2 (.int .u16 v.toNat)
    obtain ⟨w', hw'⟩ : ∃ x : W E, x = { w with heap := upd w.heap a (.struct ty (setField fs .Version ((Val.int .u16 m.version.toNat).coerce (.int .u16 v.toNat)))) } := ⟨_, rfl⟩
    rw [← hw'] at st
    have hk : KeepsBut a w w' := by rw [hw']; exact KeepsBut.upd w a _
    have h2 : w'.heap a = .struct ty (setField fs .Version (.int .u16 v.toNat)) := by rw [hw']; exact upd_same _ _ _
    have h3 : ∀ f, f ≠ .Version → List.lookup f (setField fs .Version (.int .u16 v.toNat)) = List.lookup f fs := by
      intro f f1
      rw [lookup_setField, if_neg f1]
    obtain ⟨ty', fs', b1, b2, b3⟩ := hr.msg.base
    obtain ⟨rfl, rfl⟩ : ty' = ty ∧ fs' = fs := by rw [v1] at b1; injection b1 with q1 q2; exact ⟨q1.symm, q2.symm⟩
    have b4 := b3.keep hk
    refine ⟨w', by simp [rfc5424_SyslogMessage_SetVersion, Loc.set, validVersion_call hp, hv, st], ⟨⟨?_, ⟨_, _, h2, ?_⟩, ?_⟩, ?_, by simpa [SdSorted] using hr.sorted⟩, ?_⟩
    · refine ⟨_, _, h2, by have := hk.2.1; omega, ?_⟩
      simp only [if_true]
      exact ⟨b4.facility.set _ _ (by decide), b4.severity.set _ _ (by decide), b4.priority.set _ _ (by decide), b4.timestamp.set _ _ (by decide), b4.hostname.set _ _ (by decide),
        b4.appname.set _ _ (by decide), b4.procID.set _ _ (by decide), b4.msgID.set _ _ (by decide), b4.message.set _ _ (by decide)⟩
    · rw [lookup_setField, if_pos rfl, v2]; simp
    · have := hr.msg.sd.put hk v1 h2 (h3 _ (by decide))
      simpa using this
    · exact Shape.put hr.msg.sd hr.shape hk v1 h2 (h3 _ (by decide))
    · exact ⟨by rw [HasGlob, hk.2.2.1]; exact hg, Frame.struct hr.msg.sd hk v1 h2 (h3 _ (by decide)) fun f x p hf _ => by
        rcases lookup_put hf with h | hf
        · cases h
        exact ⟨p, hf⟩⟩

theorem rep_sd {w : W E} {a : Nat} {m : SyslogMessage} {sd : Rfc5424.SD} (hr : RepMsg w a m) (h : m.structuredData = some sd) :
    ∃ ty fs c p c' mm, w.heap a = .struct ty fs ∧ fs.lookup .StructuredData = some (.ptr c p) ∧ (w.heap c).getPath p = some (.map c') ∧ w.heap c' = .entries mm ∧ ElemEntries w a mm sd := by
  obtain ⟨ty, fs, v, h1, h2, h3⟩ := hr.msg.sd
  rw [h] at h3
  obtain ⟨c, p, u, rfl, _, _, h4, h5⟩ := h3
  obtain ⟨c', mm, q1, q2, _⟩ := hr.shape _ _ c p h1 h2
  rw [h4] at q1
  obtain rfl := Option.some.inj q1
  rcases h5 with ⟨h5, _⟩ | ⟨c2, m2, h5, _, _, h6, h7⟩
  · cases h5
  · injection h5 with h5
    subst h5
    exact ⟨ty, fs, c, p, c', m2, h1, h2, h4, h6, h7⟩

theorem entries_find_none {w : W E} {own : Nat} {k : Bytes} :
    ∀ {m : List (Bytes × Val)} {sd : Rfc5424.SD}, ElemEntries w own m sd → SMap.find k sd = none → SMap.find k m = none
  | [], [], _, _ => rfl
  | e :: m, x :: sd, h, hf => by
    by_cases hk : k = x.1
    · simp [SMap.find, hk] at hf
    · have := entries_find_none h.2.2 (by simpa [SMap.find, hk] using hf)
      simp [SMap.find, h.1, hk, this]

/-- the package variables may change -/
theorem RepMsg.glob {w : W E} {a : Nat} {m : SyslogMessage} (h : RepMsg w a m) (gl : Nm → Val) : RepMsg { w with glob := gl } a m := by
  obtain ⟨ty, fs, h1, h2, b⟩ := h.msg.base
  have pm : ∀ v ps, ParamMap w a v ps → ParamMap { w with glob := gl } a v ps := fun v ps h => h
  have ee : ∀ mm sd, ElemEntries w a mm sd → ElemEntries { w with glob := gl } a mm sd := by
    intro mm
    induction mm with
    | nil => intro sd h; cases sd <;> exact h
    | cons e mm ih => intro sd h; cases sd with
      | nil => exact h
      | cons x sd => exact ⟨h.1, pm _ _ h.2.1, ih _ h.2.2⟩
  refine ⟨⟨⟨ty, fs, h1, h2, ⟨b.facility, b.severity, b.priority, b.timestamp, b.hostname, b.appname, b.procID, b.msgID, b.message⟩⟩, h.msg.version, ?_⟩, h.shape, h.sorted⟩
  obtain ⟨ty, fs, v, h1, h2, h3⟩ := h.msg.sd
  refine ⟨ty, fs, v, h1, h2, ?_⟩
  cases hs : m.structuredData with
  | none => rw [hs] at h3; exact h3
  | some sd =>
    rw [hs] at h3
    obtain ⟨c, p, u, q1, q2, q3, q4, q5⟩ := h3
    refine ⟨c, p, u, q1, q2, q3, q4, ?_⟩
    rcases q5 with q5 | ⟨c', mm, r1, r2, r3, r4, r5⟩
    · exact Or.inl q5
    · exact Or.inr ⟨c', mm, r1, r2, r3, r4, ee _ _ r5⟩

theorem param_index {w : W E} {own : Nat} {v : Val} {ps : SMap Bytes} (h : ParamMap w own v ps) (k : Bytes) :
    ∃ u, (indexOkVal v (.str k) : M E Val) w = some (.ok (.tuple [u, .bool (ps.find k).isSome]) w) := by
  rcases h with ⟨rfl, rfl⟩ | ⟨c, rfl, _, _, hc⟩
  · exact ⟨.nil, rfl⟩
  · rw [indexOk_map, hc]
    cases hf : ps.find k with
    | none => exact ⟨.nil, by simp [find_map, hf]⟩
    | some b => exact ⟨.str b, by simp [find_map, hf]⟩

theorem multi_two {calls : Nm → List Val → M E Val} {l : Loc} {w w' : W E} {e : Expr} {u v : Val} (x : Nm) (h : eval X calls l e w = some (.ok (.tuple [u, v]) w')) :
    exec X calls (.multi [none, some x] e) l w = some (.ok (.next, l.set x v) w') := by
  simp [h, assignAll, bindOpt]

theorem setGlob_var {calls : Nm → List Val → M E Val} {l : Loc} {w : W E} {y : Nm} {v : Val} (h : l y = v) (x : Nm) :
    exec X calls (.setGlob x (.var y)) l w = some (.ok (.next, l) { w with glob := fun z => if z = x then (w.glob z).coerce v else w.glob z }) := by
  subst h; rfl

/-- the inner part of `SetParameter` (rfc5424/builder.go:9333-9340) -/
def innerStmt : Stmt :=
  (.seq (.setGlob .currentid (.var .id)) <|
      .seq (.expr (.call .rfc5424_SyslogMessage_set (.cons (.var .sm) (.cons (.lit (.int .int 6)) (.cons (.var .name) .unit))))) <|
      .seq (.multi [none, some .ok_2] (.indexOk (.index (.var .elements) (.var .id)) (.var .name))) <|
      .ifs (.var .ok_2) (.seq (.setGlob .currentparamname (.var .name)) <|
        .expr (.call .rfc5424_SyslogMessage_set (.cons (.var .sm) (.cons (.lit (.int .int 7)) (.cons (.var .value) .unit))))) .skip)

/-- what it computes -/
def inner (g : Globals) (id name value : Bytes) (sm1 : SyslogMessage) : Option (SyslogMessage × Globals) :=
  match Builder.set { g with currentid := id } .sdpn name sm1 with
  | none => none
  | some sm2 =>
    if Builder.hasParam id name sm2 then
      match Builder.set { currentid := id, currentparamname := name } .sdpv value sm2 with
      | none => none
      | some sm3 => some (sm3, { currentid := id, currentparamname := name })
    else some (sm2, { g with currentid := id })

theorem HasGlob.id {w : W E} {g : Globals} (h : HasGlob w g) (id : Bytes) :
    HasGlob { w with glob := fun y => if y = .currentid then (w.glob y).coerce (.str id) else w.glob y } { g with currentid := id } :=
  ⟨by simp, by simpa using h.2⟩

theorem HasGlob.name {w : W E} {g : Globals} (h : HasGlob w g) (name : Bytes) :
    HasGlob { w with glob := fun y => if y = .currentparamname then (w.glob y).coerce (.str name) else w.glob y } { g with currentparamname := name } :=
  ⟨by simpa using h.1, by simp⟩

theorem inner_exec (hp : X.prog = prog) (hs : SetOk X.call) (n : Nat) {w : W E} {a : Nat} {m : SyslogMessage} {g : Globals} (hr : RepMsg w a m) (hg : HasGlob w g) {sd : Rfc5424.SD} {ps : SMap Bytes}
    {id name value : Bytes} (hsd : m.structuredData = some sd) (hps : sd.find id = some ps) {l : Loc} {ty : Nm} {fs : List (Nm × Val)} {c c' : Nat} {p : List Nm}
    (h1 : w.heap a = .struct ty fs) (h2 : fs.lookup .StructuredData = some (.ptr c p)) (h3 : (w.heap c).getPath p = some (.map c'))
    (l1 : l .sm = .ptr a []) (l2 : l .id = .str id) (l3 : l .name = .str name) (l4 : l .value = .str value) (l5 : l .elements = .map c') :
    match inner g id name value m with
    | some (m', g') => ∃ l' w', exec X (call X (n + 1)) innerStmt l w = some (.ok (.next, l') w') ∧ l' .sm = .ptr a [] ∧ RepMsg w' a m' ∧ HasGlob w' g' ∧ Frame w w' a
    | none => ∃ w', exec X (call X (n + 1)) innerStmt l w = some (.panic w') := by
  obtain ⟨w1, hw1⟩ : ∃ x : W E, x = { w with glob := fun y => if y = .currentid then (w.glob y).coerce (.str id) else w.glob y } := ⟨_, rfl⟩
  have e1 : exec X (call X (n + 1)) (.setGlob .currentid (.var .id)) l w = some (.ok (.next, l) w1) := by rw [hw1]; exact setGlob_var l2 _
  have r1 : RepMsg w1 a m := by rw [hw1]; exact hr.glob _
  have g1 : HasGlob w1 { g with currentid := id } := by rw [hw1]; exact hg.id id
  have hw1h : w1.heap = w.heap := by rw [hw1]
  have hset := hs w1 a m _ .sdpn name r1 g1
  unfold inner
  cases hb : Builder.set { g with currentid := id } .sdpn name m with
  | none =>
    simp only [hb] at hset
    obtain ⟨w2, e2⟩ := hset
    refine ⟨w2, ?_⟩
    unfold innerStmt
    rw [seq_next e1]
    have e2' : X.call .rfc5424_SyslogMessage_set [.ptr a [], .int .int 6, .str name] w1 = some (.panic w2) := e2
    simp [l1, l3, set_call hp, e2']
  | some m2 =>
    simp only [hb] at hset
    obtain ⟨w2, e2, r2, gl2, sm2, fr2⟩ := hset
    have fr2 : Frame w w2 a := by rw [hw1] at fr2; exact fr2.glob'
    have g2 : HasGlob w2 { g with currentid := id } := by rw [HasGlob, gl2]; exact g1
    have e2' : exec X (call X (n + 1)) (.expr (.call .rfc5424_SyslogMessage_set (.cons (.var .sm) (.cons (.lit (.int .int 6)) (.cons (.var .name) .unit))))) l w1 = some (.ok (.next, l) w2) := by
      have e2' : X.call .rfc5424_SyslogMessage_set [.ptr a [], .int .int 6, .str name] w1 = some (.ok (.ptr a []) w2) := e2
      simp [l1, l3, set_call hp, e2']
    obtain ⟨sd2, ps2, hsd2, hps2⟩ : ∃ sd2 ps2, m2.structuredData = some sd2 ∧ SMap.find id sd2 = some ps2 := by
      have := Builder.set_sdpn (g := { g with currentid := id }) (w := name) hsd hps
      by_cases hwf : Spec.SdNameWF name
      · have h := this.1 hwf
        rw [hb] at h
        obtain rfl := Option.some.inj h
        exact ⟨_, _, rfl, SMap.find_insert_self _ _ _⟩
      · have h := this.2 hwf
        rw [hb] at h
        obtain rfl := Option.some.inj h
        exact ⟨sd, ps, hsd, hps⟩
    obtain ⟨ty2, fs2, c2, p2, c2', mm, q1, q2, q3, q4, q5⟩ := rep_sd r2 hsd2
    obtain ⟨rfl, rfl, rfl⟩ : c2 = c ∧ p2 = p ∧ c2' = c' := by
      rcases sm2 ty fs c p c' ty2 fs2 _ (by rw [hw1h]; exact h1) h2 (by rw [hw1h]; exact h3) q1 q2 with h | ⟨h, h'⟩
      · cases h
      · injection h with h h0
        subst h; subst h0
        rw [h'] at q3
        have := Option.some.inj q3
        injection this with this
        exact ⟨rfl, rfl, this.symm⟩
    obtain ⟨v, hv, hpm⟩ := entries_find q5 hps2
    obtain ⟨u, hu⟩ := param_index hpm name
    have e3 : exec X (call X (n + 1)) (.multi [none, some .ok_2] (.indexOk (.index (.var .elements) (.var .id)) (.var .name))) l w2 =
        some (.ok (.next, l.set .ok_2 (.bool (ps2.find name).isSome)) w2) := by
      refine multi_two (u := u) _ ?_
      simp [l5, l2, l3, index_map, q4, hv, hu]
    have hhas : Builder.hasParam id name m2 = (ps2.find name).isSome := by simp [Builder.hasParam, hsd2, hps2]
    simp only [hhas]
    cases hn : (ps2.find name).isSome with
    | false =>
      refine ⟨l.set .ok_2 (.bool false), w2, ?_, by simp [Loc.set, l1], r2, g2, fr2⟩
      unfold innerStmt
      rw [seq_next e1, seq_next e2', seq_next e3, hn]
      simp [Loc.set]
    | true =>
      obtain ⟨w3, hw3⟩ : ∃ x : W E, x = { w2 with glob := fun y => if y = .currentparamname then (w2.glob y).coerce (.str name) else w2.glob y } := ⟨_, rfl⟩
      have e4 : exec X (call X (n + 1)) (.setGlob .currentparamname (.var .name)) (l.set .ok_2 (.bool true)) w2 = some (.ok (.next, l.set .ok_2 (.bool true)) w3) := by
        rw [hw3]; exact setGlob_var (by simp [Loc.set, l3]) _
      have r3 : RepMsg w3 a m2 := by rw [hw3]; exact r2.glob _
      have g3 : HasGlob w3 { currentid := id, currentparamname := name } := by rw [hw3]; exact g2.name name
      have hset := hs w3 a m2 _ .sdpv value r3 g3
      have e5 : ∀ o, X.call .rfc5424_SyslogMessage_set [.ptr a [], .int .int (entryCode .sdpv), .str value] w3 = some o →
          exec X (call X (n + 1)) innerStmt l w = M.bind (fun _ => some o) (fun _ => M.pure (.next, l.set .ok_2 (.bool true))) w3 := by
        intro o ho
        have ho' : X.call .rfc5424_SyslogMessage_set [.ptr a [], .int .int 7, .str value] w3 = some o := ho
        unfold innerStmt
        rw [seq_next e1, seq_next e2', seq_next e3, hn]
        have : eval X (call X (n + 1)) (l.set .ok_2 (.bool true)) (.var .ok_2) w2 = some (.ok (.bool true) w2) := by simp [Loc.set]
        rw [exec_ifs]
        simp only [bind_apply, this, truth_bool, if_true]
        rw [seq_next e4]
        simp [Loc.set, l1, l4, set_call hp, ho']
        cases o <;> rfl
      cases hb3 : Builder.set { currentid := id, currentparamname := name } .sdpv value m2 with
      | none =>
        simp only [hb3] at hset
        obtain ⟨w4, e4'⟩ := hset
        exact ⟨w4, e5 _ e4'⟩
      | some m3 =>
        simp only [hb3] at hset
        obtain ⟨w4, e4', r4, gl4, _, fr4⟩ := hset
        have fr4 : Frame w2 w4 a := by rw [hw3] at fr4; exact fr4.glob'
        exact ⟨l.set .ok_2 (.bool true), w4, e5 _ e4', by simp [Loc.set, l1], r4, by rw [HasGlob, gl4]; exact g3, fr2.trans fr4⟩

/-- `SetParameter` (rfc5424/builder.go:9325-9344) -/
theorem setParameter_call (hp : X.prog = prog) (hs : SetOk X.call) (n : Nat) {w : W E} {a : Nat} {m : SyslogMessage} {g : Globals} (hr : RepMsg w a m) (hg : HasGlob w g) (id name value : Bytes) :
    Sets w a (Builder.setParameter g id name value m) (call X (n + 2) .rfc5424_SyslogMessage_SetParameter [.ptr a [], .str id, .str name, .str value] w) := by
  rw [call_fn hp prog_rfc5424_SyslogMessage_SetParameter]
  obtain ⟨l, hl⟩ : ∃ x : Loc, x = (((Loc.empty.set .value (.str value)).set .name (.str name)).set .id (.str id)).set .sm (.ptr a []) := ⟨_, rfl⟩
  have hpar : (M.of (params rfc5424_SyslogMessage_SetParameter.params [.ptr a [], .str id, .str name, .str value]) : M E Loc) w = some (.ok l w) := by rw [hl]; rfl
  have l1 : l .sm = .ptr a [] := by simp [hl, Loc.set]
  have l2 : l .id = .str id := by simp [hl, Loc.set]
  have l3 : l .name = .str name := by simp [hl, Loc.set]
  have l4 : l .value = .str value := by simp [hl, Loc.set]
  clear hl
  have hset := hs w a m g .sdid id hr hg
  unfold Builder.setParameter
  cases hb : Builder.set g .sdid id m with
  | none =>
    simp only [hb] at hset
    obtain ⟨w1, e1⟩ := hset
    have e1' : X.call .rfc5424_SyslogMessage_set [.ptr a [], .int .int 5, .str id] w = some (.panic w1) := e1
    refine ⟨w1, ?_⟩
    simp only [bind_apply, hpar]
    simp [rfc5424_SyslogMessage_SetParameter, l1, l2, set_call hp, e1']
  | some m1 =>
    simp only [hb] at hset
    obtain ⟨w1, e1, r1, gl1, _, fr1⟩ := hset
    have e1' : exec X (call X (n + 1)) (.expr (.call .rfc5424_SyslogMessage_set (.cons (.var .sm) (.cons (.lit (.int .int 5)) (.cons (.var .id) .unit))))) l w = some (.ok (.next, l) w1) := by
      have e1' : X.call .rfc5424_SyslogMessage_set [.ptr a [], .int .int 5, .str id] w = some (.ok (.ptr a []) w1) := e1
      simp [l1, l2, set_call hp, e1']
    have g1 : HasGlob w1 g := by rw [HasGlob, gl1]; exact hg
    have body : ∀ r : Option (Out E (Ctl × Loc)), exec X (call X (n + 1)) (.ifs (.bin .ne (.field (.var .sm) .StructuredData) (.lit .nil)) (.seq (.assign .elements (.deref (.field (.var .sm) .StructuredData))) <|
          .seq (.multi [none, some .ok] (.indexOk (.var .elements) (.var .id))) <| .ifs (.var .ok) innerStmt .skip) .skip) l w1 = r →
        exec X (call X (n + 1)) rfc5424_SyslogMessage_SetParameter.body l w = (match r with
          | none => none
          | some (.panic w') => some (.panic w')
          | some (.ok (.next, l') w') => some (.ok (.ret (l' .sm), l') w')
          | some (.ok (c, l') w') => some (.ok (c, l') w')) := by
      intro r h
      have : exec X (call X (n + 1)) rfc5424_SyslogMessage_SetParameter.body l w = M.bind (exec X (call X (n + 1)) (.ifs (.bin .ne (.field (.var .sm) .StructuredData) (.lit .nil)) (.seq (.assign .elements (.deref (.field (.var .sm) .StructuredData))) <|
          .seq (.multi [none, some .ok] (.indexOk (.var .elements) (.var .id))) <| .ifs (.var .ok) innerStmt .skip) .skip) l) (fun r => match r.1 with
          | .next => exec X (call X (n + 1)) (.ret (.var .sm)) r.2
          | c => M.pure (c, r.2)) w1 := by
        refine (seq_next e1').trans ?_
        rfl
      rw [this]
      simp only [bind_apply, h]
      rcases r with _ | ⟨⟨c, l'⟩, w'⟩ | w'
      · rfl
      · cases c <;> rfl
      · rfl
    cases hsd : m1.structuredData with
    | none =>
      have hno : Builder.hasElement id m1 = false := by simp [Builder.hasElement, hsd]
      simp only [hno]
      obtain ⟨ty, fs, v, h1, h2, h3⟩ := r1.msg.sd
      rw [hsd] at h3
      obtain rfl : v = .nil := h3
      refine ⟨w1, ?_, r1, g1, fr1⟩
      have hb := body (some (.ok (.next, l) w1)) (by simp [l1, h1, h2])
      simp only [bind_apply, hpar, hb, l1]
      rfl
    | some sd =>
      obtain ⟨ty, fs, c, p, c', mm, q1, q2, q3, q4, q5⟩ := rep_sd r1 hsd
      have hel : Builder.hasElement id m1 = (sd.find id).isSome := by simp [Builder.hasElement, hsd]
      obtain ⟨u, hu⟩ : ∃ u, (indexOkVal (.map c') (.str id) : M E Val) w1 = some (.ok (.tuple [u, .bool (sd.find id).isSome]) w1) := by
        rw [indexOk_map, q4]
        cases hf : sd.find id with
        | none => exact ⟨.nil, by simp [entries_find_none q5 hf]⟩
        | some ps => obtain ⟨v, hv, _⟩ := entries_find q5 hf; exact ⟨v, by simp [hv]⟩
      have hif : ∀ r, exec X (call X (n + 1)) (.ifs (.var .ok) innerStmt .skip) ((l.set .elements (.map c')).set .ok (.bool (sd.find id).isSome)) w1 = r →
          exec X (call X (n + 1)) (.ifs (.bin .ne (.field (.var .sm) .StructuredData) (.lit .nil)) (.seq (.assign .elements (.deref (.field (.var .sm) .StructuredData))) <|
          .seq (.multi [none, some .ok] (.indexOk (.var .elements) (.var .id))) <| .ifs (.var .ok) innerStmt .skip) .skip) l w1 = r := by
        intro r hr
        rw [exec_ifs]
        have ec : eval X (call X (n + 1)) l (.bin .ne (.field (.var .sm) .StructuredData) (.lit .nil)) w1 = some (.ok (.bool true) w1) := by simp [l1, q1, q2]
        have ea : exec X (call X (n + 1)) (.assign .elements (.deref (.field (.var .sm) .StructuredData))) l w1 = some (.ok (.next, l.set .elements (.map c')) w1) := by
          simp [l1, q1, q2, load_path q3]
        have em : exec X (call X (n + 1)) (.multi [none, some .ok] (.indexOk (.var .elements) (.var .id))) (l.set .elements (.map c')) w1 =
            some (.ok (.next, (l.set .elements (.map c')).set .ok (.bool (sd.find id).isSome)) w1) := by
          refine multi_two (u := u) _ ?_
          simp [Loc.set, l2, hu]
        simp only [bind_apply, ec, truth_bool, if_true]
        rw [seq_next ea, seq_next em, hr]
      simp only [hel]
      cases hf : sd.find id with
      | none =>
        refine ⟨w1, ?_, r1, g1, fr1⟩
        have hb := body _ (hif (some (.ok (.next, (l.set .elements (.map c')).set .ok (.bool false)) w1)) (by simp [hf, Loc.set]))
        simp only [bind_apply, hpar, hb]
        simp [Loc.set, l1]
      | some ps =>
        have hin := inner_exec (value := value) hp hs n r1 g1 hsd hf (l := (l.set .elements (.map c')).set .ok (.bool true)) (name := name) q1 q2 q3 (by simp [Loc.set, l1]) (by simp [Loc.set, l2]) (by simp [Loc.set, l3])
          (by simp [Loc.set, l4]) (by simp [Loc.set])
        have hstep : ∀ r, exec X (call X (n + 1)) innerStmt ((l.set .elements (.map c')).set .ok (.bool true)) w1 = r →
            exec X (call X (n + 1)) (.ifs (.var .ok) innerStmt .skip) ((l.set .elements (.map c')).set .ok (.bool (sd.find id).isSome)) w1 = r := by
          intro r hr
          rw [hf, exec_ifs]
          have ec : eval X (call X (n + 1)) ((l.set .elements (.map c')).set .ok (.bool (Option.isSome (some ps)))) (.var .ok) w1 = some (.ok (.bool true) w1) := by simp [Loc.set]
          simp only [bind_apply, ec, truth_bool, if_true]
          exact hr
        show Sets w a (inner g id name value m1) _
        cases hi : inner g id name value m1 with
        | none =>
          rw [hi] at hin
          obtain ⟨w2, e2⟩ := hin
          refine ⟨w2, ?_⟩
          have hb := body _ (hif _ (hstep _ e2))
          simp only [bind_apply, hpar, hb]
        | some r =>
          obtain ⟨m', g'⟩ := r
          rw [hi] at hin
          obtain ⟨l', w2, e2, s2, r2, g2, fr2⟩ := hin
          refine ⟨w2, ?_, r2, g2, fr1.trans fr2⟩
          have hb := body _ (hif _ (hstep _ e2))
          simp only [bind_apply, hpar, hb, s2]
          rfl

end Verif.Mini
