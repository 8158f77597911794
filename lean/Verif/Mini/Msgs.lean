import Verif.Mini.SetGo

/-!
# Messages in one memory

Several messages are in one memory. A chain of setters is called on one of them; what becomes of the others?
-/

set_option linter.constructorNameAsVariable false

namespace Verif.Mini
open Verif.Gen.Mini
open Verif.Builder (Globals Entry Call)
open Verif.Rfc5424 (SyslogMessage)

variable {E : Type}

/-- the fields of a message that are pointers (syslog.go:67-77, rfc5424/syslog_message.go:78-83) -/
def ptrFields : List Nm := [.Facility, .Severity, .Priority, .Timestamp, .Hostname, .Appname, .ProcID, .MsgID, .Message, .StructuredData]

/-- The variables that the message in the variable `b` depends on: the struct, the variables that its fields point to, the maps of its structured data. -/
def Reaches (w : W E) (b x : Nat) : Prop :=
  Owns w b x ∨ ∃ ty fs f p, f ∈ ptrFields ∧ w.heap b = .struct ty fs ∧ fs.lookup f = some (.ptr x p)

theorem FieldAt.reach {α : Type} {w w' : W E} {own : Nat} {fs : List (Nm × Val)} {f : Nm} {enc : α → Val} {x : Option α} (h : FieldAt w own fs f enc x)
    (hk : ∀ y p, fs.lookup f = some (.ptr y p) → y < w.next → (∀ es, w.heap y = .entries es → False) → w'.heap y = w.heap y) (hn : w.next ≤ w'.next) (henc : ∀ y es, enc y ≠ .entries es) : FieldAt w' own fs f enc x := by
  obtain ⟨v, h1, h2⟩ := h
  refine ⟨v, h1, ?_⟩
  cases x with
  | none => exact h2
  | some x =>
    obtain ⟨a, p, rfl, h3, h4, h5⟩ := h2
    refine ⟨a, p, rfl, by omega, h4, ?_⟩
    rw [hk a p h1 h3 (fun es hes => henc x es (by rw [hes] at h5; exact getPath_entries h5))]
    exact h5

/-- the fields that `syslog.Base` has -/
theorem FieldsBase.reach {w w' : W E} {own : Nat} {fs : List (Nm × Val)} {m : Base} (b : FieldsBase w own fs m)
    (hk : ∀ f y p, f ∈ ptrFields → fs.lookup f = some (.ptr y p) → y < w.next → (∀ es, w.heap y = .entries es → False) → w'.heap y = w.heap y) (hn : w.next ≤ w'.next) : FieldsBase w' own fs m := by
  have e1 : ∀ (y : UInt8) es, byteVal y ≠ .entries es := fun y es h => by cases h
  have e2 : ∀ (y : Bytes) es, Val.str y ≠ .entries es := fun y es h => by cases h
  have e3 : ∀ (y : GoTime.Time) es, timeVal y ≠ .entries es := fun y es h => by cases h
  exact ⟨b.1.reach (fun y p => hk _ y p (by simp [ptrFields])) hn e1, b.2.reach (fun y p => hk _ y p (by simp [ptrFields])) hn e1, b.3.reach (fun y p => hk _ y p (by simp [ptrFields])) hn e1, b.4.reach (fun y p => hk _ y p (by simp [ptrFields])) hn e3, b.5.reach (fun y p => hk _ y p (by simp [ptrFields])) hn e2, b.6.reach (fun y p => hk _ y p (by simp [ptrFields])) hn e2, b.7.reach (fun y p => hk _ y p (by simp [ptrFields])) hn e2, b.8.reach (fun y p => hk _ y p (by simp [ptrFields])) hn e2, b.9.reach (fun y p => hk _ y p (by simp [ptrFields])) hn e2⟩

theorem ElemEntries.congr {w w' : W E} {own own' : Nat} (hn : w.next ≤ w'.next) : ∀ {m : List (Bytes × Val)} {sd : Rfc5424.SD},
    (∀ k d, (k, Val.map d) ∈ m → d < w.next → w'.heap d = w.heap d) → (∀ k d, (k, Val.map d) ∈ m → d ≠ own') → ElemEntries w own m sd → ElemEntries w' own' m sd
  | [], [], _, _, _ => trivial
  | e :: m, x :: sd, hk, ho, h => by
    refine ⟨h.1, ?_, ElemEntries.congr hn (fun k d hd => hk k d (by simp [hd])) (fun k d hd => ho k d (by simp [hd])) h.2.2⟩
    rcases h.2.1 with h1 | ⟨c, h1, h2, h3, h4⟩
    · exact Or.inl h1
    · have hm : (e.1, Val.map c) ∈ e :: m := by rw [← h1]; simp
      exact Or.inr ⟨c, h1, by omega, ho _ c hm, by rw [hk _ c hm h2]; exact h4⟩

/-- a message is as it was if the variables it depends on are -/
theorem RepMsg.congr {w w' : W E} {b : Nat} {m : SyslogMessage} (hr : RepMsg w b m) (hn : w.next ≤ w'.next) (hk : ∀ x, x < w.next → Reaches w b x → w'.heap x = w.heap x) : RepMsg w' b m := by
  obtain ⟨ty, fs, h1, h2, bs⟩ := hr.msg.base
  have h1' : w'.heap b = .struct ty fs := by rw [hk b h2 (Or.inl (Or.inl rfl))]; exact h1
  obtain ⟨ty2, fs2, v1, v2⟩ := hr.msg.version
  obtain ⟨rfl, rfl⟩ : ty = ty2 ∧ fs = fs2 := by rw [h1] at v1; injection v1 with q1 q2; exact ⟨q1, q2⟩
  refine ⟨⟨⟨ty, fs, h1', by omega, bs.reach (fun f y p hm hf hy _ => hk y hy (Or.inr ⟨_, _, f, p, hm, h1, hf⟩)) hn⟩, ⟨_, _, h1', v2⟩, ?_⟩, ?_, hr.sorted⟩
  · obtain ⟨ty3, fs3, v, r1, r2, r3⟩ := hr.msg.sd
    obtain ⟨rfl, rfl⟩ : ty = ty3 ∧ fs = fs3 := by rw [h1] at r1; injection r1 with q1 q2; exact ⟨q1, q2⟩
    refine ⟨_, _, v, h1', r2, ?_⟩
    cases hsd : m.structuredData with
    | none => rw [hsd] at r3; exact r3
    | some sd =>
      rw [hsd] at r3
      obtain ⟨c, p, u, rfl, s2, s3, s4, s5⟩ := r3
      refine ⟨c, p, u, rfl, by omega, s3, by rw [hk c s2 (Or.inr ⟨_, _, _, p, by simp [ptrFields], h1, r2⟩)]; exact s4, ?_⟩
      rcases s5 with s5 | ⟨c', mm, rfl, k1, k2, k3, k4⟩
      · exact Or.inl s5
      · refine Or.inr ⟨c', mm, rfl, by omega, k2, by rw [hk c' k1 (Or.inl (Or.inr ⟨_, _, c, p, c', mm, h1, r2, s4, k3, Or.inl rfl⟩))]; exact k3, ?_⟩
        refine ElemEntries.congr hn (fun k d hd hd2 => hk d hd2 (Or.inl (Or.inr ⟨_, _, c, p, c', mm, h1, r2, s4, k3, Or.inr ⟨k, hd⟩⟩))) ?_ k4
        rintro k d hd rfl
        have : ∀ (mm : List (Bytes × Val)) (sd : Rfc5424.SD), ElemEntries w d mm sd → (k, Val.map d) ∉ mm := by
          intro mm
          induction mm with
          | nil => intro sd _ h; cases h
          | cons e mm ih =>
            intro sd h hm
            cases sd with
            | nil => exact h
            | cons x sd =>
              rcases List.mem_cons.mp hm with rfl | hm
              · rcases h.2.1 with ⟨h, _⟩ | ⟨c, h, _, h3, _⟩
                · cases h
                · injection h with h; exact h3 h.symm
              · exact ih sd h.2.2 hm
        exact this mm sd k4 hd
  · intro ty2 fs2 c p g1 g2
    obtain ⟨rfl, rfl⟩ : ty = ty2 ∧ fs = fs2 := by rw [h1'] at g1; injection g1 with q1 q2; exact ⟨q1, q2⟩
    obtain ⟨c', mm, q1, q2, q3, q4⟩ := hr.shape ty fs c p h1 g2
    obtain ⟨k1, k2, k3⟩ := hr.msg.sd.cell h1 g2
    obtain ⟨k4, k5⟩ := k3 c' q1
    exact ⟨c', mm, by rw [hk c k1 (Or.inr ⟨_, _, .StructuredData, p, by simp [ptrFields], h1, g2⟩)]; exact q1, by rw [hk c' k4 (Or.inl (Or.inr ⟨_, _, c, p, c', mm, h1, g2, q1, q2, Or.inl rfl⟩))]; exact q2, q3, q4⟩

/-- two structs with the same map of structured data -/
def Shares (w : W E) (a b : Nat) : Prop :=
  a ≠ b ∧ ∃ ty fs ty' fs' c p, w.heap a = .struct ty fs ∧ fs.lookup .StructuredData = some (.ptr c p) ∧ w.heap b = .struct ty' fs' ∧ fs'.lookup .StructuredData = some (.ptr c p) ∧
    ∀ f x q, f ∈ ptrFields → fs'.lookup f = some (.ptr x q) → x ≠ a

theorem entries_own {w : W E} {own : Nat} {ty : Nm} {fs : List (Nm × Val)} {b : Nat} (hb : w.heap b = .struct ty fs) :
    ∀ {m : List (Bytes × Val)} {sd : Rfc5424.SD}, ElemEntries w own m sd → ∀ k d, (k, Val.map d) ∈ m → d ≠ b
  | e :: m, [], h, _, _, _ => h.elim
  | e :: m, x :: sd, h, k, d, hm => by
    rcases List.mem_cons.mp hm with rfl | hm
    · rcases h.2.1 with ⟨h, _⟩ | ⟨c, h, _, _, h4⟩
      · cases h
      · injection h with h
        subst h
        rintro rfl
        rw [hb] at h4
        cases h4
    · exact entries_own hb h.2.2 k d hm

/-- **the other of two messages with the same map**: its structured data change with those of the first, the rest of it is as before -/
theorem RepMsg.shared {w w' : W E} {a b : Nat} {m m' mb : SyslogMessage} (hr : RepMsg w a m) (hb : RepMsg w b mb) (hs : Shares w a b) (hr' : RepMsg w' a m') (hf : Frame w w' a) :
    RepMsg w' b { mb with structuredData := m'.structuredData } := by
  obtain ⟨hab, ty, fs, ty', fs', c, p, ha1, ha2, hb1, hb2, hb3⟩ := hs
  obtain ⟨ty0, fs0, b1, b2, bs⟩ := hb.msg.base
  obtain ⟨rfl, rfl⟩ : ty' = ty0 ∧ fs' = fs0 := by rw [hb1] at b1; injection b1 with q1 q2; exact ⟨q1, q2⟩
  obtain ⟨c', mm, q1, q2, q3, q4⟩ := hr.shape ty fs c p ha1 ha2
  obtain ⟨sd, hsd⟩ : ∃ sd, m.structuredData = some sd := by
    obtain ⟨ty3, fs3, v, r1, r2, r3⟩ := hr.msg.sd
    obtain ⟨rfl, rfl⟩ : ty = ty3 ∧ fs = fs3 := by rw [ha1] at r1; injection r1 with q1 q2; exact ⟨q1, q2⟩
    cases hsd : m.structuredData with
    | none => rw [hsd] at r3; rw [ha2] at r2; obtain rfl := Option.some.inj r2; cases r3
    | some sd => exact ⟨sd, rfl⟩
  -- what belongs to the first message: its struct, and variables with the contents of maps
  have hown : ∀ x, Owns w a x → x = a ∨ ∃ es, w.heap x = .entries es := by
    intro x hx
    rcases hx with rfl | ⟨ty4, fs4, c4, p4, c4', mm4, g1, g2, g3, g4, g5⟩
    · exact Or.inl rfl
    · rcases g5 with rfl | ⟨k, g5⟩
      · exact Or.inr ⟨_, g4⟩
      · obtain ⟨ty5, fs5, c5, p5, c5', mm5, k1, k2, k3, k4, k5⟩ := rep_sd hr hsd
        obtain ⟨rfl, rfl⟩ : ty4 = ty5 ∧ fs4 = fs5 := by rw [g1] at k1; injection k1 with q1 q2; exact ⟨q1, q2⟩
        rw [g2] at k2
        have k2 := Option.some.inj k2
        injection k2 with e1 e2
        subst e1; subst e2
        rw [g3] at k3
        have k3 := Option.some.inj k3
        injection k3 with e1
        subst e1
        rw [g4] at k4
        injection k4 with e1
        subst e1
        have key : ∀ (mm' : List (Bytes × Val)) (sd' : Rfc5424.SD), ElemEntries w a mm' sd' → (k, Val.map x) ∈ mm' → ∃ es, w.heap x = .entries es := by
          intro mm'
          induction mm' with
          | nil => intro _ _ h; cases h
          | cons e mm' ih =>
            intro sd' h hm
            cases sd' with
            | nil => exact h.elim
            | cons y sd' =>
              rcases List.mem_cons.mp hm with rfl | hm
              · rcases h.2.1 with ⟨h, _⟩ | ⟨c, h, _, _, h4⟩
                · cases h
                · injection h with h; subst h; exact ⟨_, h4⟩
              · exact ih sd' h.2.2 hm
        exact Or.inr (key _ _ k5 g5)
  have hb1' : w'.heap b = .struct ty' fs' := by
    rw [hf.same b b2 (fun h => ?_)]
    · exact hb1
    · rcases hown b h with h | ⟨es, h⟩
      · exact hab h.symm
      · rw [hb1] at h; cases h
  obtain ⟨ta, fa, f1, f2, f3⟩ := hf.map ty fs c p c' ha1 ha2 q1
  obtain ⟨ty2, fs2, v1, v2⟩ := hb.msg.version
  obtain ⟨rfl, rfl⟩ : ty' = ty2 ∧ fs' = fs2 := by rw [hb1] at v1; injection v1 with q1 q2; exact ⟨q1, q2⟩
  have hn := hf.next
  refine ⟨⟨⟨ty', fs', hb1', by omega, bs.reach (fun f y p hm hl hy he => hf.same y hy (fun h => ?_)) hn⟩, ⟨_, _, hb1', v2⟩, ?_⟩, ?_, hr'.sorted⟩
  · rcases hown y h with rfl | ⟨es, h⟩
    · exact hb3 f y p hm hl rfl
    · exact he es h
  · refine ⟨_, _, _, hb1', hb2, ?_⟩
    obtain ⟨ty5, fs5, v, k1, k2, k3⟩ := hr'.msg.sd
    obtain ⟨rfl, rfl⟩ : ta = ty5 ∧ fa = fs5 := by rw [f1] at k1; injection k1 with q1 q2; exact ⟨q1, q2⟩
    rw [f2] at k2
    obtain rfl := Option.some.inj k2
    have hcb : c ≠ b := by
      intro h
      rw [h, hb1'] at f3
      cases p with
      | nil => cases f3
      | cons f p =>
        obtain ⟨l1, l2, _⟩ := hb.msg.sd.cell hb1 hb2
        exact l2 h
    show match m'.structuredData with
      | none => Val.ptr c p = .nil
      | some sd => ∃ c0 p0 u, Val.ptr c p = .ptr c0 p0 ∧ c0 < w'.next ∧ c0 ≠ b ∧ (w'.heap c0).getPath p0 = some u ∧ ElemMap w' b u sd
    cases hsd' : m'.structuredData with
    | none => rw [hsd'] at k3; cases k3
    | some sd' =>
      rw [hsd'] at k3
      obtain ⟨c5, p5, u, e1, l1, l2, l3, l4⟩ := k3
      injection e1 with e1 e2
      subst e1; subst e2
      refine ⟨c, p, u, rfl, l1, hcb, l3, ?_⟩
      rcases l4 with l4 | ⟨c6, m6, l4, l5, l6, l7, l8⟩
      · exact Or.inl l4
      · refine Or.inr ⟨c6, m6, l4, l5, ?_, l7, ElemEntries.congr (Nat.le_refl _) (fun _ _ _ _ => rfl) (entries_own hb1' l8) l8⟩
        rintro rfl
        rw [hb1'] at l7
        cases l7
  · intro ty2 fs2 c2 p2 g1 g2
    obtain ⟨rfl, rfl⟩ : ty' = ty2 ∧ fs' = fs2 := by rw [hb1'] at g1; injection g1 with q1 q2; exact ⟨q1, q2⟩
    rw [hb2] at g2
    have g2 := Option.some.inj g2
    injection g2 with e1 e2
    subst e1; subst e2
    exact hr'.shape ta fa c p f1 f2

/-- the zero value of `SyslogMessage` (rfc5424/syslog_message.go:78-83) -/
def zeroMsg : Val := .struct .rfc5424_SyslogMessage [(.Facility, .nil), (.Severity, .nil), (.Priority, .nil), (.Timestamp, .nil), (.Hostname, .nil), (.Appname, .nil),
  (.ProcID, .nil), (.MsgID, .nil), (.Message, .nil), (.Version, .int .u16 0), (.StructuredData, .nil)]

/-- a new variable with the value `v` (language): `&v`; its address is `w.next` -/
def newVar (w : W E) (v : Val) : W E := { w with heap := upd w.heap w.next v, next := w.next + 1 }

theorem newVar_same (w : W E) (v : Val) : (newVar w v).heap w.next = v := upd_same _ _ _

theorem newVar_keeps (w : W E) (v : Val) : Keeps w (newVar w v) := Keeps.alloc w v

theorem newMsg_rep (w : W E) : RepMsg (newVar w zeroMsg) w.next {} where
  msg :=
    { base := ⟨_, _, newVar_same w _, Nat.lt_succ_self _, ⟨_, rfl, rfl⟩, ⟨_, rfl, rfl⟩, ⟨_, rfl, rfl⟩, ⟨_, rfl, rfl⟩, ⟨_, rfl, rfl⟩, ⟨_, rfl, rfl⟩, ⟨_, rfl, rfl⟩, ⟨_, rfl, rfl⟩, ⟨_, rfl, rfl⟩⟩
      version := ⟨_, _, newVar_same w _, rfl⟩
      sd := ⟨_, _, _, newVar_same w _, rfl, rfl⟩ }
  shape := by
    intro ty fs c p h1 h2
    rw [newVar_same, zeroMsg] at h1
    injection h1 with e1 e2
    subst e2
    cases h2
  sorted := fun sd h => by cases h

theorem FieldAt.out {α : Type} {w : W E} {own : Nat} {fs : List (Nm × Val)} {f : Nm} {enc : α → Val} {x : Option α} (h : FieldAt w own fs f enc x) {c : Nat} {p : List Nm}
    (hc : fs.lookup f = some (.ptr c p)) : c < w.next ∧ c ≠ own := by
  obtain ⟨v, h1, h2⟩ := h
  rw [hc] at h1
  obtain rfl := Option.some.inj h1
  cases x with
  | none => cases h2
  | some x =>
    obtain ⟨a, q, e, h3, h4, _⟩ := h2
    injection e with e1 e2
    subst e1
    exact ⟨h3, h4⟩

/-- the pointers of a message point to other variables that exist -/
theorem RepMsg.out {w : W E} {a : Nat} {m : SyslogMessage} (hr : RepMsg w a m) {ty : Nm} {fs : List (Nm × Val)} (h1 : w.heap a = .struct ty fs) {f : Nm} (hf : f ∈ ptrFields) {c : Nat} {p : List Nm}
    (hc : fs.lookup f = some (.ptr c p)) : c < w.next ∧ c ≠ a := by
  obtain ⟨ty0, fs0, b1, b2, bs⟩ := hr.msg.base
  obtain ⟨rfl, rfl⟩ : ty = ty0 ∧ fs = fs0 := by rw [h1] at b1; injection b1 with q1 q2; exact ⟨q1, q2⟩
  simp only [ptrFields, List.mem_cons, List.not_mem_nil, or_false] at hf
  rcases hf with rfl | rfl | rfl | rfl | rfl | rfl | rfl | rfl | rfl | rfl
  · exact bs.facility.out hc
  · exact bs.severity.out hc
  · exact bs.priority.out hc
  · exact bs.timestamp.out hc
  · exact bs.hostname.out hc
  · exact bs.appname.out hc
  · exact bs.procID.out hc
  · exact bs.msgID.out hc
  · exact bs.message.out hc
  · have := hr.msg.sd.cell h1 hc
    exact ⟨this.1, this.2.1⟩

theorem FieldAt.copy {α : Type} {w w' : W E} {own : Nat} {fs : List (Nm × Val)} {f : Nm} {enc : α → Val} {x : Option α} (h : FieldAt w own fs f enc x) (hk : Keeps w w') : FieldAt w' w.next fs f enc x := by
  obtain ⟨v, h1, h2⟩ := h
  refine ⟨v, h1, ?_⟩
  cases x with
  | none => exact h2
  | some x =>
    obtain ⟨a, q, e, h3, h4, h5⟩ := h2
    exact ⟨a, q, e, Nat.lt_of_lt_of_le h3 hk.2.1, Nat.ne_of_lt h3, by rw [hk.1 a h3]; exact h5⟩

theorem entries_below {w : W E} {own : Nat} : ∀ {m : List (Bytes × Val)} {sd : Rfc5424.SD}, ElemEntries w own m sd → ∀ k d, (k, Val.map d) ∈ m → d < w.next
  | e :: m, [], h, _, _, _ => h.elim
  | e :: m, x :: sd, h, k, d, hm => by
    rcases List.mem_cons.mp hm with rfl | hm
    · rcases h.2.1 with ⟨h, _⟩ | ⟨c, h, h2, _, _⟩
      · cases h
      · injection h with h
        subst h
        exact h2
    · exact entries_below h.2.2 k d hm

/-- `b := *a`: the copy is the same message -/
theorem RepMsg.copy {w : W E} {a : Nat} {m : SyslogMessage} (hr : RepMsg w a m) : RepMsg (newVar w (w.heap a)) w.next m := by
  have hk := newVar_keeps w (w.heap a)
  obtain ⟨ty, fs, h1, h2, bs⟩ := hr.msg.base
  have hb : (newVar w (w.heap a)).heap w.next = .struct ty fs := (newVar_same w _).trans h1
  obtain ⟨ty2, fs2, v1, v2⟩ := hr.msg.version
  obtain ⟨rfl, rfl⟩ : ty = ty2 ∧ fs = fs2 := by rw [h1] at v1; injection v1 with q1 q2; exact ⟨q1, q2⟩
  refine ⟨⟨⟨ty, fs, hb, Nat.lt_succ_self _, bs.1.copy hk, bs.2.copy hk, bs.3.copy hk, bs.4.copy hk, bs.5.copy hk, bs.6.copy hk, bs.7.copy hk, bs.8.copy hk, bs.9.copy hk⟩, ⟨_, _, hb, v2⟩, ?_⟩, ?_, hr.sorted⟩
  · obtain ⟨ty3, fs3, v, r1, r2, r3⟩ := hr.msg.sd
    obtain ⟨rfl, rfl⟩ : ty = ty3 ∧ fs = fs3 := by rw [h1] at r1; injection r1 with q1 q2; exact ⟨q1, q2⟩
    refine ⟨_, _, v, hb, r2, ?_⟩
    cases hsd : m.structuredData with
    | none => rw [hsd] at r3; exact r3
    | some sd =>
      rw [hsd] at r3
      obtain ⟨c, p, u, rfl, s2, s3, s4, s5⟩ := r3
      refine ⟨c, p, u, rfl, Nat.lt_of_lt_of_le s2 hk.2.1, Nat.ne_of_lt s2, by rw [hk.1 c s2]; exact s4, ?_⟩
      rcases s5 with s5 | ⟨c', mm, rfl, k1, k2, k3, k4⟩
      · exact Or.inl s5
      · exact Or.inr ⟨c', mm, rfl, Nat.lt_of_lt_of_le k1 hk.2.1, Nat.ne_of_lt k1, by rw [hk.1 c' k1]; exact k3,
          ElemEntries.congr hk.2.1 (fun k d _ hd => hk.1 d hd) (fun k d hd => Nat.ne_of_lt (entries_below k4 k d hd)) k4⟩
  · intro ty2 fs2 c p g1 g2
    obtain ⟨rfl, rfl⟩ : ty = ty2 ∧ fs = fs2 := by rw [hb] at g1; injection g1 with q1 q2; exact ⟨q1, q2⟩
    obtain ⟨c', mm, q1, q2, q3, q4⟩ := hr.shape ty fs c p h1 g2
    obtain ⟨k1, k2, k3⟩ := hr.msg.sd.cell h1 g2
    obtain ⟨k4, k5⟩ := k3 c' q1
    exact ⟨c', mm, by rw [hk.1 c k1]; exact q1, by rw [hk.1 c' k4]; exact q2, q3, q4⟩

theorem copy_rep {w : W E} {a : Nat} {m : SyslogMessage} (hr : RepMsg w a m) (hsd : m.structuredData ≠ none) :
    RepMsg (newVar w (w.heap a)) a m ∧ RepMsg (newVar w (w.heap a)) w.next m ∧ Shares (newVar w (w.heap a)) a w.next ∧ Shares (newVar w (w.heap a)) w.next a := by
  have hk := newVar_keeps w (w.heap a)
  have ha : a < w.next := hr.msg.base.choose_spec.choose_spec.2.1
  obtain ⟨sd, hsd⟩ := Option.ne_none_iff_exists'.mp hsd
  obtain ⟨ty, fs, c, p, c', mm, h1, h2, h3, h4, h5⟩ := rep_sd hr hsd
  have hb : (newVar w (w.heap a)).heap w.next = .struct ty fs := (newVar_same w _).trans h1
  have h1' : (newVar w (w.heap a)).heap a = .struct ty fs := (hk.1 a ha).trans h1
  exact ⟨hr.congr hk.2.1 fun x hx _ => hk.1 x hx, hr.copy,
    ⟨Nat.ne_of_lt ha, ty, fs, ty, fs, c, p, h1', h2, hb, h2, fun f x q hf hx => (hr.out h1 hf hx).2⟩,
    ⟨Nat.ne_of_gt ha, ty, fs, ty, fs, c, p, hb, h2, h1', h2, fun f x q hf hx => Nat.ne_of_lt (hr.out h1 hf hx).1⟩⟩

theorem copy_nil {w : W E} {a : Nat} {m : SyslogMessage} (hr : RepMsg w a m) (hsd : m.structuredData = none) :
    RepMsg (newVar w (w.heap a)) a m ∧ RepMsg (newVar w (w.heap a)) w.next m ∧ (∀ x, Owns (newVar w (w.heap a)) a x → ¬ Reaches (newVar w (w.heap a)) w.next x) ∧
      ∀ x, Owns (newVar w (w.heap a)) w.next x → ¬ Reaches (newVar w (w.heap a)) a x := by
  have hk := newVar_keeps w (w.heap a)
  obtain ⟨ty, fs, v, h1, h2, h3⟩ := hr.msg.sd
  rw [hsd] at h3
  obtain rfl : v = .nil := h3
  have ha : a < w.next := hr.msg.base.choose_spec.choose_spec.2.1
  have hb : (newVar w (w.heap a)).heap w.next = .struct ty fs := (newVar_same w _).trans h1
  have h1' : (newVar w (w.heap a)).heap a = .struct ty fs := (hk.1 a ha).trans h1
  have own : ∀ b, (newVar w (w.heap a)).heap b = .struct ty fs → ∀ x, Owns (newVar w (w.heap a)) b x → x = b := by
    intro b hb x hx
    rcases hx with rfl | ⟨ty4, fs4, c, p, c', mm, g1, g2, _⟩
    · rfl
    · obtain ⟨rfl, rfl⟩ : ty = ty4 ∧ fs = fs4 := by rw [hb] at g1; injection g1 with q1 q2; exact ⟨q1, q2⟩
      rw [h2] at g2
      cases g2
  have ptr : ∀ b, (newVar w (w.heap a)).heap b = .struct ty fs → ∀ x, Reaches (newVar w (w.heap a)) b x → x = b ∨ x < w.next ∧ x ≠ a := by
    intro b hb x hx
    rcases hx with hx | ⟨ty4, fs4, f, p, hf, g1, g2⟩
    · exact Or.inl (own b hb x hx)
    · obtain ⟨rfl, rfl⟩ : ty = ty4 ∧ fs = fs4 := by rw [hb] at g1; injection g1 with q1 q2; exact ⟨q1, q2⟩
      exact Or.inr (hr.out h1 hf g2)
  refine ⟨hr.congr hk.2.1 fun x hx _ => hk.1 x hx, hr.copy, ?_, ?_⟩
  · intro x hx hre
    obtain rfl := own a h1' x hx
    rcases ptr _ hb x hre with h | ⟨_, h⟩
    · omega
    · exact h rfl
  · intro x hx hre
    have := own _ hb x hx
    rcases ptr a h1' x hre with h | ⟨h, _⟩
    · omega
    · omega

end Verif.Mini
