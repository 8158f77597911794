import Verif.Mini.Rep5
import Verif.Go.Sim
import Verif.Props.Source

/-!
# `set` (rfc5424/builder.go:67-9265, generated by Ragel) executed over memory

The program `Verif.Gen.GoBuilder.prog` with a second meaning: the receiver is a pointer to a struct in the heap, the structured data are maps in
the heap that `elements` is a second name for, `&s` and `&t` are new variables. The proof that it does what the plain meaning of C101 does, so
that `set` meets the assumption `SetOk` about it.
-/

set_option linter.constructorNameAsVariable false
set_option linter.unusedSimpArgs false

namespace Verif.Mini
open Verif.Gen.Mini
open Verif.Builder (Globals Entry Call)
open Verif.Rfc5424 (SyslogMessage)
open Verif.Gen.GoBuilder (A C R)
open Verif.Go (GS Same Flow Corr)

variable {E : Type}

/-- `m[k] = v` for a map with string keys (language: assignment to an entry of a nil map panics) -/
def mapPut (m : Val) (k : Bytes) (v : Val) : M E Unit :=
  match m with
  | .map c => fun w => match w.heap c with
    | .entries es => some (.ok () { w with heap := upd w.heap c (.entries (SMap.insert k v es)) })
    | _ => none
  | .nil => M.panic
  | _ => M.stuck

/-- The local variables of `set` (rfc5424/builder.go:67-73) besides those of `GS`, and the memory. `t` and `s` are addresses, since `&t` and `&s` are
stored; `backslashes` and `text` are not written to and are plain values. `bad` is set when something happens that is not modelled. -/
structure VS (E : Type) where
  w : W E
  from_ : Int
  pb : Int := 0
  backslashes : List Int := []
  t : Nat := 0
  e : Bool := false
  s : Nat := 0
  id : Bytes := []
  elements : Val := .nil
  text : Bytes := []
  ok : Bool := false
  bad : Bool := false

/-- what a computation does to the memory, and its result; a panic of it is one of the program -/
def eff {α : Type} (g : GS (VS E)) (act : M E α) (f : α → VS E → VS E) : Option (GS (VS E)) :=
  match act g.x.w with
  | some (.ok x w) => some { g with x := f x { g.x with w := w } }
  | some (.panic _) => none
  | none => some { g with x := { g.x with bad := true } }

/-- `data[pb:p]` (rfc5424/builder.go:67-9265) -/
def textS (g : GS (VS E)) : Option Bytes := Go.R5.sliceInt g.data g.x.pb g.p

/-- the field of the receiver -/
def recv (a : Nat) (f : Nm) : M E Val := load (.ptr a [f])

/-- the statements of `set` (their Go text is at the constructors of `Verif.Gen.GoBuilder.A`, rfc5424/builder.go:67-9265); `a` is the receiver -/
def setStmt (calls : Nm → List Val → M E Val) (a : Nat) : A → GS (VS E) → Option (GS (VS E))
  | .pbZero, g => some { g with x := { g.x with pb := 0 } }
  | .csFrom, g => match calls .rfc5424_entrypoint_translate [.int .int g.x.from_] g.x.w with
    | some (.ok (.int _ n) w) => some { g with cs := n.toNat, x := { g.x with w := w } }
    | some (.panic _) => none
    | _ => some { g with x := { g.x with bad := true } }
  | .backslashesNew, g => some { g with x := { g.x with backslashes := [] } }
  | .pbP, g => some { g with x := { g.x with pb := g.p } }
  | .backslashesAppend, g => some { g with x := { g.x with backslashes := g.x.backslashes ++ [g.p] } }
  | .timeParse, g => match textS g with
    | none => none
    | some t => match GoTime.parseRFC3339Micro t with
      | some tm => eff g (alloc (timeVal tm)) fun c x => { x with t := c, e := false }
      | none => eff g (alloc (timeVal Rfc5424.zeroTime)) fun c x => { x with t := c, e := true }
  | .timestamp, g => eff g (storeAt (.ptr a [.Timestamp]) (.ptr g.x.t [])) fun _ x => x
  | .sText, g => match textS g with
    | none => none
    | some t => eff g (alloc (.str t)) fun c x => { x with s := c }
  | .hostname, g => eff g (storeAt (.ptr a [.Hostname]) (.ptr g.x.s [])) fun _ x => x
  | .appname, g => eff g (storeAt (.ptr a [.Appname]) (.ptr g.x.s [])) fun _ x => x
  | .procID, g => eff g (storeAt (.ptr a [.ProcID]) (.ptr g.x.s [])) fun _ x => x
  | .msgID, g => eff g (storeAt (.ptr a [.MsgID]) (.ptr g.x.s [])) fun _ x => x
  | .message, g => eff g (storeAt (.ptr a [.Message]) (.ptr g.x.s [])) fun _ x => x
  | .sdNew, g => eff g (M.bind (alloc (.entries [])) fun c => M.bind (alloc (.map c)) fun d => storeAt (.ptr a [.StructuredData]) (.ptr d [])) fun _ x => x
  | .idText, g => match textS g with
    | none => none
    | some t => some { g with x := { g.x with id := t } }
  | .elements, g => eff g (M.bind (recv a .StructuredData) load) fun v x => { x with elements := v }
  | .elementLookup, g => eff g (indexOkVal g.x.elements (.str g.x.id)) fun v x => { x with ok := match v with | .tuple [_, .bool b] => b | _ => false }
  | .elementAdd, g => eff g (M.bind (alloc (.entries [])) fun c => mapPut g.x.elements g.x.id (.map c)) fun _ x => x
  | .paramAdd, g => match textS g with
    | none => none
    | some t => eff g (M.bind (indexVal g.x.elements (g.x.w.glob .currentid)) fun m => mapPut m t (.str [])) fun _ x => x
  | .textNew, g => match textS g with
    | none => none
    | some t => some { g with x := { g.x with text := t } }
  | .removeBytes, g => match Common.removeBytes g.x.text g.x.backslashes g.x.pb with
    | none => none
    | some t => some { g with x := { g.x with text := t } }
  | .paramSet, g => eff g (M.bind (indexVal g.x.elements (g.x.w.glob .currentid)) fun m => match g.x.w.glob .currentparamname with
    | .str k => mapPut m k (.str g.x.text)
    | _ => M.stuck) fun _ x => x

/-- the string in the variable `s` -/
def strAt (w : W E) (c : Nat) : Option Bytes := match w.heap c with
  | .str s => some s
  | _ => none

/-- the conditions of `set` (rfc5424/builder.go:67-9265) -/
def setCond (a : Nat) : C → GS (VS E) → Option Bool
  | .eNil, g => some !g.x.e
  | .sNotDash, g => (strAt g.x.w g.x.s).map fun s => decide (s ≠ [45])
  | .sNotEmpty, g => (strAt g.x.w g.x.s).map fun s => decide (s ≠ [])
  | .sdNil, g => match recv a .StructuredData g.x.w with
    | some (.ok v _) => some v.isNil
    | _ => none
  | .notOk, g => some !g.x.ok
  | .hasBackslashes, g => some (0 < g.x.backslashes.length)

/-- the meaning of the program of `set` over memory (rfc5424/builder.go:67-9265) -/
def setSem (calls : Nm → List Val → M E Val) (a : Nat) : Go.Sem A C (VS E) := ⟨setStmt calls a, setCond a⟩

/-- `set` (rfc5424/builder.go:67-9265), executed as it is written, of at most `13 n + 17` blocks for a value of `n` bytes -/
def setGo (calls : Nm → List Val → M E Val) (args : List Val) : M E Val :=
  match args with
  | [.ptr a [], .int .int e, .str v] => fun w =>
    match (setSem calls a).run Gen.GoBuilder.prog (13 * v.length + 17) .entry { input := v, x := { w := w, from_ := e } } with
    | .returned _ g => if g.x.bad then none else some (.ok (.ptr a []) g.x.w)
    | .panics => some (.panic w)
    | _ => none
  | _ => M.stuck

/-! ## Maps -/

theorem entries_insert {w : W E} {own : Nat} {k : Bytes} {v : Val} {ps : SMap Bytes} (hv : ParamMap w own v ps) :
    ∀ {m : List (Bytes × Val)} {sd : Rfc5424.SD}, ElemEntries w own m sd → ElemEntries w own (SMap.insert k v m) (SMap.insert k ps sd)
  | [], [], _ => ⟨rfl, hv, trivial⟩
  | (k1, v1) :: m, (k2, x2) :: sd, h => by
    obtain ⟨h1, h2, h3⟩ := h
    simp only at h1 h2
    subst h1
    simp only [SMap.insert]
    split
    · exact ⟨rfl, hv, rfl, h2, h3⟩
    · split
      · exact ⟨rfl, hv, h3⟩
      · exact ⟨rfl, h2, entries_insert hv h3⟩

theorem nodup_insert {k : Bytes} {v : Val} : ∀ {m : List (Bytes × Val)}, (m.map Prod.snd).Nodup → v ∉ m.map Prod.snd → ((SMap.insert k v m).map Prod.snd).Nodup
  | [], _, _ => by simp [SMap.insert]
  | (k1, v1) :: m, h, hv => by
    simp only [List.map_cons, List.nodup_cons, List.mem_cons, not_or] at h hv
    simp only [SMap.insert]
    split
    · simp only [List.map_cons, List.nodup_cons, List.mem_cons, not_or]
      exact ⟨⟨hv.1, hv.2⟩, h.1, h.2⟩
    · split
      · simp only [List.map_cons, List.nodup_cons]
        exact ⟨hv.2, h.2⟩
      · simp only [List.map_cons, List.nodup_cons]
        refine ⟨?_, nodup_insert h.2 hv.2⟩
        intro hc
        obtain ⟨e, he, he2⟩ := List.mem_map.mp hc
        rcases SMap.mem_insert he with rfl | he
        · exact hv.1 he2
        · exact h.1 (List.mem_map.mpr ⟨e, he, he2⟩)

/-- the elements, when the map `d` of the element `k` changes -/
theorem entries_change {w w' : W E} {own d : Nat} {k : Bytes} {ps : SMap Bytes} (hp : ParamMap w' own (.map d) ps)
    (hsame : ∀ v qs, v ≠ .map d → ParamMap w own v qs → ParamMap w' own v qs) :
    ∀ {m : List (Bytes × Val)} {sd : Rfc5424.SD}, ElemEntries w own m sd → SMap.Sorted sd → (m.map Prod.snd).Nodup → SMap.find k m = some (.map d) → ElemEntries w' own m (SMap.insert k ps sd)
  | [], [], _, _, _, h => by cases h
  | (k1, v1) :: m, (k2, x2) :: sd, h, hs, hn, hf => by
    obtain ⟨h1, h2, h3⟩ := h
    simp only at h1 h2
    subst h1
    simp only [List.map_cons, List.nodup_cons] at hn
    have rest : v1 = .map d → ∀ {m : List (Bytes × Val)} {sd : Rfc5424.SD}, ElemEntries w own m sd → v1 ∉ m.map Prod.snd → ElemEntries w' own m sd := by
      intro hv1 m
      induction m with
      | nil => intro sd h _; cases sd <;> exact h
      | cons e m ih => intro sd h hh; cases sd with
        | nil => exact h
        | cons x sd =>
          simp only [List.map_cons, List.mem_cons, not_or] at hh
          exact ⟨h.1, hsame _ _ (fun hc => hh.1 (by rw [hv1, hc])) h.2.1, ih h.2.2 hh.2⟩
    by_cases hk : k = k1
    · subst hk
      obtain rfl : v1 = .map d := by simpa [SMap.find] using hf
      simp only [SMap.insert, blt_irrefl, Bool.false_eq_true, ite_true, ite_false]
      exact ⟨rfl, hp, rest rfl h3 hn.1⟩
    · have hf' : SMap.find k m = some (.map d) := by simpa [SMap.find, hk] using hf
      have hmem := SMap.mem_of_find hf'
      have hlt : blt k k1 = false := by
        have hin : ∃ e ∈ sd, e.1 = k := by
          clear hf hn hs rest hsame
          induction m generalizing sd with
          | nil => cases hf'
          | cons e m ih => cases sd with
            | nil => exact h3.elim
            | cons x sd =>
              by_cases hke : k = e.1
              · exact ⟨x, by simp, by rw [hke, h3.1]⟩
              · have hf2 : SMap.find k m = some (.map d) := by simpa [SMap.find, hke] using hf'
                obtain ⟨y, hy, hy2⟩ := ih _ h3.2.2 hf2 (SMap.mem_of_find hf2)
                exact ⟨y, by simp [hy], hy2⟩
        obtain ⟨e, he, rfl⟩ := hin
        exact blt_asymm (hs.1 e he)
      simp only [SMap.insert, hlt, Bool.false_eq_true, hk, ite_false]
      refine ⟨rfl, hsame _ _ (fun hc => hn.1 ?_) h2, entries_change hp hsame h3 hs.2 hn.2 hf'⟩
      have hc : v1 = .map d := hc
      rw [hc]
      exact List.mem_map.mpr ⟨_, hmem, rfl⟩

/-! ## The message in memory -/

theorem KeepsMap.same {w w' : W E} {a : Nat} (h : KeepsMap w w' a) : SameMap w w' a := by
  intro ty fs c p c' ty' fs' v h1 h2 h3 h4 h5
  obtain ⟨ty2, fs2, q1, q2, q3⟩ := h ty fs c p c' h1 h2 h3
  rw [q1] at h4
  injection h4 with e1 e2
  subst e2
  rw [q2] at h5
  exact Or.inr ⟨(Option.some.inj h5).symm, q3⟩

theorem getPath_entries {es : List (Bytes × Val)} {p : List Nm} {v : Val} (h : (Val.entries es).getPath p = some v) : v = .entries es := by
  cases p with
  | nil => exact (Option.some.inj h).symm
  | cons f p => cases h

/-- what a pointer to something that is not the contents of a map points to -/
theorem FieldAt.maps {α : Type} {w w' : W E} {own : Nat} {fs : List (Nm × Val)} {f : Nm} {enc : α → Val} {x : Option α} (h : FieldAt w own fs f enc x)
    (hk : ∀ x, x < w.next → (∀ es, w.heap x ≠ .entries es) → w'.heap x = w.heap x) (hn : w.next ≤ w'.next) (henc : ∀ y es, enc y ≠ .entries es) : FieldAt w' own fs f enc x := by
  obtain ⟨v, h1, h2⟩ := h
  refine ⟨v, h1, ?_⟩
  cases x with
  | none => exact h2
  | some x =>
    obtain ⟨a, p, e, h3, h4, h5⟩ := h2
    refine ⟨a, p, e, by omega, h4, ?_⟩
    rw [hk a h3 (fun es hes => henc x es (by rw [hes] at h5; exact getPath_entries h5))]
    exact h5

/-- only maps change -/
theorem RepMsg.maps {w w' : W E} {a : Nat} {m : SyslogMessage} (hr : RepMsg w a m) {ty : Nm} {fs : List (Nm × Val)} {c c' : Nat} {p : List Nm} (h1 : w.heap a = .struct ty fs)
    (h2 : fs.lookup .StructuredData = some (.ptr c p)) (h3 : (w.heap c).getPath p = some (.map c'))
    (hk : ∀ x, x < w.next → (∀ es, w.heap x ≠ .entries es) → w'.heap x = w.heap x) (hn : w.next ≤ w'.next) {mm : List (Bytes × Val)} {sd : Rfc5424.SD} (hc : w'.heap c' = .entries mm)
    (he : ElemEntries w' a mm sd) (hnd : (mm.map Prod.snd).Nodup) (hm : ∀ e ∈ mm, ∃ d, e.2 = .map d) (hso : SMap.Sorted sd ∧ ∀ e ∈ sd, SMap.Sorted e.2)
    (ho : ∀ x, x < w.next → ¬ Owns w a x → w'.heap x = w.heap x) (hod : ∀ k d, (k, Val.map d) ∈ mm → d < w.next → Owns w a d)
    (hx : w'.ext = w.ext) : RepMsg w' a { m with structuredData := some sd } ∧ KeepsMap w w' a ∧ Frame w w' a := by
  obtain ⟨mm0, hc0⟩ : ∃ mm0, w.heap c' = .entries mm0 := by
    obtain ⟨c2, mm0, q1, q2, _⟩ := hr.shape ty fs c p h1 h2
    rw [h3] at q1
    have q1 := Option.some.inj q1
    injection q1 with q1
    exact ⟨mm0, by rw [q1]; exact q2⟩
  obtain ⟨ty1, fs1, b1, b2, b⟩ := hr.msg.base
  obtain ⟨rfl, rfl⟩ : ty = ty1 ∧ fs = fs1 := by rw [h1] at b1; injection b1 with q1 q2; exact ⟨q1, q2⟩
  have ha : w'.heap a = .struct ty fs := by rw [hk a b2 (fun es hes => by rw [h1] at hes; cases hes), h1]
  have hcl : c < w.next ∧ c ≠ a ∧ c' < w.next ∧ c' ≠ a := by
    obtain ⟨ty2, fs2, v, r1, r2, r3⟩ := hr.msg.sd
    obtain ⟨rfl, rfl⟩ : ty = ty2 ∧ fs = fs2 := by rw [h1] at r1; injection r1 with q1 q2; exact ⟨q1, q2⟩
    rw [h2] at r2
    obtain rfl := Option.some.inj r2
    cases hsd : m.structuredData with
    | none => rw [hsd] at r3; cases r3
    | some sd0 =>
      rw [hsd] at r3
      obtain ⟨c2, p2, u, s1, s2, s3, s4, s5⟩ := r3
      injection s1 with e1 e2
      subst e1; subst e2
      rw [h3] at s4
      obtain rfl := Option.some.inj s4
      rcases s5 with ⟨s5, _⟩ | ⟨c3, m3, s5, s6, s7, _⟩
      · cases s5
      · injection s5 with s5
        subst s5
        exact ⟨s2, s3, s6, s7⟩
  have h3' : (w'.heap c).getPath p = some (.map c') := by
    rw [hk c hcl.1 (fun es hes => by rw [hes] at h3; cases getPath_entries h3)]
    exact h3
  have hkm : KeepsMap w w' a := by
    intro ty2 fs2 c2 p2 c2' g1 g2 g3
    obtain ⟨rfl, rfl⟩ : ty = ty2 ∧ fs = fs2 := by rw [h1] at g1; injection g1 with q1 q2; exact ⟨q1, q2⟩
    rw [h2] at g2
    have g2 := Option.some.inj g2
    injection g2 with q1 q2
    subst q1; subst q2
    rw [h3] at g3
    have g3 := Option.some.inj g3
    injection g3 with q1
    subst q1
    exact ⟨_, _, ha, h2, h3'⟩
  have e1 : ∀ (y : UInt8) es, byteVal y ≠ .entries es := fun y es h => by cases h
  have e2 : ∀ (y : Bytes) es, Val.str y ≠ .entries es := fun y es h => by cases h
  have e3 : ∀ (y : GoTime.Time) es, timeVal y ≠ .entries es := fun y es h => by cases h
  refine ⟨⟨⟨⟨ty, fs, ha, by omega, ⟨b.1.maps hk hn e1, b.2.maps hk hn e1, b.3.maps hk hn e1, b.4.maps hk hn e3, b.5.maps hk hn e2, b.6.maps hk hn e2, b.7.maps hk hn e2, b.8.maps hk hn e2,
    b.9.maps hk hn e2⟩⟩, ?_, ?_⟩, ?_, ?_⟩, hkm, ⟨hn, ho, ?_, hkm, hx⟩, fun ty4 fs4 f4 x p g1 g2 hx => by
      obtain ⟨rfl, rfl⟩ : ty = ty4 ∧ fs = fs4 := by rw [ha] at g1; injection g1 with q1 q2; exact ⟨q1, q2⟩
      exact ⟨_, _, p, h1, g2⟩⟩
  · obtain ⟨ty2, fs2, v1, v2⟩ := hr.msg.version
    obtain ⟨rfl, rfl⟩ : ty = ty2 ∧ fs = fs2 := by rw [h1] at v1; injection v1 with q1 q2; exact ⟨q1, q2⟩
    exact ⟨_, _, ha, v2⟩
  · exact ⟨_, _, _, ha, h2, c, p, _, rfl, by omega, hcl.2.1, h3', Or.inr ⟨c', mm, rfl, by omega, hcl.2.2.2, hc, he⟩⟩
  · intro ty2 fs2 c2 p2 g1 g2
    obtain ⟨rfl, rfl⟩ : ty = ty2 ∧ fs = fs2 := by rw [ha] at g1; injection g1 with q1 q2; exact ⟨q1, q2⟩
    rw [h2] at g2
    have g2 := Option.some.inj g2
    injection g2 with q1 q2
    subst q1; subst q2
    exact ⟨c', mm, h3', hc, hnd, hm⟩
  · intro sd' h
    obtain rfl := Option.some.inj h
    exact hso
  · intro x hx hx2
    rcases hx2 with rfl | ⟨ty4, fs4, c4, p4, c4', mm4, g1, g2, g3, g4, g5⟩
    · exact Or.inl rfl
    · obtain ⟨rfl, rfl⟩ : ty = ty4 ∧ fs = fs4 := by rw [ha] at g1; injection g1 with q1 q2; exact ⟨q1, q2⟩
      rw [h2] at g2
      have g2 := Option.some.inj g2
      injection g2 with q1 q2
      subst q1; subst q2
      rw [h3'] at g3
      have g3 := Option.some.inj g3
      injection g3 with q1
      subst q1
      rw [hc] at g4
      injection g4 with g4
      subst g4
      rcases g5 with rfl | ⟨k, g5⟩
      · exact Or.inr ⟨_, _, c, p, x, mm0, h1, h2, h3, hc0, Or.inl rfl⟩
      · exact hod k x g5 hx

/-- nothing changes except new variables -/
theorem RepMsg.keeps {w w' : W E} {a : Nat} {m : SyslogMessage} (hr : RepMsg w a m) (hk : Keeps w w') : RepMsg w' a m ∧ KeepsMap w w' a ∧ Frame w w' a := by
  obtain ⟨ty, fs, h1, h2, b⟩ := hr.msg.base
  have h1' : w'.heap a = .struct ty fs := by rw [hk.1 a h2]; exact h1
  obtain ⟨ty2, fs2, v1, v2⟩ := hr.msg.version
  obtain ⟨rfl, rfl⟩ : ty = ty2 ∧ fs = fs2 := by rw [h1] at v1; injection v1 with q1 q2; exact ⟨q1, q2⟩
  refine ⟨⟨⟨⟨ty, fs, h1', by have := hk.2.1; omega, b.keep (hk.but a)⟩, ⟨_, _, h1', v2⟩, hr.msg.sd.put (hk.but a) h1 h1' rfl⟩, Shape.put hr.msg.sd hr.shape (hk.but a) h1 h1' rfl, hr.sorted⟩, ?_, Frame.struct hr.msg.sd (hk.but a) h1 h1' rfl fun _ _ p h _ => ⟨p, h⟩⟩
  intro ty2 fs2 c p c' g1 g2 g3
  obtain ⟨rfl, rfl⟩ : ty = ty2 ∧ fs = fs2 := by rw [h1] at g1; injection g1 with q1 q2; exact ⟨q1, q2⟩
  refine ⟨_, _, h1', g2, ?_⟩
  obtain ⟨ty3, fs3, v, r1, r2, r3⟩ := hr.msg.sd
  obtain ⟨rfl, rfl⟩ : ty = ty3 ∧ fs = fs3 := by rw [h1] at r1; injection r1 with q1 q2; exact ⟨q1, q2⟩
  rw [g2] at r2
  obtain rfl := Option.some.inj r2
  cases hsd : m.structuredData with
  | none => rw [hsd] at r3; cases r3
  | some sd0 =>
    rw [hsd] at r3
    obtain ⟨c2, p2, u, s1, s2, s3, s4, s5⟩ := r3
    injection s1 with e1 e2
    subst e1; subst e2
    rw [hk.1 _ s2]
    exact g3

/-- a pointer is stored in a field (not the structured data) -/
theorem RepMsg.field {w : W E} {a : Nat} {m m' : SyslogMessage} (hr : RepMsg w a m) {f : Nm} (c : Nat) (hf1 : f ≠ .Version) (hf2 : f ≠ .StructuredData)
    (hl : ∀ fs, FieldsBase w a fs m.toBase → ∃ u, fs.lookup f = some u)
    (hb : ∀ fs, FieldsBase w a fs m.toBase → FieldsBase w a (setField fs f (.ptr c [])) m'.toBase) (hv : m'.version = m.version) (hsd : m'.structuredData = m.structuredData) {w0 : W E} (hf0 : Frame w0 w a) (hc0 : w0.next ≤ c) :
    ∃ w', (storeAt (.ptr a [f]) (.ptr c []) : M E Unit) w = some (.ok () w') ∧ RepMsg w' a m' ∧ w'.glob = w.glob ∧ KeepsMap w w' a ∧ Frame w0 w' a := by
  obtain ⟨ty, fs, h1, h2, b⟩ := hr.msg.base
  obtain ⟨u, hu⟩ := hl fs b
  have st := store_field h1 hu (.ptr c [])
  rw [coerce_ptr] at st
  obtain ⟨w', hw'⟩ : ∃ x : W E, x = { w with heap := upd w.heap a (.struct ty (setField fs f (.ptr c []))) } := ⟨_, rfl⟩
  rw [← hw'] at st
  have hk : KeepsBut a w w' := by rw [hw']; exact KeepsBut.upd w a _
  have h3 : w'.heap a = .struct ty (setField fs f (.ptr c [])) := by rw [hw']; exact upd_same _ _ _
  have h4 : ∀ g, g ≠ f → List.lookup g (setField fs f (.ptr c [])) = List.lookup g fs := by
    intro g hg
    rw [lookup_setField, if_neg hg]
  obtain ⟨ty2, fs2, v1, v2⟩ := hr.msg.version
  obtain ⟨rfl, rfl⟩ : ty = ty2 ∧ fs = fs2 := by rw [h1] at v1; injection v1 with q1 q2; exact ⟨q1, q2⟩
  refine ⟨w', st, ⟨⟨⟨ty, _, h3, by have := hk.2.1; omega, (hb fs b).keep hk⟩, ⟨_, _, h3, by rw [h4 _ (Ne.symm hf1), hv]; exact v2⟩, ?_⟩, ?_, ?_⟩, by rw [hw'], ?_, ⟨hf0.toFrame0.trans (Frame0.struct hr.msg.sd hk h1 h3 (h4 _ (Ne.symm hf2))), fun ty4 fs4 f4 x p g1 g2 hx => by
    obtain ⟨rfl, rfl⟩ : ty = ty4 ∧ _ = fs4 := by rw [h3] at g1; injection g1 with q1 q2; exact ⟨q1, q2⟩
    rcases lookup_put g2 with h | h
    · injection h with h; omega
    · exact hf0.ptrs ty fs f4 x p h1 h hx⟩⟩
  · rw [hsd]; exact hr.msg.sd.put hk h1 h3 (h4 _ (Ne.symm hf2))
  · exact Shape.put hr.msg.sd hr.shape hk h1 h3 (h4 _ (Ne.symm hf2))
  · intro sd h; rw [hsd] at h; exact hr.sorted sd h
  · intro ty2 fs2 c2 p c' g1 g2 g3
    obtain ⟨rfl, rfl⟩ : ty = ty2 ∧ fs = fs2 := by rw [h1] at g1; injection g1 with q1 q2; exact ⟨q1, q2⟩
    refine ⟨_, _, h3, by rw [h4 _ (Ne.symm hf2)]; exact g2, ?_⟩
    obtain ⟨ty3, fs3, v, r1, r2, r3⟩ := hr.msg.sd
    obtain ⟨rfl, rfl⟩ : ty = ty3 ∧ fs = fs3 := by rw [h1] at r1; injection r1 with q1 q2; exact ⟨q1, q2⟩
    rw [g2] at r2
    obtain rfl := Option.some.inj r2
    cases hsd : m.structuredData with
    | none => rw [hsd] at r3; cases r3
    | some sd0 =>
      rw [hsd] at r3
      obtain ⟨c3, p3, u, s1, s2, s3, s4, s5⟩ := r3
      injection s1 with e1 e2
      subst e1; subst e2
      rw [hk.1 _ s2 s3]
      exact g3

/-! ## The two meanings -/

/-- Which variables of `set` are in use: `t`, `s`, `elements`; and whether the structured data are known to be nil. -/
structure Md where
  t : Bool := false
  s : Bool := false
  el : Bool := false
  nil : Bool := false

def flow : Flow A C Md where
  start := {}
  stmt := fun d a => match a with
    | .timeParse => some { t := true }
    | .timestamp => if d.t then some {} else none
    | .sText => some { s := true }
    | .hostname | .appname | .procID | .msgID | .message => if d.s then some {} else none
    | .sdNew => if d.nil then some {} else none
    | .elements => some { el := true }
    | .elementLookup => if d.el then some d else none
    | .elementAdd | .paramAdd | .paramSet => if d.el then some {} else none
    | _ => some d
  cond := fun d c => match c with
    | .sNotDash | .sNotEmpty => d.s
    | _ => true
  thn := fun d c => match c with
    | .sdNil => { d with nil := true }
    | _ => d
  meet := fun d d' => { t := d.t && d'.t, s := d.s && d'.s, el := d.el && d'.el, nil := d.nil && d'.nil }

def flowOk (cn : Go.Code A C R × Go.Lbl) : Bool := flow.fine flow.start cn.1

set_option maxRecDepth 100000 in
theorem flow_sts : Gen.GoBuilder.sts.all flowOk = true := by decide +kernel
set_option maxRecDepth 100000 in
theorem flow_stCases : Gen.GoBuilder.stCases.all flowOk = true := by decide +kernel
set_option maxRecDepth 100000 in
theorem flow_trs : Gen.GoBuilder.trs.all flowOk = true := by decide +kernel
set_option maxRecDepth 100000 in
theorem flow_testEofs : Gen.GoBuilder.testEofs.all flowOk = true := by decide +kernel
set_option maxRecDepth 100000 in
theorem flow_ends : (flowOk Gen.GoBuilder.entry && flowOk Gen.GoBuilder.stOut && flowOk Gen.GoBuilder.testEof && flowOk Gen.GoBuilder.out) = true := by decide +kernel

theorem flow_prog (l : Go.Lbl) (cn : Go.Code A C R × Go.Lbl) (h : Gen.GoBuilder.prog l = some cn) : flow.fine flow.start cn.1 = true := by
  have he := flow_ends
  simp only [Bool.and_eq_true] at he
  cases l with
  | entry => obtain rfl := Option.some.inj h; exact he.1.1.1
  | st n => exact Go.Tree.all_find (f := flowOk) flow_sts h
  | stCase n => exact Go.Tree.all_find (f := flowOk) flow_stCases h
  | tr n => exact Go.Tree.all_find (f := flowOk) flow_trs h
  | testEofN n => exact Go.Tree.all_find (f := flowOk) flow_testEofs h
  | stOut => obtain rfl := Option.some.inj h; exact he.1.1.2
  | testEof => obtain rfl := Option.some.inj h; exact he.1.2
  | out => obtain rfl := Option.some.inj h; exact he.2

/-- `elements` is the map of the structured data -/
def IsElements (w : W E) (a : Nat) (v : Val) : Prop :=
  ∃ ty fs c p c', w.heap a = .struct ty fs ∧ fs.lookup .StructuredData = some (.ptr c p) ∧ (w.heap c).getPath p = some (.map c') ∧ v = .map c'

/-- the memory `y` represents the values `x` -/
structure SetRel (w0 : W E) (a : Nat) (d : Md) (x : Go.RB.V) (y : VS E) : Prop where
  bad : y.bad = false
  from_ : y.from_ = entryCode x.from_
  pb : y.pb = x.pb
  backslashes : y.backslashes = x.backslashes
  e : y.e = x.e
  id : y.id = x.id
  text : y.text = x.text
  ok : y.ok = x.ok
  rep : RepMsg y.w a x.sm
  glob : HasGlob y.w x.glob
  globs : y.w.glob = w0.glob
  map : KeepsMap w0 y.w a
  frame : Frame w0 y.w a
  t : d.t = true → y.t < y.w.next ∧ y.t ≠ a ∧ y.w.heap y.t = timeVal x.t ∧ w0.next ≤ y.t
  s : d.s = true → y.s < y.w.next ∧ y.s ≠ a ∧ y.w.heap y.s = .str x.s ∧ w0.next ≤ y.s
  el : d.el = true → IsElements y.w a y.elements
  nil : d.nil = true → x.sm.structuredData = none

theorem SetRel.weak {w0 : W E} {a : Nat} {d : Md} {x : Go.RB.V} {y : VS E} (h : SetRel w0 a d x y) : SetRel w0 a {} x y :=
  { h with t := (fun h => by cases h), s := (fun h => by cases h), el := (fun h => by cases h), nil := (fun h => by cases h) }

/-- a new variable -/
theorem SetRel.alloc {w0 : W E} {a : Nat} {d : Md} {x : Go.RB.V} {y : VS E} (h : SetRel w0 a d x y) (v : Val) :
    SetRel w0 a {} x { y with w := { y.w with heap := upd y.w.heap y.w.next v, next := y.w.next + 1 } } := by
  have hk : Keeps y.w { y.w with heap := upd y.w.heap y.w.next v, next := y.w.next + 1 } :=
    ⟨fun b hb => upd_ne _ _ (by omega), Nat.le_succ _, rfl, rfl⟩
  obtain ⟨r, k, f⟩ := h.rep.keeps hk
  exact { h.weak with rep := r, map := h.map.trans k, frame := h.frame.trans f, t := (fun h => by cases h), s := (fun h => by cases h), el := (fun h => by cases h) }

theorem SetRel.own {w0 : W E} {a : Nat} {d : Md} {x : Go.RB.V} {y : VS E} (h : SetRel w0 a d x y) : a < y.w.next := by
  obtain ⟨_, _, _, h2, _⟩ := h.rep.msg.base
  exact h2

/-- the message changes -/
theorem SetRel.put {w0 : W E} {a : Nat} {d : Md} {x : Go.RB.V} {y : VS E} (h : SetRel w0 a d x y) {w' : W E} {m' : SyslogMessage} (hr : RepMsg w' a m') (hg : w'.glob = y.w.glob) (hk : KeepsMap y.w w' a ∧ Frame w0 w' a) :
    SetRel w0 a {} { x with sm := m' } { y with w := w' } :=
  { h.weak with
    rep := hr, globs := hg.trans h.globs, map := h.map.trans hk.1, frame := hk.2, glob := ⟨by rw [hg]; exact h.glob.1, by rw [hg]; exact h.glob.2⟩
    t := (fun h => by cases h), s := (fun h => by cases h), el := (fun h => by cases h), nil := (fun h => by cases h) }

theorem same_text {x : GS Go.RB.V} {y : GS (VS E)} (h : Same x y) (hp : y.x.pb = x.x.pb) : textS y = Go.RB.text x := by
  unfold textS Go.RB.text
  rw [h.data, h.p, hp]

theorem eff_ok {α : Type} {g : GS (VS E)} {act : M E α} {f : α → VS E → VS E} {x : α} {w : W E} (h : act g.x.w = some (.ok x w)) :
    eff g act f = some { g with x := f x { g.x with w := w } } := by
  unfold eff
  rw [h]

theorem eff_panic {α : Type} {g : GS (VS E)} {act : M E α} {f : α → VS E → VS E} {w : W E} (h : act g.x.w = some (.panic w)) : eff g act f = none := by
  unfold eff
  rw [h]

/-- the other variables of the automaton -/
theorem Same.x {X Y : Type} {g : GS X} {g' : GS Y} (h : Same g g') (x : X) (y : Y) : Same { g with x := x } { g' with x := y } := ⟨h.1, h.2, h.3, h.4, h.5, h.6, h.7⟩

/-- the structured data exist -/
theorem rep_elements {w : W E} {a : Nat} {m : SyslogMessage} {v : Val} (hr : RepMsg w a m) (h : IsElements w a v) :
    ∃ c' mm sd, v = .map c' ∧ m.structuredData = some sd ∧ w.heap c' = .entries mm ∧ ElemEntries w a mm sd ∧ (mm.map Prod.snd).Nodup ∧ (∀ e ∈ mm, ∃ d, e.2 = .map d) ∧
      c' < w.next ∧ c' ≠ a ∧ (Owns w a c' ∧ ∀ k d, (k, Val.map d) ∈ mm → Owns w a d) ∧
      ∀ (w' : W E) (mm' : List (Bytes × Val)) (sd' : Rfc5424.SD), (∀ x, x < w.next → (∀ es, w.heap x ≠ .entries es) → w'.heap x = w.heap x) → w.next ≤ w'.next → w'.heap c' = .entries mm' →
        ElemEntries w' a mm' sd' → (mm'.map Prod.snd).Nodup → (∀ e ∈ mm', ∃ d, e.2 = .map d) → (SMap.Sorted sd' ∧ ∀ e ∈ sd', SMap.Sorted e.2) →
        (∀ x, x < w.next → ¬ Owns w a x → w'.heap x = w.heap x) → (∀ k d, (k, Val.map d) ∈ mm' → d < w.next → Owns w a d) → w'.ext = w.ext →
        RepMsg w' a { m with structuredData := some sd' } ∧ KeepsMap w w' a ∧ Frame w w' a := by
  obtain ⟨ty, fs, c, p, c', h1, h2, h3, rfl⟩ := h
  obtain ⟨c2', mm, q1, q2, q3, q4⟩ := hr.shape ty fs c p h1 h2
  rw [h3] at q1
  have q1 := Option.some.inj q1
  injection q1 with q1
  subst q1
  obtain ⟨ty2, fs2, v, r1, r2, r3⟩ := hr.msg.sd
  obtain ⟨rfl, rfl⟩ : ty = ty2 ∧ fs = fs2 := by rw [h1] at r1; injection r1 with q1 q2; exact ⟨q1, q2⟩
  rw [h2] at r2
  obtain rfl := Option.some.inj r2
  cases hsd : m.structuredData with
  | none => rw [hsd] at r3; cases r3
  | some sd0 =>
    rw [hsd] at r3
    obtain ⟨c2, p2, u, s1, s2, s3, s4, s5⟩ := r3
    injection s1 with e1 e2
    subst e1; subst e2
    rw [h3] at s4
    obtain rfl := Option.some.inj s4
    rcases s5 with ⟨s5, _⟩ | ⟨c3, m3, s5, s6, s7, s8, s9⟩
    · cases s5
    · injection s5 with s5
      subst s5
      rw [q2] at s8
      injection s8 with s8
      subst s8
      exact ⟨c', mm, sd0, rfl, rfl, q2, s9, q3, q4, s6, s7,
        ⟨Or.inr ⟨_, _, c, p, c', mm, h1, h2, h3, q2, Or.inl rfl⟩, fun k d hd => Or.inr ⟨_, _, c, p, c', mm, h1, h2, h3, q2, Or.inr ⟨k, hd⟩⟩⟩,
        fun w' mm' sd' k1 k2 k3 k4 k5 k6 k7 k8 k9 k10 => hr.maps h1 h2 h3 k1 k2 k3 k4 k5 k6 k7 k8 k9 k10⟩

/-- an entry of the map of an element is replaced or added: `elements[id][k] = s` -/
theorem param_put {w : W E} {a : Nat} {m : SyslogMessage} {v : Val} (hr : RepMsg w a m) (h : IsElements w a v) (id k s : Bytes) :
    match m.structuredData.bind fun sd => (sd.find id).map fun ps => { m with structuredData := some (sd.insert id (ps.insert k s)) } with
    | none => (M.bind (indexVal v (.str id)) fun u => mapPut u k (.str s) : M E Unit) w = some (.panic w)
    | some m' => ∃ w', (M.bind (indexVal v (.str id)) fun u => mapPut u k (.str s) : M E Unit) w = some (.ok () w') ∧ RepMsg w' a m' ∧ w'.glob = w.glob ∧ KeepsMap w w' a ∧ Frame w w' a := by
  obtain ⟨c', mm, sd, rfl, hsd, q2, q3, q4, q5, q6, q7, ⟨ow1, ow2⟩, H⟩ := rep_elements hr h
  rw [hsd]
  simp only [Option.bind_some]
  have hi : (indexVal (.map c') (.str id) : M E Val) w = match SMap.find id mm with
      | some v => some (.ok v w)
      | none => some (.ok .nil w) := by simp only [index_map, q2]; cases SMap.find id mm <;> rfl
  cases hf : sd.find id with
  | none =>
    simp only [Option.map_none]
    rw [bind_apply, hi, entries_find_none q3 hf]
    exact rfl
  | some ps =>
    simp only [Option.map_some]
    obtain ⟨u, hu, hpm⟩ := entries_find q3 hf
    obtain ⟨d, hd⟩ := q5 _ (SMap.mem_of_find hu)
    obtain rfl : u = .map d := hd
    rcases hpm with ⟨hpm, _⟩ | ⟨d', hpm, p1, p2, p3⟩
    · cases hpm
    · injection hpm with hpm
      subst hpm
      obtain ⟨w', hw'⟩ : ∃ x : W E, x = { w with heap := upd w.heap d (.entries (SMap.insert k (.str s) (ps.map fun e => (e.1, .str e.2)))) } := ⟨_, rfl⟩
      have hst : (mapPut (.map d) k (.str s) : M E Unit) w = some (.ok () w') := by
        rw [hw']
        show (match w.heap d with
          | .entries es => some (Out.ok () { w with heap := upd w.heap d (.entries (SMap.insert k (.str s) es)) })
          | _ => none) = _
        rw [p3]
      have hins : ∀ ps : SMap Bytes, SMap.insert k (Val.str s) (ps.map fun e => (e.1, .str e.2)) = (SMap.insert k s ps).map fun e => (e.1, .str e.2) := by
        intro ps
        induction ps with
        | nil => rfl
        | cons e ps ih =>
          obtain ⟨k1, v1⟩ := e
          simp only [List.map_cons, SMap.insert]
          split
          · rfl
          · split
            · rfl
            · rw [ih]; rfl
      have hne : d ≠ c' := by
        rintro rfl
        rw [q2] at p3
        injection p3 with p3
        have := SMap.mem_of_find hu
        rw [p3] at this
        obtain ⟨e, _, he⟩ := List.mem_map.mp this
        injection he with _ he
        cases he
      have hh : ∀ x, x ≠ d → w'.heap x = w.heap x := fun x hx => by rw [hw']; exact upd_ne _ _ hx
      have hpn : ParamMap w' a (.map d) (SMap.insert k s ps) := by
        refine Or.inr ⟨d, rfl, by rw [hw']; exact p1, p2, ?_⟩
        rw [← hins, hw']
        exact upd_same _ _ _
      have hs := hr.sorted sd hsd
      have := H w' mm (sd.insert id (ps.insert k s)) (fun x _ hx => hh x (fun hc => hx _ ((congrArg w.heap hc).trans p3))) (by rw [hw']; exact Nat.le_refl _) (by rw [hh _ (Ne.symm hne)]; exact q2)
        (entries_change hpn (fun v qs hv hp => by
          rcases hp with hp | ⟨c, r1, r2, r3, r4⟩
          · exact Or.inl hp
          · exact Or.inr ⟨c, r1, by rw [hw']; exact r2, r3, by rw [hh c (fun hc => hv (by rw [r1, hc]))]; exact r4⟩) q3 hs.1 q4 hu) q4 q5
        (sorted_put hr.sorted (Or.inl hsd) (SMap.sorted_insert (find_sorted hr.sorted hsd hf)))
        (fun x _ hx => hh x (fun hc => hx (by rw [hc]; exact ow2 id d (SMap.mem_of_find hu)))) (fun k d hd _ => ow2 k d hd) (by rw [hw'])
      refine ⟨w', ?_, this.1, by rw [hw'], this.2⟩
      rw [bind_apply, hi, hu]
      exact hst

/-- `sm.StructuredData = &(map[string]map[string]string{})`, if it is nil -/
theorem RepMsg.sdNew {w : W E} {a : Nat} {m : SyslogMessage} (hr : RepMsg w a m) (hnil : m.structuredData = none) :
    ∃ w', (M.bind (Mini.alloc (.entries [])) fun c => M.bind (Mini.alloc (.map c)) fun d => storeAt (.ptr a [.StructuredData]) (.ptr d []) : M E Unit) w = some (.ok () w') ∧
      RepMsg w' a { m with structuredData := some [] } ∧ w'.glob = w.glob ∧ KeepsMap w w' a ∧ Frame w w' a := by
  obtain ⟨ty, fs, h1, h2, b⟩ := hr.msg.base
  obtain ⟨ty2, fs2, v, r1, r2, r3⟩ := hr.msg.sd
  obtain ⟨rfl, rfl⟩ : ty = ty2 ∧ fs = fs2 := by rw [h1] at r1; injection r1 with q1 q2; exact ⟨q1, q2⟩
  obtain ⟨ty3, fs3, v1, v2⟩ := hr.msg.version
  obtain ⟨rfl, rfl⟩ : ty = ty3 ∧ fs = fs3 := by rw [h1] at v1; injection v1 with q1 q2; exact ⟨q1, q2⟩
  rw [hnil] at r3
  obtain rfl : v = .nil := r3
  obtain ⟨w1, hw1⟩ : ∃ x : W E, x = { w with heap := upd (upd w.heap w.next (.entries [])) (w.next + 1) (.map w.next), next := w.next + 1 + 1 } := ⟨_, rfl⟩
  have hk1 : Keeps w w1 := by
    rw [hw1]
    exact ⟨fun x hx => by rw [show (W.heap _ : Nat → Val) = _ from rfl]; simp only; rw [upd_ne _ _ (by omega), upd_ne _ _ (by omega)], by show w.next ≤ w.next + 1 + 1; omega, rfl, rfl⟩
  have h1' : w1.heap a = .struct ty fs := by rw [hk1.1 a h2]; exact h1
  have st := store_field h1' r2 (.ptr (w.next + 1) [])
  rw [coerce_ptr] at st
  obtain ⟨w', hw'⟩ : ∃ x : W E, x = { w1 with heap := upd w1.heap a (.struct ty (setField fs .StructuredData (.ptr (w.next + 1) []))) } := ⟨_, rfl⟩
  rw [← hw'] at st
  have hk2 : KeepsBut a w1 w' := by rw [hw']; exact KeepsBut.upd w1 a _
  have hk := (hk1.but a).trans hk2
  have h3 : w'.heap a = .struct ty (setField fs .StructuredData (.ptr (w.next + 1) [])) := by rw [hw']; exact upd_same _ _ _
  have h4 : ∀ g, g ≠ .StructuredData → List.lookup g (setField fs .StructuredData (.ptr (w.next + 1) [])) = List.lookup g fs := by
    intro g hg
    rw [lookup_setField, if_neg hg]
  have h5 : List.lookup .StructuredData (setField fs .StructuredData (.ptr (w.next + 1) [])) = some (.ptr (w.next + 1) []) := by
    rw [lookup_setField, if_pos rfl, r2]; rfl
  have hn1 : w1.next = w.next + 1 + 1 := by rw [hw1]
  have hn : w'.next = w.next + 1 + 1 := by rw [hw', ← hn1]
  have h6 : w'.heap (w.next + 1) = .map w.next := by
    rw [hk2.1 _ (by omega) (by omega), hw1]; exact upd_same _ _ _
  have h7 : w'.heap w.next = .entries [] := by
    rw [hk2.1 _ (by omega) (by omega), hw1]
    show upd (upd w.heap w.next (.entries [])) (w.next + 1) (.map w.next) w.next = _
    rw [upd_ne _ _ (by omega), upd_same]
  have hkm : KeepsMap w w' a := by
    intro ty4 fs4 c p c' g1 g2 g3
    obtain ⟨rfl, rfl⟩ : ty = ty4 ∧ fs = fs4 := by rw [h1] at g1; injection g1 with q1 q2; exact ⟨q1, q2⟩
    rw [r2] at g2
    cases g2
  refine ⟨w', ?_, ⟨⟨⟨ty, _, h3, by omega, ?_⟩, ⟨_, _, h3, by rw [h4 _ (by decide)]; exact v2⟩, ⟨_, _, _, h3, h5, w.next + 1, [], .map w.next, rfl, by omega, by omega, by rw [h6]; rfl,
    Or.inr ⟨w.next, [], rfl, by omega, by omega, h7, trivial⟩⟩⟩, ?_, ?_⟩, by rw [hk.2.2.1], hkm, ⟨by omega, fun x hx ho => hk.1 x hx (fun hc => ho (Or.inl hc)), ?_, hkm, hk.2.2.2⟩, fun ty4 fs4 f4 x p g1 g2 hx => by
      obtain ⟨rfl, rfl⟩ : ty = ty4 ∧ _ = fs4 := by rw [h3] at g1; injection g1 with q1 q2; exact ⟨q1, q2⟩
      rcases lookup_put g2 with h | h
      · injection h with h; omega
      · exact ⟨_, _, p, h1, h⟩⟩
  · rw [hw1] at st
    exact st
  · have b4 := b.keep hk
    exact ⟨b4.facility.set _ _ (by decide), b4.severity.set _ _ (by decide), b4.priority.set _ _ (by decide), b4.timestamp.set _ _ (by decide), b4.hostname.set _ _ (by decide),
      b4.appname.set _ _ (by decide), b4.procID.set _ _ (by decide), b4.msgID.set _ _ (by decide), b4.message.set _ _ (by decide)⟩
  · intro ty4 fs4 c p g1 g2
    obtain ⟨rfl, rfl⟩ : ty = ty4 ∧ _ = fs4 := by rw [h3] at g1; injection g1 with q1 q2; exact ⟨q1, q2⟩
    rw [h5] at g2
    have g2 := Option.some.inj g2
    injection g2 with q1 q2
    subst q1; subst q2
    exact ⟨w.next, [], by rw [h6]; rfl, h7, List.nodup_nil, fun e he => by cases he⟩
  · intro sd h
    obtain rfl := Option.some.inj h
    exact ⟨trivial, fun e he => by cases he⟩
  · intro x hx ho
    rcases ho with rfl | ⟨ty4, fs4, c, p, c', mm, g1, g2, g3, g4, g5⟩
    · exact Or.inl rfl
    · exfalso
      obtain ⟨rfl, rfl⟩ : ty = ty4 ∧ _ = fs4 := by rw [h3] at g1; injection g1 with q1 q2; exact ⟨q1, q2⟩
      rw [h5] at g2
      have g2 := Option.some.inj g2
      injection g2 with q1 q2
      subst q1; subst q2
      rw [h6] at g3
      have g3 := Option.some.inj g3
      injection g3 with g3
      subst g3
      rw [h7] at g4
      injection g4 with g4
      subst g4
      rcases g5 with g5 | ⟨k, g5⟩
      · omega
      · cases g5

/-- `elements[id] = map[string]string{}` -/
theorem RepMsg.elementAdd {w : W E} {a : Nat} {m : SyslogMessage} {v : Val} (hr : RepMsg w a m) (h : IsElements w a v) (id : Bytes) :
    ∃ sd w', m.structuredData = some sd ∧ (M.bind (Mini.alloc (.entries [])) fun c => mapPut v id (.map c) : M E Unit) w = some (.ok () w') ∧
      RepMsg w' a { m with structuredData := some (sd.insert id []) } ∧ w'.glob = w.glob ∧ KeepsMap w w' a ∧ Frame w w' a := by
  obtain ⟨c', mm, sd, rfl, hsd, q2, q3, q4, q5, q6, q7, ⟨ow1, ow2⟩, H⟩ := rep_elements hr h
  obtain ⟨w1, hw1⟩ : ∃ x : W E, x = { w with heap := upd w.heap w.next (.entries []), next := w.next + 1 } := ⟨_, rfl⟩
  obtain ⟨w', hw'⟩ : ∃ x : W E, x = { w1 with heap := upd w1.heap c' (.entries (SMap.insert id (.map w.next) mm)) } := ⟨_, rfl⟩
  have h1 : ∀ x, x ≠ w.next → w1.heap x = w.heap x := fun x hx => by rw [hw1]; exact upd_ne _ _ hx
  have h2 : ∀ x, x ≠ c' → w'.heap x = w1.heap x := fun x hx => by rw [hw']; exact upd_ne _ _ hx
  have hn : w'.next = w.next + 1 := by rw [hw', hw1]
  have hst : (mapPut (.map c') id (.map w.next) : M E Unit) w1 = some (.ok () w') := by
    rw [hw']
    show (match w1.heap c' with
      | .entries es => some (Out.ok () { w1 with heap := upd w1.heap c' (.entries (SMap.insert id (.map w.next) es)) })
      | _ => none) = _
    rw [h1 c' (by omega), q2]
  have hnew : w'.heap w.next = .entries [] := by rw [h2 _ (by omega), hw1]; exact upd_same _ _ _
  have hc' : w'.heap c' = .entries (SMap.insert id (.map w.next) mm) := by rw [hw']; exact upd_same _ _ _
  have ha := hr.msg.base.choose_spec.choose_spec.2.1
  have hbelow : ∀ e ∈ mm, ∀ d, e.2 = .map d → d < w.next ∧ d ≠ c' := by
    have hno : ∀ (es : SMap Bytes), mm = (es.map fun e => (e.1, Val.str e.2)) → mm = [] := by
      intro es hes
      cases mm with
      | nil => rfl
      | cons e mm =>
        obtain ⟨d, hd⟩ := q5 e (by simp)
        cases es with
        | nil => cases hes
        | cons x es => injection hes with hes _; rw [hes] at hd; cases hd
    have key : ∀ (mm' : List (Bytes × Val)) (sd' : Rfc5424.SD), ElemEntries w a mm' sd' → ∀ e ∈ mm', ∀ d, e.2 = .map d → d < w.next ∧ ∃ ps : SMap Bytes, w.heap d = .entries (ps.map fun e => (e.1, Val.str e.2)) := by
      intro mm'
      induction mm' with
      | nil => intro _ _ e he; cases he
      | cons x mm' ih =>
        intro sd' hsd' e he d hd
        cases sd' with
        | nil => exact hsd'.elim
        | cons y sd' =>
          rcases List.mem_cons.mp he with rfl | he
          · rcases hsd'.2.1 with ⟨h, _⟩ | ⟨c, h, k1, k2, k3⟩
            · rw [hd] at h; cases h
            · rw [hd] at h; injection h with h; subst h; exact ⟨k1, _, k3⟩
          · exact ih sd' hsd'.2.2 e he d hd
    intro e he d hd
    obtain ⟨k1, ps, k2⟩ := key mm sd q3 e he d hd
    refine ⟨k1, ?_⟩
    rintro rfl
    rw [q2] at k2
    injection k2 with k2
    have := hno _ k2
    rw [this] at he
    cases he
  have hold : ElemEntries w' a mm sd := by
    have : ∀ (mm' : List (Bytes × Val)) (sd' : Rfc5424.SD), (∀ e ∈ mm', ∀ d, e.2 = .map d → d < w.next ∧ d ≠ c') → ElemEntries w a mm' sd' → ElemEntries w' a mm' sd' := by
      intro mm'
      induction mm' with
      | nil => intro sd' _ h; cases sd' <;> exact h
      | cons x mm' ih =>
        intro sd' hb h
        cases sd' with
        | nil => exact h
        | cons y sd' =>
          refine ⟨h.1, ?_, ih sd' (fun e he => hb e (by simp [he])) h.2.2⟩
          rcases h.2.1 with h | ⟨c, r1, r2, r3, r4⟩
          · exact Or.inl h
          · obtain ⟨k1, k2⟩ := hb x (by simp) c r1
            exact Or.inr ⟨c, r1, by omega, r3, by rw [h2 c k2, h1 c (by omega)]; exact r4⟩
    exact this mm sd hbelow q3
  have := H w' (SMap.insert id (.map w.next) mm) (sd.insert id []) (fun x hx hes => by
      rw [h2 x (fun hc => hes _ ((congrArg w.heap hc).trans q2)), h1 x (by omega)]) (by omega) hc'
    (entries_insert (Or.inr ⟨w.next, rfl, by omega, by omega, hnew⟩) hold)
    (nodup_insert q4 (fun hc => by
      obtain ⟨e, he, he2⟩ := List.mem_map.mp hc
      have := (hbelow e he _ he2).1
      omega))
    (fun e he => by
      rcases SMap.mem_insert he with rfl | he
      · exact ⟨_, rfl⟩
      · exact q5 e he)
    (sorted_put hr.sorted (Or.inl hsd) SMap.sorted_nil)
    (fun x hx ho => by rw [h2 x (fun hc => ho (by rw [hc]; exact ow1)), h1 x (by omega)])
    (fun k d hd hlt => by
      rcases SMap.mem_insert hd with hd | hd
      · injection hd with _ hd
        injection hd with hd
        omega
      · exact ow2 k d hd) (by rw [hw', hw1])
  refine ⟨sd, w', hsd, ?_, this.1, by rw [hw', hw1], this.2⟩
  rw [hw1] at hst
  exact hst

theorem setCorr {calls : Nm → List Val → M E Val} (hcalls : ∀ (e : Entry) (w : W E), calls .rfc5424_entrypoint_translate [.int .int (entryCode e)] w = some (.ok (.int .int e.translate) w))
    (w0 : W E) (a : Nat) : Corr flow Go.RB.sem (setSem calls a) (SetRel w0 a) where
  left := fun d d' x y h => { h with
    t := fun k => h.t (by simp only [flow, Bool.and_eq_true] at k; exact k.1)
    s := fun k => h.s (by simp only [flow, Bool.and_eq_true] at k; exact k.1)
    el := fun k => h.el (by simp only [flow, Bool.and_eq_true] at k; exact k.1)
    nil := fun k => h.nil (by simp only [flow, Bool.and_eq_true] at k; exact k.1) }
  right := fun d d' x y h => { h with
    t := fun k => h.t (by simp only [flow, Bool.and_eq_true] at k; exact k.2)
    s := fun k => h.s (by simp only [flow, Bool.and_eq_true] at k; exact k.2)
    el := fun k => h.el (by simp only [flow, Bool.and_eq_true] at k; exact k.2)
    nil := fun k => h.nil (by simp only [flow, Bool.and_eq_true] at k; exact k.2) }
  start := fun d x y _ h => h.weak
  thn := by
    intro d c g g' hc h hq hb
    cases c with
    | sdNil =>
      have hb : some g.x.sm.structuredData.isNone = some true := hb
      have hn : g.x.sm.structuredData = none := by simpa using hb
      exact { hq with nil := fun _ => hn }
    | _ => exact hq
  cond := by
    intro d c g g' hc h hq
    cases c with
    | eNil => show some (!g'.x.e) = some (!g.x.e); rw [hq.e]
    | notOk => show some (!g'.x.ok) = some (!g.x.ok); rw [hq.ok]
    | hasBackslashes => show some (decide (0 < g'.x.backslashes.length)) = some (decide (0 < g.x.backslashes.length)); rw [hq.backslashes]
    | sNotDash =>
      have hs := (hq.s hc).2.2.1
      show (strAt g'.x.w g'.x.s).map (fun s => decide (s ≠ [45])) = some (decide (g.x.s ≠ [45]))
      rw [strAt, hs]; rfl
    | sNotEmpty =>
      have hs := (hq.s hc).2.2.1
      show (strAt g'.x.w g'.x.s).map (fun s => decide (s ≠ [])) = some (decide (g.x.s ≠ []))
      rw [strAt, hs]; rfl
    | sdNil =>
      obtain ⟨ty, fs, v, h1, h2, h3⟩ := hq.rep.msg.sd
      have hl : (recv a .StructuredData : M E Val) g'.x.w = some (.ok v g'.x.w) := load_path (by rw [h1]; simp [Val.getPath, Val.get, h2])
      show (match (recv a .StructuredData : M E Val) g'.x.w with
        | some (.ok v _) => some v.isNil
        | _ => none) = some g.x.sm.structuredData.isNone
      rw [hl]
      cases hsd : g.x.sm.structuredData with
      | none => rw [hsd] at h3; obtain rfl : v = .nil := h3; rfl
      | some sd => rw [hsd] at h3; obtain ⟨c, p, u, rfl, _⟩ := h3; rfl
  stmt := by
    intro d d' s g g' hf h hq
    have ht := same_text h hq.pb
    show Go.StepRel (SetRel w0 a d') (Go.RB.stmt s g) (setStmt calls a s g')
    cases s with
    | pbZero => obtain rfl := Option.some.inj hf; exact ⟨_, rfl, Same.x h _ _, { hq with pb := rfl }⟩
    | backslashesNew => obtain rfl := Option.some.inj hf; exact ⟨_, rfl, Same.x h _ _, { hq with backslashes := rfl }⟩
    | pbP => obtain rfl := Option.some.inj hf; exact ⟨_, rfl, Same.x h _ _, { hq with pb := h.p }⟩
    | backslashesAppend => obtain rfl := Option.some.inj hf; exact ⟨_, rfl, Same.x h _ _, { hq with backslashes := by simp [hq.backslashes, h.p] }⟩
    | csFrom =>
      obtain rfl := Option.some.inj hf
      have hc := hcalls g.x.from_ g'.x.w
      rw [← hq.from_] at hc
      refine ⟨{ g' with cs := g.x.from_.translate, x := { g'.x with w := g'.x.w } }, ?_, ⟨h.1, h.2, h.3, h.4, h.5, rfl, h.7⟩, hq⟩
      show (match calls .rfc5424_entrypoint_translate [.int .int g'.x.from_] g'.x.w with
        | some (.ok (.int _ n) w) => some { g' with cs := n.toNat, x := { g'.x with w := w } }
        | some (.panic _) => none
        | _ => some { g' with x := { g'.x with bad := true } }) = _
      rw [hc]
      rfl
    | timeParse =>
      obtain rfl := Option.some.inj hf
      simp only [setStmt, Go.RB.stmt, Go.RB.assign]
      rw [ht]
      cases Go.RB.text g with
      | none => rfl
      | some t =>
        simp only [Option.map_some]
        cases GoTime.parseRFC3339Micro t with
        | none => exact ⟨_, eff_ok rfl, Same.x h _ _, { hq.alloc _ with
            e := rfl, t := fun _ => ⟨Nat.lt_succ_self _, Nat.ne_of_gt hq.own, upd_same _ _ _, hq.frame.next⟩, s := (fun h => by cases h), el := (fun h => by cases h), nil := (fun h => by cases h) }⟩
        | some tm => exact ⟨_, eff_ok rfl, Same.x h _ _, { hq.alloc _ with
            e := rfl, t := fun _ => ⟨Nat.lt_succ_self _, Nat.ne_of_gt hq.own, upd_same _ _ _, hq.frame.next⟩, s := (fun h => by cases h), el := (fun h => by cases h), nil := (fun h => by cases h) }⟩
    | sText =>
      obtain rfl := Option.some.inj hf
      simp only [setStmt, Go.RB.stmt, Go.RB.assign]
      rw [ht]
      cases Go.RB.text g with
      | none => rfl
      | some t => exact ⟨_, eff_ok rfl, Same.x h _ _, { hq.alloc _ with
            s := fun _ => ⟨Nat.lt_succ_self _, Nat.ne_of_gt hq.own, upd_same _ _ _, hq.frame.next⟩, t := (fun h => by cases h), el := (fun h => by cases h), nil := (fun h => by cases h) }⟩
    | idText =>
      obtain rfl := Option.some.inj hf
      simp only [setStmt, Go.RB.stmt, Go.RB.assign]
      rw [ht]
      cases Go.RB.text g with
      | none => rfl
      | some t => exact ⟨_, rfl, Same.x h _ _, { hq with id := rfl }⟩
    | textNew =>
      obtain rfl := Option.some.inj hf
      simp only [setStmt, Go.RB.stmt, Go.RB.assign]
      rw [ht]
      cases Go.RB.text g with
      | none => rfl
      | some t => exact ⟨_, rfl, Same.x h _ _, { hq with text := rfl }⟩
    | removeBytes =>
      obtain rfl := Option.some.inj hf
      simp only [setStmt, Go.RB.stmt, Go.RB.assign]
      have he : Common.removeBytes g'.x.text g'.x.backslashes g'.x.pb = Common.removeBytes g.x.text g.x.backslashes g.x.pb := by rw [hq.text, hq.backslashes, hq.pb]
      rw [he]
      cases Common.removeBytes g.x.text g.x.backslashes g.x.pb with
      | none => rfl
      | some t => exact ⟨_, rfl, Same.x h _ _, { hq with text := rfl }⟩
    | timestamp =>
      have hd : d.t = true := by cases hd : d.t <;> simp [flow, hd] at hf ⊢
      obtain rfl : ({} : Md) = d' := by simpa [flow, hd] using hf
      obtain ⟨c1, c2, c3, c4⟩ := hq.t hd
      obtain ⟨w', e1, e2, e3, e4⟩ := hq.rep.field (m' := { g.x.sm with timestamp := some g.x.t }) (f := .Timestamp) g'.x.t (by decide) (by decide) (fun fs b => ⟨_, b.timestamp.choose_spec.1⟩)
        (fun fs b => ⟨b.facility.set _ _ (by decide), b.severity.set _ _ (by decide), b.priority.set _ _ (by decide), b.timestamp.put _ _ _ c1 c2 (by rw [c3]; rfl), b.hostname.set _ _ (by decide),
          b.appname.set _ _ (by decide), b.procID.set _ _ (by decide), b.msgID.set _ _ (by decide), b.message.set _ _ (by decide)⟩) rfl rfl hq.frame c4
      simp only [setStmt, Go.RB.stmt, Go.RB.assign]
      exact ⟨_, eff_ok e1, Same.x h _ _, hq.put e2 e3 e4⟩
    | hostname =>
      have hd : d.s = true := by cases hd : d.s <;> simp [flow, hd] at hf ⊢
      obtain rfl : ({} : Md) = d' := by simpa [flow, hd] using hf
      obtain ⟨c1, c2, c3, c4⟩ := hq.s hd
      obtain ⟨w', e1, e2, e3, e4⟩ := hq.rep.field (m' := { g.x.sm with hostname := some g.x.s }) (f := .Hostname) g'.x.s (by decide) (by decide) (fun fs b => ⟨_, b.hostname.choose_spec.1⟩)
        (fun fs b => ⟨b.facility.set _ _ (by decide), b.severity.set _ _ (by decide), b.priority.set _ _ (by decide), b.timestamp.set _ _ (by decide), b.hostname.put _ _ _ c1 c2 (by rw [c3]; rfl),
          b.appname.set _ _ (by decide), b.procID.set _ _ (by decide), b.msgID.set _ _ (by decide), b.message.set _ _ (by decide)⟩) rfl rfl hq.frame c4
      simp only [setStmt, Go.RB.stmt, Go.RB.assign]
      exact ⟨_, eff_ok e1, Same.x h _ _, hq.put e2 e3 e4⟩
    | appname =>
      have hd : d.s = true := by cases hd : d.s <;> simp [flow, hd] at hf ⊢
      obtain rfl : ({} : Md) = d' := by simpa [flow, hd] using hf
      obtain ⟨c1, c2, c3, c4⟩ := hq.s hd
      obtain ⟨w', e1, e2, e3, e4⟩ := hq.rep.field (m' := { g.x.sm with appname := some g.x.s }) (f := .Appname) g'.x.s (by decide) (by decide) (fun fs b => ⟨_, b.appname.choose_spec.1⟩)
        (fun fs b => ⟨b.facility.set _ _ (by decide), b.severity.set _ _ (by decide), b.priority.set _ _ (by decide), b.timestamp.set _ _ (by decide), b.hostname.set _ _ (by decide),
          b.appname.put _ _ _ c1 c2 (by rw [c3]; rfl), b.procID.set _ _ (by decide), b.msgID.set _ _ (by decide), b.message.set _ _ (by decide)⟩) rfl rfl hq.frame c4
      simp only [setStmt, Go.RB.stmt, Go.RB.assign]
      exact ⟨_, eff_ok e1, Same.x h _ _, hq.put e2 e3 e4⟩
    | procID =>
      have hd : d.s = true := by cases hd : d.s <;> simp [flow, hd] at hf ⊢
      obtain rfl : ({} : Md) = d' := by simpa [flow, hd] using hf
      obtain ⟨c1, c2, c3, c4⟩ := hq.s hd
      obtain ⟨w', e1, e2, e3, e4⟩ := hq.rep.field (m' := { g.x.sm with procID := some g.x.s }) (f := .ProcID) g'.x.s (by decide) (by decide) (fun fs b => ⟨_, b.procID.choose_spec.1⟩)
        (fun fs b => ⟨b.facility.set _ _ (by decide), b.severity.set _ _ (by decide), b.priority.set _ _ (by decide), b.timestamp.set _ _ (by decide), b.hostname.set _ _ (by decide),
          b.appname.set _ _ (by decide), b.procID.put _ _ _ c1 c2 (by rw [c3]; rfl), b.msgID.set _ _ (by decide), b.message.set _ _ (by decide)⟩) rfl rfl hq.frame c4
      simp only [setStmt, Go.RB.stmt, Go.RB.assign]
      exact ⟨_, eff_ok e1, Same.x h _ _, hq.put e2 e3 e4⟩
    | msgID =>
      have hd : d.s = true := by cases hd : d.s <;> simp [flow, hd] at hf ⊢
      obtain rfl : ({} : Md) = d' := by simpa [flow, hd] using hf
      obtain ⟨c1, c2, c3, c4⟩ := hq.s hd
      obtain ⟨w', e1, e2, e3, e4⟩ := hq.rep.field (m' := { g.x.sm with msgID := some g.x.s }) (f := .MsgID) g'.x.s (by decide) (by decide) (fun fs b => ⟨_, b.msgID.choose_spec.1⟩)
        (fun fs b => ⟨b.facility.set _ _ (by decide), b.severity.set _ _ (by decide), b.priority.set _ _ (by decide), b.timestamp.set _ _ (by decide), b.hostname.set _ _ (by decide),
          b.appname.set _ _ (by decide), b.procID.set _ _ (by decide), b.msgID.put _ _ _ c1 c2 (by rw [c3]; rfl), b.message.set _ _ (by decide)⟩) rfl rfl hq.frame c4
      simp only [setStmt, Go.RB.stmt, Go.RB.assign]
      exact ⟨_, eff_ok e1, Same.x h _ _, hq.put e2 e3 e4⟩
    | message =>
      have hd : d.s = true := by cases hd : d.s <;> simp [flow, hd] at hf ⊢
      obtain rfl : ({} : Md) = d' := by simpa [flow, hd] using hf
      obtain ⟨c1, c2, c3, c4⟩ := hq.s hd
      obtain ⟨w', e1, e2, e3, e4⟩ := hq.rep.field (m' := { g.x.sm with message := some g.x.s }) (f := .Message) g'.x.s (by decide) (by decide) (fun fs b => ⟨_, b.message.choose_spec.1⟩)
        (fun fs b => ⟨b.facility.set _ _ (by decide), b.severity.set _ _ (by decide), b.priority.set _ _ (by decide), b.timestamp.set _ _ (by decide), b.hostname.set _ _ (by decide),
          b.appname.set _ _ (by decide), b.procID.set _ _ (by decide), b.msgID.set _ _ (by decide), b.message.put _ _ _ c1 c2 (by rw [c3]; rfl)⟩) rfl rfl hq.frame c4
      simp only [setStmt, Go.RB.stmt, Go.RB.assign]
      exact ⟨_, eff_ok e1, Same.x h _ _, hq.put e2 e3 e4⟩
    | sdNew =>
      have hd : d.nil = true := by cases hd : d.nil <;> simp [flow, hd] at hf ⊢
      obtain rfl : ({} : Md) = d' := by simpa [flow, hd] using hf
      have hnil := hq.nil hd
      obtain ⟨w', e1, e2, e3, e4⟩ := hq.rep.sdNew hnil
      simp only [setStmt, Go.RB.stmt, Go.RB.assign]
      exact ⟨_, eff_ok e1, Same.x h _ _, hq.put e2 e3 ⟨e4.1, hq.frame.trans e4.2⟩⟩
    | elements =>
      obtain rfl := Option.some.inj hf
      simp only [setStmt, Go.RB.stmt, Go.RB.assign]
      cases hsd : g.x.sm.structuredData with
      | none =>
        obtain ⟨ty, fs, v, h1, h2, h3⟩ := hq.rep.msg.sd
        rw [hsd] at h3
        obtain rfl : v = .nil := h3
        have hl : (recv a .StructuredData : M E Val) g'.x.w = some (.ok .nil g'.x.w) := load_path (by rw [h1]; simp [Val.getPath, Val.get, h2])
        exact eff_panic (w := g'.x.w) (by rw [bind_apply, hl]; rfl)
      | some sd =>
        obtain ⟨ty, fs, c, p, c', mm, h1, h2, h3, h4, h5⟩ := rep_sd hq.rep hsd
        have hl : (recv a .StructuredData : M E Val) g'.x.w = some (.ok (.ptr c p) g'.x.w) := load_path (by rw [h1]; simp [Val.getPath, Val.get, h2])
        exact ⟨_, eff_ok (w := g'.x.w) (x := .map c') (by rw [bind_apply, hl]; exact load_path h3), Same.x h _ _,
          { hq with t := (fun h => by cases h), s := (fun h => by cases h), nil := (fun h => by cases h), el := fun _ => ⟨ty, fs, c, p, c', h1, h2, h3, rfl⟩ }⟩
    | elementLookup =>
      have hd : d.el = true := by cases hd : d.el <;> simp [flow, hd] at hf ⊢
      obtain rfl : d = d' := by simpa [flow, hd] using hf
      obtain ⟨c', mm, sd, he, hsd, q2, q3, _⟩ := rep_elements hq.rep (hq.el hd)
      obtain ⟨u, hu⟩ : ∃ u, (indexOkVal g'.x.elements (.str g'.x.id) : M E Val) g'.x.w = some (.ok (.tuple [u, .bool (sd.find g.x.id).isSome]) g'.x.w) := by
        rw [he, hq.id, indexOk_map, q2]
        cases hf : sd.find g.x.id with
        | none => exact ⟨.nil, by simp [entries_find_none q3 hf]⟩
        | some ps => obtain ⟨v, hv, _⟩ := entries_find q3 hf; exact ⟨v, by simp [hv]⟩
      simp only [setStmt, Go.RB.stmt]
      exact ⟨_, eff_ok hu, Same.x h _ _, { hq with ok := by simp [hsd] }⟩
    | elementAdd =>
      have hd : d.el = true := by cases hd : d.el <;> simp [flow, hd] at hf ⊢
      obtain rfl : ({} : Md) = d' := by simpa [flow, hd] using hf
      obtain ⟨sd, w', hsd, e1, e2, e3, e4⟩ := hq.rep.elementAdd (hq.el hd) g'.x.id
      simp only [setStmt, Go.RB.stmt, Go.RB.assign]
      rw [hsd]
      rw [hq.id] at e1 e2
      rw [hq.id]
      exact ⟨_, eff_ok e1, Same.x h _ _, hq.put e2 e3 ⟨e4.1, hq.frame.trans e4.2⟩⟩
    | paramAdd =>
      have hd : d.el = true := by cases hd : d.el <;> simp [flow, hd] at hf ⊢
      obtain rfl : ({} : Md) = d' := by simpa [flow, hd] using hf
      obtain ⟨_, _, sd, _, hsd, _⟩ := rep_elements hq.rep (hq.el hd)
      simp only [setStmt, Go.RB.stmt, Go.RB.assign]
      rw [ht, hq.glob.1, hsd]
      cases Go.RB.text g with
      | none => rfl
      | some t =>
        have hp := param_put hq.rep (hq.el hd) g.x.glob.currentid t []
        rw [hsd] at hp
        simp only [Option.bind_some] at hp ⊢
        cases hf : sd.find g.x.glob.currentid with
        | none => rw [hf] at hp; exact eff_panic hp
        | some ps =>
          rw [hf] at hp
          obtain ⟨w', e1, e2, e3, e4⟩ := hp
          exact ⟨_, eff_ok e1, Same.x h _ _, hq.put e2 e3 ⟨e4.1, hq.frame.trans e4.2⟩⟩
    | paramSet =>
      have hd : d.el = true := by cases hd : d.el <;> simp [flow, hd] at hf ⊢
      obtain rfl : ({} : Md) = d' := by simpa [flow, hd] using hf
      obtain ⟨_, _, sd, _, hsd, _⟩ := rep_elements hq.rep (hq.el hd)
      simp only [setStmt, Go.RB.stmt, Go.RB.assign]
      rw [hq.glob.1, hq.glob.2, hsd, hq.text]
      have hp := param_put hq.rep (hq.el hd) g.x.glob.currentid g.x.glob.currentparamname g.x.text
      rw [hsd] at hp
      simp only [Option.bind_some] at hp ⊢
      cases hf : sd.find g.x.glob.currentid with
      | none => rw [hf] at hp; exact eff_panic hp
      | some ps =>
        rw [hf] at hp
        obtain ⟨w', e1, e2, e3, e4⟩ := hp
        exact ⟨_, eff_ok e1, Same.x h _ _, hq.put e2 e3 ⟨e4.1, hq.frame.trans e4.2⟩⟩

/-- **`set`, executed over memory, meets the assumption about it.** -/
theorem setGo_ok {calls : Nm → List Val → M E Val} (hcalls : ∀ (e : Entry) (w : W E), calls .rfc5424_entrypoint_translate [.int .int (entryCode e)] w = some (.ok (.int .int e.translate) w))
    {X : Nm → List Val → M E Val} (hX : X .rfc5424_SyslogMessage_set = setGo calls) : SetOk X := by
  intro w a m g e v hr hg
  rw [hX]
  have hrel : SetRel w a {} { from_ := e, sm := m, glob := g } { w := w, from_ := entryCode e } :=
    ⟨rfl, rfl, rfl, rfl, rfl, rfl, rfl, rfl, hr, hg, rfl, KeepsMap.refl w a, Frame.refl w a, (fun h => by cases h), (fun h => by cases h), (fun h => by cases h), (fun h => by cases h)⟩
  have hrun := (setCorr hcalls w a).run flow_prog (13 * v.length + 17) .entry { input := v, x := { from_ := e, sm := m, glob := g } }
    { input := v, x := { w := w, from_ := entryCode e } } ⟨rfl, rfl, rfl, rfl, rfl, rfl, rfl⟩ hrel
  have hc := Props.C101_set g e v m
  have hgo : setGo calls [.ptr a [], .int .int (entryCode e), .str v] w =
      match (setSem calls a).run Gen.GoBuilder.prog (13 * v.length + 17) .entry { input := v, x := { w := w, from_ := entryCode e } } with
      | .returned _ g => if g.x.bad then none else some (.ok (.ptr a []) g.x.w)
      | .panics => some (.panic w)
      | _ => none := rfl
  rw [hgo]
  cases hs : Builder.set g e v m with
  | none =>
    rw [hs] at hc
    have hc : Go.RB.sem.run Gen.GoBuilder.prog (13 * v.length + 17) .entry { input := v, x := { from_ := e, sm := m, glob := g } } = .panics := hc
    rw [hc] at hrun
    cases hr2 : (setSem calls a).run Gen.GoBuilder.prog (13 * v.length + 17) .entry { input := v, x := { w := w, from_ := entryCode e } } with
    | panics => exact ⟨w, rfl⟩
    | returned r g' => rw [hr2] at hrun; exact hrun.elim
    | stuck => rw [hr2] at hrun; exact hrun.elim
    | timeout => rw [hr2] at hrun; exact hrun.elim
  | some m' =>
    rw [hs] at hc
    obtain ⟨g1, hc, hm⟩ := hc
    have hc : Go.RB.sem.run Gen.GoBuilder.prog (13 * v.length + 17) .entry { input := v, x := { from_ := e, sm := m, glob := g } } = .returned .sm g1 := hc
    rw [hc] at hrun
    cases hr2 : (setSem calls a).run Gen.GoBuilder.prog (13 * v.length + 17) .entry { input := v, x := { w := w, from_ := entryCode e } } with
    | panics => rw [hr2] at hrun; exact hrun.elim
    | stuck => rw [hr2] at hrun; exact hrun.elim
    | timeout => rw [hr2] at hrun; exact hrun.elim
    | returned r g' =>
      rw [hr2] at hrun
      obtain ⟨_, _, hq⟩ := hrun
      refine ⟨g'.x.w, by simp only [hq.bad]; rfl, hm ▸ hq.rep, hq.globs, hq.map.same, hq.frame⟩

end Verif.Mini
