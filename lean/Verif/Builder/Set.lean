import Verif.Builder.Model
import Verif.Rfc5424.GrammarSD
import Verif.Rfc5424.Grammar

/-! # What `set` does, per entry point -/

namespace Verif.Builder
open Verif.Fsm Verif.Gen.Builder Verif.Spec
open Verif.Rfc5424 (SyslogMessage SD slice isGraph isSdName forall_byte)

/-- result of the end-of-input action -/
def stepSm : Step B → Option SyslogMessage
  | .next m => some m.sm
  | .jump m _ => some m.sm
  | .panic => none

def resSm : Res B → Option SyslogMessage
  | .done _ b => some b.sm
  | .panic => none
  | .loop => none

theorem set_eq (g : Globals) (e : Entry) (value : Bytes) (sm : SyslogMessage) :
    set g e value sm = resSm (run T act adv value e.translate { data := value, sm := sm, g := g }) := by
  simp only [set, resSm]; split <;> simp_all

theorem act_no_jump (a : Act) (m m' : B) (s : Nat) : act a m ≠ .jump m' s := by
  cases a <;> simp only [act, withText] <;> (repeat' split) <;> simp

theorem runEof_one {cs : Nat} {m : B} {a : Act} (h : (T cs).eof = [a]) : resSm (runEof T act jumpFuel cs m) = stepSm (act a m) := by
  simp only [jumpFuel, runEof, h, runActs]
  cases ha : act a m with
  | next m' => rfl
  | jump m' s => exact absurd ha (act_no_jump a m m' s)
  | panic => rfl

theorem runEof_nil {cs : Nat} {m : B} (h : (T cs).eof = []) : resSm (runEof T act jumpFuel cs m) = some m.sm := by
  simp only [jumpFuel, runEof, h, runActs, resSm]

/-- a byte that stops the automaton -/
theorem run_zero {b : UInt8} {bs : Bytes} {cs : Nat} {m : B} (hf : (T cs).frm = []) (hd : (T cs).dispatch b.toNat = ⟨[], 0⟩) :
    resSm (run T act adv (b :: bs) cs m) = some m.sm := by
  rw [run_stop (acts := []) (m1 := m) (m2 := m) hd (by rw [hf]; rfl) rfl]; rfl

/-- states `f 0 .. f (n-1)` reading bytes of a class -/
structure Chain (f : Nat → Nat) (n : Nat) (cls : UInt8 → Bool) (a : Act) : Prop where
  frm : ∀ k, k < n → (T (f k)).frm = []
  eof : ∀ k, k < n → (T (f k)).eof = [a]
  disp : ∀ k, k < n → ∀ b : UInt8, (T (f k)).dispatch b.toNat = if k + 1 < n ∧ cls b = true then ⟨[], f (k + 1)⟩ else ⟨[], 0⟩
  ne : ∀ k, f k ≠ 0

theorem chain_run {f : Nat → Nat} {n : Nat} {cls : UInt8 → Bool} {a : Act} (h : Chain f n cls a) :
    ∀ (w : Bytes) (k : Nat) (m : B), k < n → resSm (run T act adv w (f k) m) =
      if w.all cls = true ∧ k + w.length < n then stepSm (act a { m with p := m.p + w.length }) else some m.sm := by
  intro w
  induction w with
  | nil =>
    intro k m hk
    rw [if_pos ⟨rfl, by simpa using hk⟩]
    exact runEof_one (h.eof k hk)
  | cons b w ih =>
    intro k m hk
    have hd := h.disp k hk b
    by_cases hc : k + 1 < n ∧ cls b = true
    · rw [if_pos hc] at hd
      obtain ⟨t, ht⟩ := Nat.exists_eq_succ_of_ne_zero (h.ne (k + 1))
      rw [ht] at hd
      rw [run_simple (h.frm k hk) hd, ← Nat.succ_eq_add_one, ← ht, ih (k + 1) (adv m) hc.1]
      have e1 : ((b :: w).all cls = true ∧ k + (b :: w).length < n) ↔ (w.all cls = true ∧ k + 1 + w.length < n) := by
        simp only [List.all_cons, hc.2, Bool.true_and, List.length_cons]
        constructor <;> rintro ⟨h1, h2⟩ <;> exact ⟨h1, by omega⟩
      have e2 : ({ adv m with p := (adv m).p + w.length } : B) = { m with p := m.p + (b :: w).length } := by
        simp only [adv, List.length_cons]
        rw [show m.p + 1 + w.length = m.p + (w.length + 1) by omega]
      by_cases hx : w.all cls = true ∧ k + 1 + w.length < n
      · rw [if_pos hx, if_pos (e1.mpr hx), e2]
      · rw [if_neg hx, if_neg (fun hh => hx (e1.mp hh))]; rfl
    · rw [if_neg hc] at hd
      rw [run_zero (h.frm k hk) hd, if_neg]
      rintro ⟨h1, h2⟩
      simp only [List.all_cons, Bool.and_eq_true, List.length_cons] at h1 h2
      exact hc ⟨by omega, h1.1⟩

/-- an entry point followed by such states -/
theorem chain_set {f : Nat → Nat} {n : Nat} {cls : UInt8 → Bool} {a : Act} (h : Chain f n cls a) (hn : 0 < n) (e : Entry)
    (hf : (T e.translate).frm = []) (he : (T e.translate).eof = [])
    (hd : ∀ b : UInt8, (T e.translate).dispatch b.toNat = if cls b = true then ⟨[.mark], f 0⟩ else ⟨[], 0⟩)
    (g : Globals) (w : Bytes) (sm : SyslogMessage) :
    set g e w sm = if w ≠ [] ∧ w.length ≤ n ∧ w.all cls = true then
      stepSm (act a { data := w, p := w.length, sm := sm, g := g }) else some sm := by
  rw [set_eq]
  generalize hm : ({ data := w, sm := sm, g := g } : B) = m
  have e1 : m.p = 0 ∧ m.sm = sm ∧ ({ m with p := m.p + w.length } : B) = { data := w, p := w.length, sm := sm, g := g } ∧
      ({ m with pb := m.p } : B) = m := by subst hm; simp
  clear hm
  cases w with
  | nil => rw [if_neg (by simp), show run T act adv [] e.translate m = runEof T act jumpFuel e.translate m from rfl, runEof_nil he, e1.2.1]
  | cons b w =>
    have hd := hd b
    by_cases hc : cls b = true
    · rw [if_pos hc] at hd
      obtain ⟨t, ht⟩ := Nat.exists_eq_succ_of_ne_zero (h.ne 0)
      rw [ht] at hd
      rw [run_next (acts := [.mark]) (m1 := m) (m2 := m) hd (by rw [hf]; rfl) (by simp only [runActs, act]; rw [e1.2.2.2]),
        ← Nat.succ_eq_add_one, ← ht, chain_run h w 0 (adv m) hn]
      have e2 : (b :: w ≠ [] ∧ (b :: w).length ≤ n ∧ (b :: w).all cls = true) ↔ (w.all cls = true ∧ 0 + w.length < n) := by
        simp only [List.all_cons, hc, Bool.true_and, List.length_cons]
        constructor
        · rintro ⟨-, h1, h2⟩; exact ⟨h2, by omega⟩
        · rintro ⟨h1, h2⟩; exact ⟨by simp, by omega, h1⟩
      simp only [e2]
      rw [← e1.2.2.1]
      simp only [adv, List.length_cons, e1.2.1]
      rw [show m.p + 1 + w.length = m.p + (w.length + 1) by omega]
    · rw [if_neg hc] at hd
      rw [run_zero hf hd, if_neg (by simp [hc]), e1.2.1]

/-! ## names -/

theorem slice_all (w : Bytes) : slice w 0 w.length = some w := by simp [slice]

theorem all_iff (cls : UInt8 → Bool) (w : Bytes) : w.all cls = true ↔ ∀ b ∈ w, cls b = true := by simp

theorem host_rows : ∀ k, k < 254 → (T (55 + k)).rng = [(33, 126, st (55 + (k + 1)))] ∧ (T (55 + k)).dflt = st 0 := by
  decide +kernel

theorem host_chain : Chain (55 + ·) 255 isGraph .setHostname where
  frm := by decide +kernel
  eof := by decide +kernel
  disp := by
    intro k hk b
    by_cases hk' : k < 254
    · obtain ⟨h1, h2⟩ := host_rows k hk'
      have hg : isGraph b = true ↔ 33 ≤ b.toNat ∧ b.toNat ≤ 126 := by simp [isGraph]
      simp only [Row.dispatch, h1, h2, lookup]
      by_cases hb : 33 ≤ b.toNat ∧ b.toNat ≤ 126
      · rw [if_pos hb, if_pos ⟨by omega, hg.mpr hb⟩]
      · rw [if_neg hb, if_neg (fun h => hb (hg.mp h.2))]
    · have : k = 254 := by omega
      subst this
      rw [if_neg (fun h => absurd h.1 (by decide))]
      exact forall_byte (P := fun b => (T (55 + 254)).dispatch b.toNat = ⟨[], 0⟩) (by decide +kernel) b
  ne := by intro k; omega

theorem app_chain : Chain (310 + ·) 48 isGraph .setAppname where
  frm := by decide +kernel
  eof := by decide +kernel
  disp := by
    intro k hk
    apply forall_byte (P := fun b => (T (310 + k)).dispatch b.toNat = if k + 1 < 48 ∧ isGraph b = true then ⟨[], 310 + (k + 1)⟩ else ⟨[], 0⟩)
    revert k; decide +kernel
  ne := by intro k; omega

theorem proc_chain : Chain (358 + ·) 128 isGraph .setProcid where
  frm := by decide +kernel
  eof := by decide +kernel
  disp := by
    intro k hk
    apply forall_byte (P := fun b => (T (358 + k)).dispatch b.toNat = if k + 1 < 128 ∧ isGraph b = true then ⟨[], 358 + (k + 1)⟩ else ⟨[], 0⟩)
    revert k; decide +kernel
  ne := by intro k; omega

theorem msgid_chain : Chain (486 + ·) 32 isGraph .setMsgid where
  frm := by decide +kernel
  eof := by decide +kernel
  disp := by
    intro k hk
    apply forall_byte (P := fun b => (T (486 + k)).dispatch b.toNat = if k + 1 < 32 ∧ isGraph b = true then ⟨[], 486 + (k + 1)⟩ else ⟨[], 0⟩)
    revert k; decide +kernel
  ne := by intro k; omega

theorem sdid_chain : Chain (518 + ·) 32 isSdName .setSdid where
  frm := by decide +kernel
  eof := by decide +kernel
  disp := by
    intro k hk
    apply forall_byte (P := fun b => (T (518 + k)).dispatch b.toNat = if k + 1 < 32 ∧ isSdName b = true then ⟨[], 518 + (k + 1)⟩ else ⟨[], 0⟩)
    revert k; decide +kernel
  ne := by intro k; omega

theorem sdpn_chain : Chain (550 + ·) 32 isSdName .setSdpn where
  frm := by decide +kernel
  eof := by decide +kernel
  disp := by
    intro k hk
    apply forall_byte (P := fun b => (T (550 + k)).dispatch b.toNat = if k + 1 < 32 ∧ isSdName b = true then ⟨[], 550 + (k + 1)⟩ else ⟨[], 0⟩)
    revert k; decide +kernel
  ne := by intro k; omega

theorem disp_of {st : Nat} {cls : UInt8 → Bool} {t : Nat}
    (h : ∀ n, n < 256 → (T st).dispatch (UInt8.ofNat n).toNat = if cls (UInt8.ofNat n) = true then ⟨[.mark], t⟩ else ⟨[], 0⟩)
    (b : UInt8) : (T st).dispatch b.toNat = if cls b = true then ⟨[.mark], t⟩ else ⟨[], 0⟩ :=
  forall_byte (P := fun b => (T st).dispatch b.toNat = if cls b = true then ⟨[.mark], t⟩ else ⟨[], 0⟩) h b

theorem nameWF_all {max : Nat} {w : Bytes} : NameWF max w ↔ w ≠ [] ∧ w.length ≤ max ∧ w.all isGraph = true := by
  rw [Rfc5424.nameWF_iff, all_iff]

theorem sdNameWF_all {w : Bytes} : SdNameWF w ↔ w ≠ [] ∧ w.length ≤ 32 ∧ w.all isSdName = true := by
  rw [Rfc5424.sdName_wf, all_iff]

theorem set_hostname (g : Globals) (w : Bytes) (sm : SyslogMessage) :
    (NameWF 255 w ∧ w ≠ [45] → set g .hostname w sm = some { sm with hostname := some w }) ∧
    (¬ (NameWF 255 w ∧ w ≠ [45]) → set g .hostname w sm = some sm) := by
  rw [chain_set host_chain (by decide) .hostname (by decide +kernel) (by decide +kernel) (disp_of (by decide +kernel))]
  have hiff := nameWF_all (max := 255) (w := w)
  constructor
  · rintro ⟨h1, h2⟩
    rw [if_pos (hiff.mp h1)]; simp [act, withText, slice_all, stepSm, h2]
  · intro h
    split
    · rename_i h1
      have h2 : w = [45] := Decidable.byContradiction fun h2 => h ⟨hiff.mpr h1, h2⟩
      subst h2; rfl
    · rfl

theorem set_appname (g : Globals) (w : Bytes) (sm : SyslogMessage) :
    (NameWF 48 w ∧ w ≠ [45] → set g .appname w sm = some { sm with appname := some w }) ∧
    (¬ (NameWF 48 w ∧ w ≠ [45]) → set g .appname w sm = some sm) := by
  rw [chain_set app_chain (by decide) .appname (by decide +kernel) (by decide +kernel) (disp_of (by decide +kernel))]
  have hiff := nameWF_all (max := 48) (w := w)
  constructor
  · rintro ⟨h1, h2⟩
    rw [if_pos (hiff.mp h1)]; simp [act, withText, slice_all, stepSm, h2]
  · intro h
    split
    · rename_i h1
      have h2 : w = [45] := Decidable.byContradiction fun h2 => h ⟨hiff.mpr h1, h2⟩
      subst h2; rfl
    · rfl

theorem set_procid (g : Globals) (w : Bytes) (sm : SyslogMessage) :
    (NameWF 128 w ∧ w ≠ [45] → set g .procid w sm = some { sm with procID := some w }) ∧
    (¬ (NameWF 128 w ∧ w ≠ [45]) → set g .procid w sm = some sm) := by
  rw [chain_set proc_chain (by decide) .procid (by decide +kernel) (by decide +kernel) (disp_of (by decide +kernel))]
  have hiff := nameWF_all (max := 128) (w := w)
  constructor
  · rintro ⟨h1, h2⟩
    rw [if_pos (hiff.mp h1)]; simp [act, withText, slice_all, stepSm, h2]
  · intro h
    split
    · rename_i h1
      have h2 : w = [45] := Decidable.byContradiction fun h2 => h ⟨hiff.mpr h1, h2⟩
      subst h2; rfl
    · rfl

theorem set_msgid (g : Globals) (w : Bytes) (sm : SyslogMessage) :
    (NameWF 32 w ∧ w ≠ [45] → set g .msgid w sm = some { sm with msgID := some w }) ∧
    (¬ (NameWF 32 w ∧ w ≠ [45]) → set g .msgid w sm = some sm) := by
  rw [chain_set msgid_chain (by decide) .msgid (by decide +kernel) (by decide +kernel) (disp_of (by decide +kernel))]
  have hiff := nameWF_all (max := 32) (w := w)
  constructor
  · rintro ⟨h1, h2⟩
    rw [if_pos (hiff.mp h1)]; simp [act, withText, slice_all, stepSm, h2]
  · intro h
    split
    · rename_i h1
      have h2 : w = [45] := Decidable.byContradiction fun h2 => h ⟨hiff.mpr h1, h2⟩
      subst h2; rfl
    · rfl

/-- the element is there, or is added empty -/
def ensure (sd : SD) (id : Bytes) : SD :=
  match sd.find id with
  | some _ => sd
  | none => sd.insert id []

theorem set_sdid (g : Globals) (w : Bytes) (sm : SyslogMessage) :
    (SdNameWF w → set g .sdid w sm = some { sm with structuredData := some (ensure (sm.structuredData.getD []) w) }) ∧
    (¬ SdNameWF w → set g .sdid w sm = some sm) := by
  rw [chain_set sdid_chain (by decide) .sdid (by decide +kernel) (by decide +kernel) (disp_of (by decide +kernel))]
  have hiff := sdNameWF_all (w := w)
  constructor
  · intro h1
    rw [if_pos (hiff.mp h1)]
    simp only [act, withText, slice_all, ensure]
    cases (sm.structuredData.getD []).find w <;> rfl
  · intro h; rw [if_neg (fun hh => h (hiff.mpr hh))]

theorem set_sdpn {g : Globals} {w : Bytes} {sm : SyslogMessage} {sd : SD} {ps : SMap Bytes} (h : sm.structuredData = some sd)
    (hf : sd.find g.currentid = some ps) :
    (SdNameWF w → set g .sdpn w sm = some { sm with structuredData := some (sd.insert g.currentid (ps.insert w [])) }) ∧
    (¬ SdNameWF w → set g .sdpn w sm = some sm) := by
  rw [chain_set sdpn_chain (by decide) .sdpn (by decide +kernel) (by decide +kernel) (disp_of (by decide +kernel))]
  have hiff := sdNameWF_all (w := w)
  constructor
  · intro h1
    rw [if_pos (hiff.mp h1)]
    simp only [act, withText, slice_all, h, hf, stepSm]
  · intro h; rw [if_neg (fun hh => h (hiff.mpr hh))]

/-! ## MSG -/

theorem run_msg (w : Bytes) (m : B) : resSm (run T act adv w 53 m) = stepSm (act .setMsg { m with p := m.p + w.length }) := by
  induction w generalizing m with
  | nil => exact runEof_one (by decide +kernel)
  | cons b w ih =>
    have hd : (T 53).dispatch b.toNat = ⟨[], 53⟩ := forall_byte (P := fun b => (T 53).dispatch b.toNat = ⟨[], 53⟩) (by decide +kernel) b
    rw [run_simple (t := 52) (by decide +kernel) hd, ih (adv m)]
    simp only [adv, List.length_cons]
    rw [show m.p + 1 + w.length = m.p + (w.length + 1) by omega]

theorem set_msg (g : Globals) (w : Bytes) (sm : SyslogMessage) :
    set g .msg w sm = some (if w = [] then sm else { sm with message := some w }) := by
  rw [set_eq]
  cases w with
  | nil => rfl
  | cons b w =>
    have hd : (T 52).dispatch b.toNat = ⟨[.mark], 53⟩ := forall_byte (P := fun b => (T 52).dispatch b.toNat = ⟨[.mark], 53⟩) (by decide +kernel) b
    rw [show Entry.msg.translate = 52 from rfl,
      run_next (t := 52) (acts := [.mark]) (m1 := { data := b :: w, sm := sm, g := g }) (m2 := { data := b :: w, sm := sm, g := g }) hd
        (by rw [show (T 52).frm = [] by decide +kernel]; rfl) rfl, run_msg]
    simp only [adv, act, withText]
    rw [show 0 + 1 + w.length = (b :: w).length by simp; omega, slice_all]
    simp [stepSm]

/-! ## TIMESTAMP -/

def tsSt : Ts → Nat
  | .y1 => 1 | .y2 => 2 | .y3 => 3 | .y4 => 4 | .dash1 => 5 | .mon => 6 | .mon0 => 7 | .mon1 => 37
  | .dash2 => 8 | .day => 9 | .day0 => 10 | .day12 => 35 | .day3 => 36 | .t => 11
  | .hour => 12 | .hour01 => 13 | .hour2 => 34 | .col1 => 14 | .min => 15 | .minu => 16 | .col2 => 17
  | .sec => 18 | .secu => 19 | .zone => 20
  | .frac0 => 27 | .frac1 => 28 | .frac2 => 29 | .frac3 => 30 | .frac4 => 31 | .frac5 => 32 | .frac6 => 33
  | .oh => 21 | .oh01 => 22 | .oh2 => 26 | .ocol => 23 | .om => 24 | .omu => 25 | .fin => 54

theorem tsSt_ne (s : Ts) : tsSt s ≠ 0 := by cases s <;> decide

theorem ts_disp (s : Ts) (h1 : s ≠ .y1) (b : UInt8) : (T (tsSt s)).dispatch b.toNat =
    (match Ts.step true s b with | some s' => ⟨[], tsSt s'⟩ | none => ⟨[], 0⟩) := by
  apply forall_byte (P := fun b => (T (tsSt s)).dispatch b.toNat =
    (match Ts.step true s b with | some s' => ⟨[], tsSt s'⟩ | none => ⟨[], 0⟩))
  cases s <;> first | exact absurd rfl h1 | decide +kernel

theorem ts_disp0 (b : UInt8) : (T (tsSt .y1)).dispatch b.toNat =
    (match Ts.step true .y1 b with | some s' => ⟨[.mark], tsSt s'⟩ | none => ⟨[], 0⟩) := by
  apply forall_byte (P := fun b => (T (tsSt .y1)).dispatch b.toNat =
    (match Ts.step true .y1 b with | some s' => ⟨[.mark], tsSt s'⟩ | none => ⟨[], 0⟩))
  decide +kernel

theorem ts_frm (s : Ts) : (T (tsSt s)).frm = [] := by cases s <;> decide +kernel

theorem ts_eof (s : Ts) : (T (tsSt s)).eof = if s = .fin then [.setTimestamp] else [] := by
  cases s <;> decide +kernel

theorem step_ne_y1 {s s' : Ts} {b : UInt8} (h : Ts.step true s b = some s') : s' ≠ .y1 := by
  rintro rfl
  simp only [Ts.step] at h
  have : ∀ n, Ts.look n (Ts.row true s) ≠ some .y1 := by
    intro n
    cases s <;> simp only [Ts.row, Ts.look, if_true] <;> (repeat' split) <;> simp
  exact this _ h

theorem ts_run (w : Bytes) : ∀ (s : Ts) (m : B), s ≠ .y1 → resSm (run T act adv w (tsSt s) m) =
    if Ts.scan true s w = .ok w [] then stepSm (act .setTimestamp { m with p := m.p + w.length }) else some m.sm := by
  induction w with
  | nil =>
    intro s m hs
    by_cases hf : s = .fin
    · subst hf
      rw [if_pos (by rfl : Ts.scan true .fin [] = .ok [] [])]
      exact runEof_one (by rw [ts_eof]; rfl)
    · rw [if_neg (by simp [Ts.scan, hf])]
      exact runEof_nil (by rw [ts_eof, if_neg hf])
  | cons b w ih =>
    intro s m hs
    have hd := ts_disp s hs b
    by_cases hf : s = .fin
    · subst hf
      rw [if_neg (by simp [Ts.scan])]
      exact run_zero (ts_frm _) hd
    cases hst : Ts.step true s b with
    | none =>
      rw [hst] at hd
      rw [if_neg (by simp [Ts.scan, hf, hst])]
      exact run_zero (ts_frm _) hd
    | some s' =>
      rw [hst] at hd
      obtain ⟨t, ht⟩ := Nat.exists_eq_succ_of_ne_zero (tsSt_ne s')
      simp only [ht] at hd
      rw [run_simple (ts_frm s) hd, ← Nat.succ_eq_add_one, ← ht, ih s' (adv m) (step_ne_y1 hst), Ts.scan_cons_of hf hst]
      have e1 : ((Ts.scan true s' w).cons b = .ok (b :: w) []) ↔ (Ts.scan true s' w = .ok w []) := by
        cases Ts.scan true s' w <;> simp [Ts.Res.cons]
      have e2 : ({ adv m with p := (adv m).p + w.length } : B) = { m with p := m.p + (b :: w).length } := by
        simp only [adv, List.length_cons]
        rw [show m.p + 1 + w.length = m.p + (w.length + 1) by omega]
      by_cases hx : Ts.scan true s' w = .ok w []
      · rw [if_pos hx, if_pos (e1.mpr hx), e2]
      · rw [if_neg hx, if_neg (fun hh => hx (e1.mp hh))]; rfl

theorem set_timestamp_scan (g : Globals) (w : Bytes) (sm : SyslogMessage) : set g .timestamp w sm =
    if Ts.scan true .y1 w = .ok w [] then stepSm (act .setTimestamp { data := w, p := w.length, sm := sm, g := g }) else some sm := by
  rw [set_eq, show Entry.timestamp.translate = tsSt .y1 from rfl]
  cases w with
  | nil => rfl
  | cons b w =>
    have hd := ts_disp0 b
    cases hst : Ts.step true .y1 b with
    | none =>
      rw [hst] at hd
      rw [if_neg (by simp [Ts.scan, hst])]
      exact run_zero (ts_frm _) hd
    | some s' =>
      rw [hst] at hd
      obtain ⟨t, ht⟩ := Nat.exists_eq_succ_of_ne_zero (tsSt_ne s')
      simp only [ht] at hd
      rw [run_next (acts := [.mark]) (m1 := { data := b :: w, sm := sm, g := g }) (m2 := { data := b :: w, sm := sm, g := g }) hd
        (by rw [ts_frm]; rfl) rfl, ← Nat.succ_eq_add_one, ← ht, ts_run w s' _ (step_ne_y1 hst), Ts.scan_cons_of (by simp) hst]
      have e1 : ((Ts.scan true s' w).cons b = .ok (b :: w) []) ↔ (Ts.scan true s' w = .ok w []) := by
        cases Ts.scan true s' w <;> simp [Ts.Res.cons]
      by_cases hx : Ts.scan true s' w = .ok w []
      · rw [if_pos hx, if_pos (e1.mpr hx)]
        simp only [adv]
        rw [show 0 + 1 + w.length = (b :: w).length by simp; omega]
      · rw [if_neg hx, if_neg (fun hh => hx (e1.mp hh))]; rfl

theorem set_timestamp (g : Globals) (w : Bytes) (sm : SyslogMessage) :
    (∀ s : Stamp, s.WF → s.Real → w = s.render → set g .timestamp w sm = some { sm with timestamp := some s.time }) ∧
    (¬ (∃ s : Stamp, s.WF ∧ s.Real ∧ w = s.render) → set g .timestamp w sm = some sm) := by
  rw [set_timestamp_scan]
  constructor
  · rintro s h1 h2 rfl
    have := Ts.scan_complete (fr := true) s h1 (by simp) []
    rw [List.append_nil] at this
    rw [if_pos this]
    simp only [act, withText, slice_all, Ts.parse_render s h1, if_pos h2, stepSm]
  · intro h
    split
    · rename_i h1
      obtain ⟨s, hs1, -, hs2, -⟩ := Ts.scan_sound h1
      subst hs2
      have hr : ¬ s.Real := fun hr => h ⟨s, hs1, hr, rfl⟩
      simp only [act, withText, slice_all, Ts.parse_render s hs1, if_neg hr, stepSm]
    · rfl

/-! ## PARAM-VALUE -/

def valSt : Option U8 → Nat
  | none => 44
  | some .s0 => 583 | some .c1 => 45 | some .e0 => 46 | some .c2 => 47 | some .ed => 48
  | some .f0 => 49 | some .c3 => 50 | some .f4 => 51

theorem valSt_ne (v : Option U8) : valSt v ≠ 0 := by
  cases v with
  | none => decide
  | some s => cases s <;> decide

/-- next state, and whether the byte is an escaping backslash -/
def valNext (v : Option U8) (b : UInt8) : Option (Option U8 × Bool) :=
  match v with
  | none => if b.toNat = 34 ∨ b.toNat = 92 ∨ b.toNat = 93 then some (some .s0, false) else none
  | some .s0 =>
    if b.toNat = 34 then none else if b.toNat = 92 then some (none, true)
    else if b.toNat = 93 then none
    else (U8.step .s0 b).map fun s => (some s, false)
  | some s => (U8.step s b).map fun s => (some s, false)

def valLbl (v : Option U8) (b : UInt8) : Label Act :=
  match valNext v b with
  | none => ⟨[], 0⟩
  | some (v', false) => ⟨[], valSt v'⟩
  | some (v', true) => ⟨[.markslash], valSt v'⟩

theorem val_disp (v : Option U8) (b : UInt8) : (T (valSt v)).dispatch b.toNat = valLbl v b := by
  apply forall_byte (P := fun b => (T (valSt v)).dispatch b.toNat = valLbl v b)
  cases v with
  | none => decide +kernel
  | some s => cases s <;> decide +kernel

theorem val_first (b : UInt8) : (T 582).dispatch b.toNat =
    if (valLbl (some .s0) b).tgt = 0 then ⟨[], 0⟩ else ⟨.mark :: (valLbl (some .s0) b).acts, (valLbl (some .s0) b).tgt⟩ := by
  apply forall_byte (P := fun b => (T 582).dispatch b.toNat =
    if (valLbl (some .s0) b).tgt = 0 then ⟨[], 0⟩ else ⟨.mark :: (valLbl (some .s0) b).acts, (valLbl (some .s0) b).tgt⟩)
  decide +kernel

theorem val_frm (v : Option U8) : (T (valSt v)).frm = [] := by
  cases v with
  | none => decide +kernel
  | some s => cases s <;> decide +kernel

theorem val_eof (v : Option U8) : (T (valSt v)).eof = if v = some .s0 then [.setSdpv] else [] := by
  cases v with
  | none => decide +kernel
  | some s => cases s <;> decide +kernel

def valAcc : Option U8 → Bytes → Bool
  | v, [] => decide (v = some .s0)
  | v, b :: l =>
    match valNext v b with
    | none => false
    | some (v', _) => valAcc v' l

theorem valAcc_none {v : Option U8} {b : UInt8} {w : Bytes} (h : valNext v b = none) : valAcc v (b :: w) = false := by
  simp only [valAcc, h]

theorem valAcc_some {v v' : Option U8} {b : UInt8} {w : Bytes} {sl : Bool} (h : valNext v b = some (v', sl)) :
    valAcc v (b :: w) = valAcc v' w := by
  simp only [valAcc, h]

theorem val_run (w : Bytes) : ∀ (v : Option U8) (m : B), resSm (run T act adv w (valSt v) m) =
    if valAcc v w = true then
      stepSm (act .setSdpv { m with p := m.p + w.length, backslashes := m.backslashes ++ Rfc5424.slashes v.isNone m.p w })
    else some m.sm := by
  induction w with
  | nil =>
    intro v m
    by_cases hv : v = some .s0
    · subst hv
      rw [if_pos (by rfl : valAcc (some .s0) [] = true)]
      have := runEof_one (cs := valSt (some .s0)) (m := m) (a := .setSdpv) (by rw [val_eof]; rfl)
      simp only [Rfc5424.slashes, List.append_nil, List.length_nil, Nat.add_zero]
      exact this
    · rw [if_neg (by simp [valAcc, hv])]
      exact runEof_nil (by rw [val_eof, if_neg hv])
  | cons b w ih =>
    intro v m
    have hd := val_disp v b
    simp only [valLbl] at hd
    obtain ⟨x, hn⟩ : ∃ x, valNext v b = x := ⟨_, rfl⟩
    cases x with
    | none =>
      rw [hn] at hd
      rw [valAcc_none hn, if_neg (by simp)]
      exact run_zero (val_frm v) hd
    | some x =>
      obtain ⟨v', sl⟩ := x
      rw [valAcc_some hn]
      obtain ⟨t, ht⟩ := Nat.exists_eq_succ_of_ne_zero (valSt_ne v')
      have hlen : m.p + 1 + w.length = m.p + (b :: w).length := by simp; omega
      cases sl with
      | false =>
        simp only [hn, ht] at hd
        rw [run_simple (val_frm v) hd, ← Nat.succ_eq_add_one, ← ht, ih v' (adv m)]
        have hs : Rfc5424.slashes v.isNone m.p (b :: w) = Rfc5424.slashes v'.isNone (m.p + 1) w := by
          simp only [valNext] at hn
          cases v with
          | none =>
            simp only at hn
            split at hn
            · simp at hn; subst hn; rfl
            · simp at hn
          | some s =>
            have hb92 : b.toNat ≠ 92 := by
              intro h92
              cases s <;> simp [U8.step, h92] at hn
            have hv' : v'.isNone = false := by
              cases s
              case s0 =>
                simp only at hn
                split at hn
                · simp at hn
                split at hn
                · simp at hn
                cases hu : U8.step .s0 b <;> simp [hu] at hn
                rw [← hn]; rfl
              all_goals
                simp only [Option.map_eq_some_iff, Prod.mk.injEq] at hn
                obtain ⟨_, _, h, _⟩ := hn
                rw [← h]; rfl
            simp only [Rfc5424.slashes, Option.isNone_some, hb92, if_false, hv']
        by_cases hx : valAcc v' w = true
        · rw [if_pos hx, if_pos hx, hs]
          simp only [adv, hlen]
        · rw [if_neg hx, if_neg hx]; rfl
      | true =>
        simp only [hn, ht] at hd
        rw [run_next (acts := [.markslash]) (m1 := m) (m2 := { m with backslashes := m.backslashes ++ [m.p] }) hd
          (by rw [val_frm]; rfl) rfl, ← Nat.succ_eq_add_one, ← ht, ih v' _]
        have hs : Rfc5424.slashes v.isNone m.p (b :: w) = m.p :: Rfc5424.slashes v'.isNone (m.p + 1) w := by
          simp only [valNext] at hn
          cases v with
          | none =>
            simp only at hn
            split at hn <;> simp at hn
          | some s =>
            cases s
            case s0 =>
              simp only at hn
              split at hn
              · simp at hn
              split at hn
              · rename_i h92
                simp at hn; subst hn
                simp [Rfc5424.slashes, h92]
              · split at hn
                · simp at hn
                · cases hu : U8.step .s0 b <;> simp [hu] at hn
            all_goals simp at hn
        by_cases hx : valAcc v' w = true
        · rw [if_pos hx, if_pos hx, hs]
          simp only [adv, hlen, List.append_assoc, List.singleton_append]
        · rw [if_neg hx, if_neg hx]; rfl

theorem valAcc_scan (w : Bytes) : ∀ v, valAcc v w = true ↔ Rfc5424.valScan v (w ++ [34]) = .ok w [] := by
  induction w with
  | nil =>
    intro v
    cases v with
    | none => simp [valAcc, Rfc5424.valScan, Rfc5424.VRes.cons]
    | some s =>
      cases s <;> simp [valAcc, Rfc5424.valScan, U8.step]
  | cons b w ih =>
    intro v
    have key : ∀ (r : Rfc5424.VRes), r.cons b = .ok (b :: w) [] ↔ r = .ok w [] := by
      intro r; cases r <;> simp [Rfc5424.VRes.cons]
    simp only [valAcc, valNext, List.cons_append]
    cases v with
    | none =>
      simp only [Rfc5424.valScan]
      by_cases hb : b.toNat = 34 ∨ b.toNat = 92 ∨ b.toNat = 93
      · simp only [if_pos hb, key, ih]
      · simp [if_neg hb]
    | some s =>
      cases s
      case s0 =>
        simp only [Rfc5424.valScan]
        by_cases h34 : b.toNat = 34
        · simp [h34]
        by_cases h92 : b.toNat = 92
        · simp [h92, key, ih]
        by_cases h93 : b.toNat = 93
        · simp [h93]
        simp only [h34, h92, h93, if_false]
        cases hu : U8.step .s0 b with
        | none => simp
        | some s' => simp [key, ih]
      all_goals
        simp only [Rfc5424.valScan]
        cases hu : U8.step _ b with
        | none => simp
        | some s' => simp [key, ih]

theorem valAcc_iff (w : Bytes) : valAcc (some .s0) w = true ↔ ∃ v, Utf8 v ∧ w = escape v := by
  rw [valAcc_scan, Rfc5424.val_iff]
  constructor
  · rintro ⟨v, h1, h2, -⟩; exact ⟨v, h1, h2⟩
  · rintro ⟨v, h1, rfl⟩; exact ⟨v, h1, rfl, rfl⟩

theorem set_sdpv_run (g : Globals) (w : Bytes) (sm : SyslogMessage) : set g .sdpv w sm =
    if valAcc (some .s0) w = true then
      stepSm (act .setSdpv { data := w, p := w.length, backslashes := Rfc5424.slashes false 0 w, sm := sm, g := g })
    else some sm := by
  rw [set_eq, show Entry.sdpv.translate = 582 from rfl]
  have hlift : resSm (run T act adv w 582 { data := w, sm := sm, g := g }) =
      resSm (run T act adv w (valSt (some .s0)) { data := w, sm := sm, g := g }) := by
    cases w with
    | nil =>
      show resSm (runEof T act jumpFuel 582 _) = resSm (runEof T act jumpFuel 583 _)
      rw [runEof_one (cs := 583) (a := .setSdpv) (by decide +kernel)]
      simp only [jumpFuel, runEof, show (T 582).eof = [.mark, .setSdpv] by decide +kernel]
      rw [show runActs act [.mark, .setSdpv] ({ data := [], sm := sm, g := g } : B) =
        runActs act [.setSdpv] { data := [], sm := sm, g := g } from rfl, runActs]
      cases ha : act .setSdpv { data := [], sm := sm, g := g } with
      | next m' => rfl
      | jump m' s => exact absurd ha (act_no_jump _ _ _ _)
      | panic => rfl
    | cons b w =>
      have h1 := val_first b
      have h2 := val_disp (some .s0) b
      have hf : (T 582).frm = [] := by decide +kernel
      by_cases ht : (valLbl (some .s0) b).tgt = 0
      · rw [if_pos ht] at h1
        have : valLbl (some .s0) b = ⟨[], 0⟩ := by
          simp only [valLbl] at ht ⊢
          split at ht
          · rfl
          · exact absurd ht (valSt_ne _)
          · exact absurd ht (valSt_ne _)
        rw [this] at h2
        rw [run_zero hf h1, run_zero (val_frm _) h2]
      · rw [if_neg ht] at h1
        have e1 : ∀ fuel, stepByte T act adv b (fuel + 1) 582 ({ data := b :: w, sm := sm, g := g } : B) =
            stepByte T act adv b (fuel + 1) (valSt (some .s0)) { data := b :: w, sm := sm, g := g } := by
          intro fuel
          simp only [stepByte, hf, val_frm, runActs, h1, h2, act]
        simp only [run_cons, jumpFuel, e1]
  rw [hlift, val_run]
  by_cases hx : valAcc (some .s0) w = true
  · rw [if_pos hx, if_pos hx]
    simp
  · rw [if_neg hx, if_neg hx]

theorem set_sdpv {g : Globals} {sm : SyslogMessage} {sd : SD} {ps : SMap Bytes} (h : sm.structuredData = some sd)
    (hf : sd.find g.currentid = some ps) (w : Bytes) :
    (∀ v, Utf8 v → w = escape v →
      set g .sdpv w sm = some { sm with structuredData := some (sd.insert g.currentid (ps.insert g.currentparamname v)) }) ∧
    (¬ (∃ v, Utf8 v ∧ w = escape v) → set g .sdpv w sm = some sm) := by
  rw [set_sdpv_run]
  constructor
  · rintro v h1 rfl
    rw [if_pos ((valAcc_iff _).mpr ⟨v, h1, rfl⟩)]
    simp only [act, withText, slice_all, List.length_pos_iff, gt_iff_lt]
    have hrem : (if Rfc5424.slashes false 0 (escape v) ≠ [] then
        Common.removeBytes (escape v) ((Rfc5424.slashes false 0 (escape v)).map Int.ofNat) ((0 : Nat) : Int) else some (escape v)) = some v := by
      split
      · rw [Rfc5424.removeBytes_slashes, Rfc5424.unesc_escape]
      · rename_i hs
        have hs : Rfc5424.slashes false 0 (escape v) = [] := Decidable.byContradiction hs
        have := Rfc5424.unesc_of_no_slashes _ _ hs
        rw [Rfc5424.unesc_escape] at this
        rw [← this]
    simp only [hrem, h, hf, stepSm]
  · intro hn
    rw [if_neg (fun hh => hn ((valAcc_iff w).mp hh))]

end Verif.Builder
