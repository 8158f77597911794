import Verif.Rfc5424.DescentMsg

/-! # The automaton computes `descend`: STRUCTURED-DATA -/

namespace Verif.Rfc5424
open Verif.Fsm Verif.Gen.Rfc5424

/-! ## unescaping -/

theorem removeBytesLoop_slashes (off : Nat) : ∀ (raw done : Bytes) (esc : Bool) (i : Nat),
    Common.removeBytesLoop ((slashes esc (off + i + done.length) raw).map Int.ofNat) i off (done ++ raw) =
      some (done ++ unesc esc raw) := by
  intro raw
  induction raw with
  | nil => intro done esc i; cases esc <;> simp [slashes, unesc, Common.removeBytesLoop]
  | cons b l ih =>
    intro done esc i
    cases esc with
    | true =>
      simp only [slashes, unesc]
      have := ih (done ++ [b]) false i
      simp only [List.length_append, List.length_singleton, List.append_assoc, List.singleton_append] at this
      rw [← this, Nat.add_assoc]
    | false =>
      simp only [slashes, unesc]
      split
      · have := ih done true (i + 1)
        simp only [List.map_cons, Common.removeBytesLoop]
        rw [if_pos (by simp; omega)]
        have hat : (Int.ofNat (off + i + done.length) - (i : Int) - (off : Int)).toNat = done.length := by
          simp; omega
        rw [hat, List.take_left, show (done ++ b :: l).drop (done.length + 1) = l by
          rw [← List.drop_drop]; simp]
        rw [← this]
        congr 2
        rw [show off + i + done.length + 1 = off + (i + 1) + done.length by omega]
      · have := ih (done ++ [b]) false i
        simp only [List.length_append, List.length_singleton, List.append_assoc, List.singleton_append] at this
        rw [← this, Nat.add_assoc]

theorem removeBytes_slashes (raw : Bytes) (off : Nat) :
    Common.removeBytes raw ((slashes false off raw).map Int.ofNat) off = some (unesc false raw) := by
  have := removeBytesLoop_slashes off raw [] false 0
  simpa [Common.removeBytes] using this

theorem unesc_of_no_slashes : ∀ (raw : Bytes) (pos : Nat), slashes false pos raw = [] → unesc false raw = raw := by
  intro raw
  induction raw with
  | nil => intro _ _; rfl
  | cons b l ih =>
    intro pos h
    simp only [slashes] at h
    split at h
    · simp at h
    · rename_i hb; simp only [unesc, if_neg hb]; rw [ih _ h]

/-! ## table facts -/

/-- `k` characters of SD-ID after the first one -/
def idSt (k : Nat) : Nat := if k = 0 then 18 else 63 + k

/-- `k` characters of PARAM-NAME after the first one -/
def nmSt (k : Nat) : Nat := 20 + k

theorem id_start (b : UInt8) : (T 17).dispatch b.toNat =
    if isSdName b then ⟨[.mark], 18⟩ else ⟨[.errSdid, .errStructureddata], 0⟩ := by
  apply forall_byte (P := fun b => (T 17).dispatch b.toNat =
    if isSdName b then ⟨[.mark], 18⟩ else ⟨[.errSdid, .errStructureddata], 0⟩)
  decide +kernel

theorem id_disp (k : Nat) (hk : k < 32) (b : UInt8) : (T (idSt k)).dispatch b.toNat =
    if b.toNat = 32 then ⟨[.setId], 19⟩ else if b.toNat = 93 then ⟨[.setId], 606⟩
    else if k < 31 ∧ isSdName b = true then ⟨[], idSt (k + 1)⟩
    else ⟨[.setId, .errSdid, .errStructureddata], 0⟩ := by
  revert b
  apply fun h b => forall_byte (P := fun b => (T (idSt k)).dispatch b.toNat =
    if b.toNat = 32 then ⟨[.setId], 19⟩ else if b.toNat = 93 then ⟨[.setId], 606⟩
    else if k < 31 ∧ isSdName b = true then ⟨[], idSt (k + 1)⟩
    else ⟨[.setId, .errSdid, .errStructureddata], 0⟩) h b
  revert k
  decide +kernel

theorem id_frm : (T 17).frm = [] ∧ ∀ k, k < 32 → (T (idSt k)).frm = [] := by decide +kernel
theorem id_eof : (T 17).eof = [.errSdid, .errStructureddata] ∧
    ∀ k, k < 32 → (T (idSt k)).eof = [.setId, .errSdid, .errStructureddata] := by decide +kernel

theorem nm_start (b : UInt8) : (T 19).dispatch b.toNat =
    if isSdName b then ⟨[.iniSdparam, .mark], 20⟩ else ⟨[.errSdparam, .errStructureddata], 0⟩ := by
  apply forall_byte (P := fun b => (T 19).dispatch b.toNat =
    if isSdName b then ⟨[.iniSdparam, .mark], 20⟩ else ⟨[.errSdparam, .errStructureddata], 0⟩)
  decide +kernel

theorem nm_disp (k : Nat) (hk : k < 32) (b : UInt8) : (T (nmSt k)).dispatch b.toNat =
    if b.toNat = 61 then ⟨[.setParamname], 52⟩
    else if k < 31 ∧ isSdName b = true then ⟨[], nmSt (k + 1)⟩
    else ⟨[.errSdparam, .errStructureddata], 0⟩ := by
  revert b
  apply fun h b => forall_byte (P := fun b => (T (nmSt k)).dispatch b.toNat =
    if b.toNat = 61 then ⟨[.setParamname], 52⟩
    else if k < 31 ∧ isSdName b = true then ⟨[], nmSt (k + 1)⟩
    else ⟨[.errSdparam, .errStructureddata], 0⟩) h b
  revert k
  decide +kernel

theorem nm_frm : (T 19).frm = [] ∧ ∀ k, k < 32 → (T (nmSt k)).frm = [] := by decide +kernel
theorem nm_eof : (T 19).eof = [.errSdparam, .errStructureddata] ∧
    ∀ k, k < 32 → (T (nmSt k)).eof = [.errSdparam, .errStructureddata] := by decide +kernel

theorem T_52 : T 52 = ⟨[], [(34, 34, st 53)], ⟨[.errSdparam, .errStructureddata], 0⟩,
    [.errSdparam, .errStructureddata]⟩ := by decide +kernel
theorem T_55 : T 55 = ⟨[], [(32, 32, st 19), (93, 93, st 606)], ⟨[.errSdparam, .errStructureddata], 0⟩,
    [.errSdparam, .errStructureddata]⟩ := by decide +kernel
theorem T_603 : T 603 = ⟨[], [(32, 32, st 604)], ⟨[.errParse], 0⟩, []⟩ := by decide +kernel
theorem T_606 : T 606 = ⟨[], [(32, 32, st 604), (91, 91, st 17)], ⟨[.errStructureddata, .errParse], 0⟩, []⟩ := by
  decide +kernel
theorem T_16 : T 16 = ⟨[], [(45, 45, st 603), (91, 91, ⟨[.iniElements], 17⟩)], ⟨[.errStructureddata], 0⟩,
    [.errStructureddata]⟩ := by decide +kernel

/-- states inside PARAM-VALUE -/
def valSt : Option U8 → Nat
  | none => 56
  | some .s0 => 54 | some .c1 => 57 | some .e0 => 58 | some .c2 => 59 | some .ed => 60
  | some .f0 => 61 | some .c3 => 62 | some .f4 => 63

theorem valSt_ne (v : Option U8) : valSt v ≠ 0 := by
  cases v with
  | none => decide
  | some s => cases s <;> decide

def escErr : Label Act := ⟨[.errEscape, .errSdparam, .errStructureddata], 0⟩
def parErr : Label Act := ⟨[.errSdparam, .errStructureddata], 0⟩

def valLbl (v : Option U8) (b : UInt8) : Label Act :=
  match v with
  | none => if b.toNat = 34 ∨ b.toNat = 92 ∨ b.toNat = 93 then ⟨[], 54⟩ else escErr
  | some .s0 =>
    if b.toNat = 34 then ⟨[.setParamvalue], 55⟩ else if b.toNat = 92 then ⟨[.addSlash], 56⟩
    else if b.toNat = 93 then escErr
    else match U8.step .s0 b with
      | none => escErr
      | some s => ⟨[], valSt (some s)⟩
  | some s => match U8.step s b with
      | none => parErr
      | some s => ⟨[], valSt (some s)⟩

theorem val_disp (v : Option U8) (b : UInt8) : (T (valSt v)).dispatch b.toNat = valLbl v b := by
  apply forall_byte (P := fun b => (T (valSt v)).dispatch b.toNat = valLbl v b)
  cases v with
  | none => decide +kernel
  | some s => cases s <;> decide +kernel

theorem val_frm (v : Option U8) : (T (valSt v)).frm = [] := by
  cases v with
  | none => decide +kernel
  | some s => cases s <;> decide +kernel

theorem val_eof (v : Option U8) : (T (valSt v)).eof = if v = none ∨ v = some .s0 then escErr.acts else parErr.acts := by
  cases v with
  | none => decide +kernel
  | some s => cases s <;> decide +kernel

theorem T53 : (T 53).frm = [] ∧ (T 53).eof = escErr.acts := by decide +kernel

theorem val_first (b : UInt8) : (T 53).dispatch b.toNat =
    if (valLbl (some .s0) b).tgt = 0 then valLbl (some .s0) b
    else ⟨.mark :: (valLbl (some .s0) b).acts, (valLbl (some .s0) b).tgt⟩ := by
  apply forall_byte (P := fun b => (T 53).dispatch b.toNat =
    if (valLbl (some .s0) b).tgt = 0 then valLbl (some .s0) b
    else ⟨.mark :: (valLbl (some .s0) b).acts, (valLbl (some .s0) b).tgt⟩)
  decide +kernel

/-! ## deletions -/

def delIn (sd : SD) (e p : Bytes) : SD :=
  match sd.find e with
  | none => sd
  | some ps => sd.insert e (ps.erase p)

/-- effect of `delete(output.structuredData[m.currentelem], m.currentparam)` -/
def delParam (m : M) : Out :=
  { m.out with structuredData := m.out.structuredData.map fun sd => delIn sd m.currentelem m.currentparam }

theorem act_errSdparam (m : M) (as : List Act) :
    runActs act (.errSdparam :: as) m = fail .sdParam { m with out := delParam m } := rfl

theorem insert_isEmpty {V : Type} (k : Bytes) (v : V) (m : SMap V) : (m.insert k v).isEmpty = false := by
  have := SMap.insert_ne_nil k v m
  cases h : m.insert k v <;> simp_all

theorem find_isEmpty {V : Type} {k : Bytes} {v : V} {m : SMap V} (h : m.find k = some v) : m.isEmpty = false := by
  cases m <;> simp_all [SMap.find]

theorem delParam_eq {m : M} {base : Out} {sd : SD} {ps : SMap Bytes} (ho : m.out = withSD base sd)
    (hf : sd.find m.currentelem = some ps) :
    delParam m = withSD base (sd.insert m.currentelem (ps.erase m.currentparam)) := by
  simp [delParam, delIn, ho, withSD, hf, insert_isEmpty, find_isEmpty hf]

theorem insert_same {V : Type} {k : Bytes} {v : V} {m : SMap V} (hs : m.Sorted) (h : m.find k = some v) :
    m.insert k v = m := by
  refine SMap.ext (SMap.sorted_insert hs) hs fun k' => ?_
  rw [SMap.find_insert]
  split
  · rename_i g; rw [g, h]
  · rfl

/-! ## PARAM-VALUE -/

theorem val_phase : ∀ (l : Bytes) (v : Option U8) (m : M),
    match valScan v l with
    | .bad k n => Ends (go l (valSt v) m) (mkErr k (m.p + n) (if k = .escape then m.out else delParam m))
    | .ok raw tl => l = raw ++ 34 :: tl ∧ go l (valSt v) m = go (34 :: tl) 54
        { m with p := m.p + raw.length, backslashat := m.backslashat ++ slashes v.isNone m.p raw } := by
  intro l
  induction l with
  | nil =>
    intro v m
    have hesc : v = none ∨ v = some .s0 →
        Ends (go [] (valSt v) m) (mkErr .escape (m.p + 0) (if ErrKind.escape = .escape then m.out else delParam m)) := by
      intro hv
      exact ends_fail_eof (m2 := m) (by rw [val_eof, if_pos hv]; rfl)
    have hpar : ¬(v = none ∨ v = some .s0) →
        Ends (go [] (valSt v) m) (mkErr .sdParam (m.p + 0) (if ErrKind.sdParam = .escape then m.out else delParam m)) := by
      intro hv
      have := ends_fail_eof (cs := valSt v) (m := m) (m2 := { m with out := delParam m }) (k := .sdParam)
        (by rw [val_eof, if_neg hv]; rfl)
      simpa using this
    cases v with
    | none => exact hesc (Or.inl rfl)
    | some s => cases s <;> first | exact hesc (Or.inr rfl) | exact hpar (by simp)
  | cons b l ih =>
    intro v m
    have hdisp := val_disp v b
    have hesc : (T (valSt v)).dispatch b.toNat = escErr → Ends (go (b :: l) (valSt v) m)
        (mkErr .escape (m.p + 0) (if ErrKind.escape = .escape then m.out else delParam m)) := by
      intro hv
      exact ends_fail (m1 := m) (m2 := m) (by rw [val_frm]; rfl) (by rw [hv]; rfl)
    have hpar : (T (valSt v)).dispatch b.toNat = parErr → Ends (go (b :: l) (valSt v) m)
        (mkErr .sdParam (m.p + 0) (if ErrKind.sdParam = .escape then m.out else delParam m)) := by
      intro hv
      have := ends_fail (cs := valSt v) (m := m) (m1 := m) (b := b) (bs := l) (m2 := { m with out := delParam m })
        (k := .sdParam) (by rw [val_frm]; rfl) (by rw [hv]; rfl)
      simpa using this
    -- one step to state `v'`, possibly recording a slash
    have hnext : ∀ (v' : Option U8) (bs : List Nat) (m1 : M),
        go (b :: l) (valSt v) m = go l (valSt v') m1 →
        m1 = { m with p := m.p + 1, backslashat := m.backslashat ++ bs } →
        (∀ raw, slashes v.isNone m.p (b :: raw) = bs ++ slashes v'.isNone (m.p + 1) raw) →
        (match (valScan v' l).cons b with
        | .bad k n => Ends (go (b :: l) (valSt v) m) (mkErr k (m.p + n) (if k = .escape then m.out else delParam m))
        | .ok raw tl => b :: l = raw ++ 34 :: tl ∧ go (b :: l) (valSt v) m = go (34 :: tl) 54
            { m with p := m.p + raw.length, backslashat := m.backslashat ++ slashes v.isNone m.p raw }) := by
      intro v' bs m1 hgo hm1 hsl
      have ih := ih v' m1
      cases hv : valScan v' l with
      | bad k n =>
        rw [hv] at ih
        simp only [VRes.cons] at ih ⊢
        rw [hgo]
        subst hm1
        rw [show m.p + (n + 1) = m.p + 1 + n by omega]
        exact ih
      | ok raw tl =>
        rw [hv] at ih
        simp only [VRes.cons] at ih ⊢
        obtain ⟨h1, h2⟩ := ih
        refine ⟨by rw [h1]; rfl, ?_⟩
        rw [hgo, h2, hm1]
        simp only [hsl, List.length_cons, List.append_assoc]
        rw [show m.p + 1 + raw.length = m.p + (raw.length + 1) by omega]
    have hsimple : ∀ (s : U8), (T (valSt v)).dispatch b.toNat = ⟨[], valSt (some s)⟩ →
        go (b :: l) (valSt v) m = go l (valSt (some s)) (adv m) := by
      intro s hd
      obtain ⟨t, ht⟩ := Nat.exists_eq_succ_of_ne_zero (valSt_ne (some s))
      rw [ht] at hd ⊢
      exact run_simple (val_frm v) hd
    cases v with
    | none =>
      by_cases hb : b.toNat = 34 ∨ b.toNat = 92 ∨ b.toNat = 93
      · simp only [valScan, if_pos hb]
        refine hnext (some .s0) [] (adv m) (hsimple .s0 ?_) (by simp [adv]) (fun raw => rfl)
        rw [hdisp]; simp only [valLbl, if_pos hb]; rfl
      · simp only [valScan, if_neg hb]
        exact hesc (by rw [hdisp]; simp only [valLbl, if_neg hb])
    | some s =>
      -- the multi-byte states
      have hmid : s ≠ .s0 → (match (match U8.step s b with
            | none => VRes.bad .sdParam 0
            | some s => (valScan (some s) l).cons b) with
          | .bad k n => Ends (go (b :: l) (valSt (some s)) m)
              (mkErr k (m.p + n) (if k = .escape then m.out else delParam m))
          | .ok raw tl => b :: l = raw ++ 34 :: tl ∧ go (b :: l) (valSt (some s)) m = go (34 :: tl) 54
              { m with p := m.p + raw.length, backslashat := m.backslashat ++ slashes (some s).isNone m.p raw }) := by
        intro hs
        have hlbl : valLbl (some s) b = match U8.step s b with
            | none => parErr
            | some s => ⟨[], valSt (some s)⟩ := by cases s <;> first | rfl | exact absurd rfl hs
        cases hst : U8.step s b with
        | none => exact hpar (by rw [hdisp, hlbl, hst])
        | some s' =>
          have hb92 : b.toNat ≠ 92 := by
            intro h92
            cases s <;> first | exact absurd rfl hs | simp [U8.step, h92] at hst
          refine hnext (some s') [] (adv m) (hsimple s' (by rw [hdisp, hlbl, hst])) (by simp [adv]) (fun raw => ?_)
          simp [slashes, hb92]
      cases s
      case s0 =>
        by_cases h34 : b.toNat = 34
        · have hb := h34
          simp only [valScan, if_pos h34]
          have hb' : b = 34 := (toNat_eq (n := 34) (by omega)).mp hb
          subst hb'
          simp [slashes, valSt]
        by_cases h92 : b.toNat = 92
        · have hb := h92
          simp only [valScan, if_neg h34, if_pos h92]
          refine hnext none [m.p] _ ?_ rfl (fun raw => by simp [slashes, hb])
          refine run_next (t := 55) (acts := [.addSlash]) (m1 := m)
            (m2 := { m with backslashat := m.backslashat ++ [m.p] }) ?_ (by rw [val_frm]; rfl) rfl
          rw [hdisp]; simp only [valLbl, if_neg h34, if_pos hb]
        by_cases h93 : b.toNat = 93
        · have hb := h93
          simp only [valScan, if_neg h34, if_neg h92, if_pos h93]
          exact hesc (by rw [hdisp]; simp only [valLbl, if_neg h34, if_neg h92, if_pos hb])
        · simp only [valScan, if_neg h34, if_neg h92, if_neg h93]
          cases hst : U8.step .s0 b with
          | none => exact hesc (by rw [hdisp]; simp only [valLbl, if_neg h34, if_neg h92, if_neg h93, hst])
          | some s' =>
            refine hnext (some s') [] (adv m) (hsimple s' ?_) (by simp [adv]) (fun raw => by simp [slashes, h92])
            rw [hdisp]; simp only [valLbl, if_neg h34, if_neg h92, if_neg h93, hst]
      all_goals exact hmid (by simp)

/-- state 53 is state 54 with a mark, or the same escape error -/
theorem val_start (l : Bytes) (m : M) :
    go l 53 m = go l 54 { m with pb := m.p } ∨
      (valScan (some .s0) l = .bad .escape 0 ∧ Ends (go l 53 m) (mkErr .escape m.p m.out)) := by
  cases l with
  | nil => exact Or.inr ⟨rfl, ends_fail_eof (m2 := m) (by rw [T53.2]; rfl)⟩
  | cons b l =>
    have hd54 := val_disp (some .s0) b
    have hd53 := val_first b
    by_cases ht : (valLbl (some .s0) b).tgt = 0
    · rw [if_pos ht] at hd53
      have he : valLbl (some .s0) b = escErr ∧ valScan (some .s0) (b :: l) = .bad .escape 0 := by
        simp only [valLbl] at ht ⊢
        split at ht
        · simp at ht
        split at ht
        · simp at ht
        rename_i g1 g2
        simp only [if_neg g1, if_neg g2, valScan]
        split at ht
        · rename_i g3; simp [if_pos g3]
        · rename_i g3
          simp only [if_neg g3]
          cases hst : U8.step .s0 b with
          | none => simp
          | some s => rw [hst] at ht; exact absurd ht (valSt_ne (some s))
      exact Or.inr ⟨he.2, ends_fail (m1 := m) (m2 := m) (by rw [T53.1]; rfl) (by rw [hd53, he.1]; rfl)⟩
    · rw [if_neg ht] at hd53
      left
      have e1 : ∀ fuel, stepByte T act adv b (fuel + 1) 53 m = stepByte T act adv b (fuel + 1) 54 { m with pb := m.p } := by
        intro fuel
        simp only [stepByte, T53.1, show (T 54).frm = [] from val_frm (some .s0), runActs, hd53,
          show (T 54).dispatch b.toNat = valLbl (some .s0) b from hd54, act]
      simp only [go, run_cons, jumpFuel, e1]

end Verif.Rfc5424
