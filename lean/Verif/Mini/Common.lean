import Verif.Mini.Lemmas

/-!
# The functions of `common/functions.go`, run symbolically
-/

set_option linter.constructorNameAsVariable false
set_option linter.unusedSimpArgs false

namespace Verif.Mini
open Verif.Gen.Mini

variable {E : Type} {X : Env0 E}

theorem wrap_int {x : Int} (h1 : -2 ^ 63 ≤ x) (h2 : x < 2 ^ 63) : Kind.wrap .int x = x := by simp only [Kind.wrap]; omega

theorem wrap_byte (b : UInt8) : Kind.wrap .int b.toNat = b.toNat := by have := b.toNat_lt; apply wrap_int <;> omega

theorem wrap_u16 (b : UInt16) : Kind.wrap .int b.toNat = b.toNat := by have := b.toNat_lt; apply wrap_int <;> omega

theorem wrap_bmod (x : Int) : Kind.wrap .int x = x.bmod (2 ^ 64) := by simp only [Kind.wrap, Int.bmod]; split <;> omega

theorem wrap_bv (x : Int) : Kind.wrap .int x = (BitVec.ofInt 64 x).toInt := by rw [wrap_bmod, BitVec.toInt_ofInt]

theorem inBetween_call (hp : X.prog = prog) (n : Nat) (k1 k2 k3) (a b c : Int) (w : W E) :
    call X (n + 1) .common_InBetween [.int k1 a, .int k2 b, .int k3 c] w = some (.ok (.bool (Common.inBetween a b c)) w) := by
  by_cases h : b ≤ a <;>
  (rw [call_fn hp prog_common_InBetween]; simp [common_InBetween, Common.inBetween, h])

theorem validPriority_call (hp : X.prog = prog) (n : Nat) (p : UInt8) (w : W E) :
    call X (n + 2) .common_ValidPriority [byteVal p] w = some (.ok (.bool (Common.validPriority p)) w) := by
  rw [call_fn hp prog_common_ValidPriority]
  simp [byteVal, common_ValidPriority, inBetween_call hp, Common.validPriority, wrap_byte]

theorem validVersion_call (hp : X.prog = prog) (n : Nat) (p : UInt16) (w : W E) :
    call X (n + 2) .common_ValidVersion [.int .u16 p.toNat] w = some (.ok (.bool (Common.validVersion p)) w) := by
  rw [call_fn hp prog_common_ValidVersion]
  simp [byteVal, common_ValidVersion, inBetween_call hp, Common.validVersion, wrap_u16]

/-! ## `UnsafeUTF8DecimalCodePointsToInt` -/

/-- one round (common/functions.go:11-15) -/
def decBody : Stmt := match common_UnsafeUTF8DecimalCodePointsToInt.body with
  | .seq _ (.seq _ (.seq _ (.seq b _))) => b
  | _ => .skip

theorem dec_loop (calls : Nm → List Val → M E Val) (chars : Bytes) (hlen : chars.length < 2 ^ 63) (w : W E) :
    ∀ (k : Nat) (l : Loc) (out ord : BitVec 64), k ≤ chars.length → l .chars = .str chars → l .i = .int .int ((k : Int) - 1) →
      l .out = .int .int out.toInt → l .ord = .int .int ord.toInt →
      ∃ l', exec X calls decBody l w = some (.ok (.next, l') w) ∧
        l' .out = .int .int (Common.unsafeDecLoop (chars.take k).reverse out ord).toInt := by
  intro k
  induction k with
  | zero =>
    intro l out ord _ h1 h2 h3 h4
    refine ⟨l, ?_, by simpa [Common.unsafeDecLoop] using h3⟩
    simp only [decBody, common_UnsafeUTF8DecimalCodePointsToInt]
    rw [exec_forc]
    simp [h2]
  | succ k ih =>
    intro l out ord hk h1 h2 h3 h4
    have hk' : k < chars.length := by omega
    have hd : Common.unsafeDecLoop (chars.take (k + 1)).reverse out ord =
        Common.unsafeDecLoop (chars.take k).reverse (out + (BitVec.ofNat 64 (chars[k]).toNat - 48#64) * ord) (ord * 10#64) := by
      rw [List.take_add_one, List.getElem?_eq_getElem hk', Option.toList_some, List.reverse_append]; rfl
    rw [hd]
    have hs1 : Kind.wrap .int ((chars[k].toNat : Int) - 48) = (BitVec.ofNat 64 (chars[k]).toNat - 48#64).toInt := by
      rw [wrap_bmod, BitVec.toInt_sub]; congr 1
      have := chars[k].toNat_lt
      rw [BitVec.toInt_eq_toNat_of_lt (by simp; omega)]; simp
    have hs2 : ∀ a b : BitVec 64, Kind.wrap .int (a.toInt * b.toInt) = (a * b).toInt := fun a b => by rw [wrap_bmod, BitVec.toInt_mul]
    have hs3 : ∀ a b : BitVec 64, Kind.wrap .int (a.toInt + b.toInt) = (a + b).toInt := fun a b => by rw [wrap_bmod, BitVec.toInt_add]
    have hs4 : Kind.wrap .int (ord.toInt * 10) = (ord * 10#64).toInt := by rw [← hs2]; rfl
    have hs5 : Kind.wrap .int ((k : Int) - 1) = (k : Int) - 1 := by apply wrap_int <;> omega
    have hb := wrap_byte chars[k]
    obtain ⟨l', e, h⟩ := ih ((((l.set .curchar (.int .int chars[k].toNat)).set .out (.int .int (out + (BitVec.ofNat 64 (chars[k]).toNat - 48#64) * ord).toInt)).set .ord
      (.int .int (ord * 10#64).toInt)).set .i (.int .int ((k : Int) - 1))) (out + (BitVec.ofNat 64 (chars[k]).toNat - 48#64) * ord) (ord * 10#64) (by omega)
      (by simp [h1]) (by simp) (by simp) (by simp)
    refine ⟨l', ?_, h⟩
    rw [← e]
    simp only [decBody, common_UnsafeUTF8DecimalCodePointsToInt]
    rw [exec_forc]
    simp [-BitVec.toInt_add, -BitVec.toInt_sub, -BitVec.toInt_mul, h1, h2, h3, h4, nth, byteVal, hk', hb, hs1, hs2, hs3, hs4, hs5]

/-- `UnsafeUTF8DecimalCodePointsToInt` -/
theorem unsafeDec_call (hp : X.prog = prog) (n : Nat) (chars : Bytes) (hlen : chars.length < 2 ^ 63) (w : W E) :
    call X (n + 1) .common_UnsafeUTF8DecimalCodePointsToInt [.str chars] w = some (.ok (.int .int (Common.unsafeDec chars).toInt) w) := by
  have hs : Kind.wrap .int ((chars.length : Int) - 1) = (chars.length : Int) - 1 := by apply wrap_int <;> omega
  obtain ⟨l', e, h⟩ := dec_loop (X := X) (call X n) chars hlen w chars.length
    ((((Loc.empty.set .chars (.str chars)).set .out (.int .int 0)).set .ord (.int .int 1)).set .i (.int .int ((chars.length : Int) - 1))) 0#64 1#64
    (Nat.le_refl _) (by simp) (by simp) (by simp) (by simp)
  rw [List.take_length] at h
  simp only [decBody, common_UnsafeUTF8DecimalCodePointsToInt] at e
  rw [call_fn hp prog_common_UnsafeUTF8DecimalCodePointsToInt]
  simp [common_UnsafeUTF8DecimalCodePointsToInt, natVal, hs, e, h, Common.unsafeDec]

/-! ## `EscapeBytes` -/

/-- one round (common/functions.go:34-38) -/
def escBody : Stmt := match common_EscapeBytes.body with
  | .seq _ (.seq (.range _ _ _ b) _) => b
  | _ => .skip

theorem byte_ofInt (c : UInt8) : UInt8.ofInt (c.toNat : Int) = c := by
  have := c.toNat_lt
  apply UInt8.toNat_inj.mp
  simp [UInt8.ofInt]; omega

theorem toStr_byte (c : UInt8) (w : W E) : (toStrVal (byteVal c) : M E Val) w = some (.ok (.str (Common.stringOfByte c)) w) := by
  have := c.toNat_lt
  simp only [toStrVal, byteVal]
  rw [if_pos (by omega), byte_ofInt]; rfl

/-- the local variables after one round -/
def escAfter (l : Loc) (i : Nat) (c : UInt8) (acc : Bytes) : Loc :=
  if c.toNat = 92 ∨ c.toNat = 93 ∨ c.toNat = 34 then
    ((((l.set .i (natVal i)).set .c (.int .rune (runeOf c))).set .res (.str (acc ++ ascii "\\"))).set .res (.str (acc ++ ascii "\\" ++ Common.stringOfByte c)))
  else (((l.set .i (natVal i)).set .c (.int .rune (runeOf c))).set .res (.str (acc ++ Common.stringOfByte c)))

theorem esc_round (calls : Nm → List Val → M E Val) (value : Bytes) (w : W E) (l : Loc) (i : Nat) (c : UInt8) (acc : Bytes)
    (hn : (value.map byteVal)[i]? = some (byteVal c)) (h1 : l .value = .str value) (h2 : l .res = .str acc) :
    exec X calls escBody ((l.set .i (natVal i)).set .c (.int .rune (runeOf c))) w = some (.ok (.next, escAfter l i c acc) w) := by
  have hr : ∀ k : Nat, k < 128 → (runeOf c = (k : Int) ↔ c.toNat = k) := by
    intro k hk; unfold runeOf; split <;> omega
  have hr1 := hr 92 (by decide); have hr2 := hr 93 (by decide); have hr3 := hr 34 (by decide)
  simp only [Int.cast_ofNat_Int] at hr1 hr2 hr3
  have hn' : ∀ w : W E, (nth (value.map byteVal) (i : Int) : M E Val) w = some (.ok (byteVal c) w) := fun w => by rw [nth_some hn]; rfl
  have ht := toStr_byte (E := E) c
  simp only [escBody, common_EscapeBytes, escAfter]
  by_cases a1 : runeOf c = 92
  · have := hr1.mp a1
    simp [a1, natVal, hn', h1, h2, ht, this]
  · have b1 : ¬ c.toNat = 92 := fun h => a1 (hr1.mpr h)
    by_cases a2 : runeOf c = 93
    · have := hr2.mp a2
      simp [a2, natVal, hn', h1, h2, ht, this]
    · have b2 : ¬ c.toNat = 93 := fun h => a2 (hr2.mpr h)
      by_cases a3 : runeOf c = 34
      · have := hr3.mp a3
        simp [a3, natVal, hn', h1, h2, ht, this]
      · have b3 : ¬ c.toNat = 34 := fun h => a3 (hr3.mpr h)
        simp [a1, a2, a3, b1, b2, b3, natVal, hn', h1, h2, ht]

theorem esc_loop (calls : Nm → List Val → M E Val) (value : Bytes) (w : W E) :
    ∀ (suf pre : Bytes) (skip : Nat) (l : Loc) (acc : Bytes), value = pre ++ suf → l .value = .str value → l .res = .str acc →
      ∃ l', rangeLoop (some .i) (some .c) (fun l => exec X calls escBody l) (runes suf pre.length skip) l w = some (.ok (.next, l') w) ∧
        l' .res = .str (acc ++ Common.escapeBytesLoop suf skip) := by
  intro suf
  induction suf with
  | nil => intro pre skip l acc hv h1 h2; exact ⟨l, rfl, by simpa [Common.escapeBytesLoop] using h2⟩
  | cons c cs ih =>
    intro pre skip l acc hv h1 h2
    have hl : pre.length + 1 = (pre ++ [c]).length := by simp
    cases skip with
    | succ skip =>
      simp only [runes, Common.escapeBytesLoop, hl]
      exact ih (pre ++ [c]) skip l acc (by simp [hv]) h1 h2
    | zero =>
      have hn : ((value.map byteVal)[pre.length]?) = some (byteVal c) := by simp [hv]
      have hb : ascii "\\" = [92] := by decide
      obtain ⟨l', e, h⟩ := ih (pre ++ [c]) (Common.runeWidth (c :: cs) - 1) (escAfter l pre.length c acc)
        (acc ++ ((if c.toNat = 92 ∨ c.toNat = 93 ∨ c.toNat = 34 then [92] else []) ++ Common.stringOfByte c))
        (by simp [hv]) (by unfold escAfter; split <;> simp [h1]) (by unfold escAfter; split <;> simp [hb])
      refine ⟨l', ?_, by rw [h]; simp [Common.escapeBytesLoop]⟩
      rw [← hl] at e
      simp only [runes, rangeLoop, bindOpt, bind_apply, esc_round calls value w l pre.length c acc hn h1 h2, e]

/-- `EscapeBytes` -/
theorem escapeBytes_call (hp : X.prog = prog) (n : Nat) (value : Bytes) (w : W E) :
    call X (n + 1) .common_EscapeBytes [.str value] w = some (.ok (.str (Common.escapeBytes value)) w) := by
  obtain ⟨l', e, h⟩ := esc_loop (X := X) (call X n) value w value [] 0 ((Loc.empty.set .value (.str value)).set .res (.str [])) [] rfl (by simp) (by simp)
  simp only [escBody, common_EscapeBytes, List.length_nil] at e
  rw [call_fn hp prog_common_EscapeBytes]
  simp [common_EscapeBytes, exec_range, e, h, Common.escapeBytes]

/-! ## `RemoveBytes` -/

/-- `v` is a slice with the elements `vs` -/
def IsSlice (w : W E) (v : Val) (vs : List Val) : Prop :=
  (v = .nil ∧ vs = []) ∨ ∃ a off len cap arr, v = .slice a off len cap ∧ w.heap a = .arr arr ∧ a < w.next ∧ off + cap ≤ arr.length ∧ len ≤ cap ∧
    vs = (arr.drop off).take len

theorem IsSlice.elems {w : W E} {v : Val} {vs : List Val} (h : IsSlice w v vs) : elems v w = some (.ok vs w) := by
  rcases h with ⟨rfl, rfl⟩ | ⟨a, off, len, cap, arr, rfl, h1, h2, h3, h4, rfl⟩
  · rfl
  · exact elems_slice h1 off len cap

theorem IsSlice.items {w : W E} {v : Val} {vs : List Val} (h : IsSlice w v vs) (order : List Bytes → List Bytes) :
    (rangeItems order v : M E (List (Val × Val))) w = some (.ok ((List.range' 0 vs.length).map natVal |>.zip vs) w) := by
  have he := h.elems
  rcases h with ⟨rfl, rfl⟩ | ⟨a, off, len, cap, arr, rfl, h1, h2, h3, h4, rfl⟩
  · rfl
  · rw [items_slice]
    simp only [bind_apply, he, pure_apply, Mini.items, List.range_eq_range']

/-- one round (common/functions.go:23-26) -/
def remBody : Stmt := match common_RemoveBytes.body with
  | .seq _ (.seq (.range _ _ _ b) _) => b
  | _ => .skip

/-- `RemoveBytes` (common/functions.go:20-28) on values, for all positions: `pos - i - offset` is computed in 64 bits -/
def removeLoop64 : List Int → Nat → Int → Bytes → Option Bytes
  | [], _, _, cp => some cp
  | pos :: ps, i, offset, cp =>
    if 0 ≤ Int.bmod (pos - i - offset) (2 ^ 64) ∧ Int.bmod (pos - i - offset) (2 ^ 64) < cp.length then
      removeLoop64 ps (i + 1) offset (cp.take (Int.bmod (pos - i - offset) (2 ^ 64)).toNat ++ cp.drop ((Int.bmod (pos - i - offset) (2 ^ 64)).toNat + 1))
    else none

theorem removeLoop64_small (offset : Int) (ho : -2 ^ 61 < offset ∧ offset < 2 ^ 61) : ∀ (ps : List Int) (i : Nat) (cp : Bytes), (∀ p ∈ ps, -2 ^ 61 < p ∧ p < 2 ^ 61) → i + ps.length < 2 ^ 61 →
    removeLoop64 ps i offset cp = Common.removeBytesLoop ps i offset cp
  | [], _, _, _, _ => rfl
  | p :: ps, i, cp, hb, hl => by
    have hp := hb p (by simp)
    simp only [List.length_cons] at hl
    have hq : Int.bmod (p - i - offset) (2 ^ 64) = p - i - offset := by rw [← wrap_bmod]; apply wrap_int <;> omega
    simp only [removeLoop64, Common.removeBytesLoop, hq, Int.lt_iff_add_one_le]
    split
    · exact removeLoop64_small offset ho ps (i + 1) _ (fun x hx => hb x (by simp [hx])) (by omega)
    · rfl

theorem wrap_sub (a b : Int) : Kind.wrap .int (Kind.wrap .int a - b) = Int.bmod (a - b) (2 ^ 64) := by
  rw [← wrap_bmod]; simp only [Kind.wrap]; omega

/-- what a function may have done to the heap: the variables that were there are as before -/
def Keeps (w w' : W E) : Prop := (∀ a, a < w.next → w'.heap a = w.heap a) ∧ w.next ≤ w'.next ∧ w'.glob = w.glob ∧ w'.ext = w.ext

theorem Keeps.refl (w : W E) : Keeps w w := ⟨fun _ _ => rfl, Nat.le_refl _, rfl, rfl⟩

theorem Keeps.trans {w1 w2 w3 : W E} (h : Keeps w1 w2) (h' : Keeps w2 w3) : Keeps w1 w3 :=
  ⟨fun a ha => (h'.1 a (by have := h.2.1; omega)).trans (h.1 a ha), Nat.le_trans h.2.1 h'.2.1, h'.2.2.1.trans h.2.2.1, h'.2.2.2.trans h.2.2.2⟩

theorem Keeps.alloc (w : W E) (v : Val) : Keeps w { w with heap := upd w.heap w.next v, next := w.next + 1 } :=
  ⟨fun a ha => upd_ne _ _ (by omega), Nat.le_succ _, rfl, rfl⟩

/-- the array with the elements from `n` on replaced -/
theorem rem_write (arr : List Val) (cp : Bytes) (len at' : Nat) (h : arr.take len = cp.map byteVal) (hl : len ≤ arr.length) (ha : at' + 1 ≤ len) :
    ∃ arr', arr.take at' ++ ((arr.drop (at' + 1)).take (len - (at' + 1))) ++ arr.drop (at' + ((arr.drop (at' + 1)).take (len - (at' + 1))).length) = arr' ∧
      arr'.length = arr.length ∧ arr'.take (at' + (len - (at' + 1))) = (cp.take at' ++ cp.drop (at' + 1)).map byteVal := by
  refine ⟨_, rfl, ?_, ?_⟩
  · simp; omega
  · have hlen : cp.length = len := by have := congrArg List.length h; simp at this; omega
    rw [List.take_append_of_le_length (by simp; omega), List.take_of_length_le (by simp; omega)]
    rw [List.map_append, List.map_take, List.map_drop, ← h, List.take_take, List.drop_take, Nat.min_eq_left (by omega)]

theorem rem_round (calls : Nm → List Val → M E Val) (l : Loc) (w : W E) (a len cap : Nat) (arr : List Val) (cp : Bytes) (offset p q : Int) (i : Nat)
    (h1 : l .offset = .int .int offset) (h2 : l .cp = .slice a 0 len cap) (h3 : w.heap a = .arr arr) (h4 : cap ≤ arr.length) (h5 : len ≤ cap)
    (h6 : arr.take len = cp.map byteVal) (hq : Int.bmod (p - i - offset) (2 ^ 64) = q) (hsz : len < 2 ^ 63) :
    (¬ (0 ≤ q ∧ q < cp.length) → exec X calls remBody ((l.set .i (natVal i)).set .pos (.int .int p)) w = some (.panic w)) ∧
    ((0 ≤ q ∧ q < cp.length) → ∃ l' arr', exec X calls remBody ((l.set .i (natVal i)).set .pos (.int .int p)) w =
        some (.ok (.next, l') { w with heap := upd w.heap a (.arr arr') }) ∧ l' .offset = .int .int offset ∧
        l' .cp = .slice a 0 (len - 1) cap ∧ arr'.length = arr.length ∧
        arr'.take (len - 1) = (cp.take q.toNat ++ cp.drop (q.toNat + 1)).map byteVal) := by
  have hlen : cp.length = len := by have := congrArg List.length h6; simp at this; omega
  have hw : Kind.wrap .int (Kind.wrap .int (p - i) - offset) = q := by rw [wrap_sub]; exact hq
  have hr : -2 ^ 63 ≤ q ∧ q < 2 ^ 63 := by rw [← hw]; simp only [Kind.wrap]; omega
  constructor
  · intro hc
    simp only [remBody, common_RemoveBytes]
    simp [h1, h2, hw, natVal]
    by_cases c1 : 0 ≤ q ∧ q ≤ cap
    · have c2 : ¬ (0 ≤ Kind.wrap .int (q + 1) ∧ Kind.wrap .int (q + 1) ≤ (len : Int) ∧ len ≤ cap) := by
        simp only [Kind.wrap]; omega
      simp [c1, c2]
    · simp [c1]
  · intro hc
    have hw3 : Kind.wrap .int (q + 1) = q + 1 := by apply wrap_int <;> omega
    obtain ⟨at', hat⟩ : ∃ at' : Nat, (at' : Int) = q := ⟨q.toNat, by omega⟩
    obtain ⟨arr', e1, e2, e3⟩ := rem_write arr cp len at' h6 (by omega) (by omega)
    have hl : ((arr.drop (at' + 1)).take (len - (at' + 1))).length = len - (at' + 1) := by simp; omega
    refine ⟨(((l.set .i (natVal i)).set .pos (.int .int p)).set .«at» (.int .int q)).set .cp (.slice a 0 (len - 1) cap), arr', ?_, ?_, ?_, e2, ?_⟩
    · simp only [remBody, common_RemoveBytes]
      have c1 : 0 ≤ q ∧ q ≤ cap := by omega
      have c2 : 0 ≤ q + 1 ∧ q + 1 ≤ (len : Int) ∧ len ≤ cap := by omega
      have c3 : at' + (len - (at' + 1)) = len - 1 := by omega
      have c4 : q.toNat = at' := by omega
      have c5 : (q + 1).toNat = at' + 1 := by omega
      have hap := append_inplace h3 X.extra 0 at' cap ((arr.drop (at' + 1)).take (len - (at' + 1))) (by rw [hl]; omega)
      simp only [Nat.zero_add] at hap
      rw [e1] at hap
      simp only [hl, c3] at hap
      simp [h1, h2, hw, hw3, natVal, c1, c2, c4, c5, elems_slice h3, hap]
    · simp [h1]
    · simp
    · rw [← hat]
      have c3 : at' + (len - (at' + 1)) = len - 1 := by omega
      rw [c3] at e3; simpa using e3

theorem rem_loop (calls : Nm → List Val → M E Val) (offset : Int) :
    ∀ (ps : List Int) (i : Nat) (cp : Bytes) (l : Loc) (w : W E) (a len cap : Nat) (arr : List Val),
      len < 2 ^ 63 →
      l .offset = .int .int offset → l .cp = .slice a 0 len cap → w.heap a = .arr arr → a < w.next → cap ≤ arr.length → len ≤ cap →
      arr.take len = cp.map byteVal →
      (removeLoop64 ps i offset cp = none → ∃ w', Keeps { w with next := a } w' ∧
        rangeLoop (some .i) (some .pos) (fun l => exec X calls remBody l)
          ((List.range' i ps.length).map natVal |>.zip (ps.map (.int .int))) l w = some (.panic w')) ∧
      (∀ r, removeLoop64 ps i offset cp = some r → ∃ l' w' len' arr', rangeLoop (some .i) (some .pos) (fun l => exec X calls remBody l)
          ((List.range' i ps.length).map natVal |>.zip (ps.map (.int .int))) l w = some (.ok (.next, l') w') ∧
          l' .cp = .slice a 0 len' cap ∧ w' = { w with heap := upd w.heap a (.arr arr') } ∧ cap ≤ arr'.length ∧ len' ≤ cap ∧
          arr'.take len' = r.map byteVal) := by
  intro ps
  induction ps with
  | nil =>
    intro i cp l w a len cap arr _ h1 h2 h3 hn h4 h5 h6
    refine ⟨fun h => by simp [removeLoop64] at h, fun r hr => ?_⟩
    simp only [removeLoop64, Option.some.injEq] at hr
    subst hr
    refine ⟨l, w, len, arr, rfl, h2, ?_, h4, h5, h6⟩
    have : upd w.heap a (.arr arr) = w.heap := by funext b; unfold upd; split <;> simp_all
    rw [this]
  | cons p ps ih =>
    intro i cp l w a len cap arr hsz h1 h2 h3 hn h4 h5 h6
    have hlen : cp.length = len := by have := congrArg List.length h6; simp at this; omega
    obtain ⟨q, hq⟩ : ∃ q, Int.bmod (p - i - offset) (2 ^ 64) = q := ⟨_, rfl⟩
    obtain ⟨r1, r2⟩ := rem_round (X := X) calls l w a len cap arr cp offset p q i h1 h2 h3 h4 h5 h6 hq hsz
    simp only [removeLoop64, List.length_cons, List.range'_succ, List.map_cons, List.zip_cons_cons, rangeLoop, bindOpt, bind_apply, hq]
    by_cases hc : 0 ≤ q ∧ q < cp.length
    · obtain ⟨l', arr', e, k1, k2, k3, k4⟩ := r2 hc
      simp only [if_pos hc, e]
      obtain ⟨s1, s2⟩ := ih (i + 1) (cp.take q.toNat ++ cp.drop (q.toNat + 1)) l' { w with heap := upd w.heap a (.arr arr') } a (len - 1) cap arr'
        (by omega) k1 k2 (by simp) hn (by omega) (by omega) k4
      refine ⟨fun h => ?_, fun r h => ?_⟩
      · obtain ⟨w', u, v⟩ := s1 (by simpa using h)
        refine ⟨w', ⟨fun b hb => ?_, u.2⟩, v⟩
        have := u.1 b hb
        simp only at hb
        simp [upd_ne _ _ (show b ≠ a by omega)] at this
        exact this
      · obtain ⟨l2, w2, len2, arr2, u1, u2, u3, u4, u5, u6⟩ := s2 r (by simpa using h)
        refine ⟨l2, w2, len2, arr2, u1, u2, ?_, u4, u5, u6⟩
        rw [u3]
        have : upd (upd w.heap a (.arr arr')) a (.arr arr2) = upd w.heap a (.arr arr2) := by funext b; unfold upd; split <;> rfl
        simp only [this]
    · simp only [if_neg hc, r1 hc]
      exact ⟨fun _ => ⟨w, ⟨fun _ _ => rfl, Nat.le_of_lt hn, rfl, rfl⟩, rfl⟩, fun r h => by simp at h⟩

/-- `RemoveBytes`: `data` is a slice of bytes, `positions` one of `int`s; the result is a slice of a new array (or nil). -/
theorem removeBytes_call (hp : X.prog = prog) (n : Nat) (data positions : Val) (bs : Bytes) (ps : List Int) (offset : Int) (w : W E)
    (hd : IsSlice w data (bs.map byteVal)) (hps : IsSlice w positions (ps.map (.int .int)))
    (hl : bs.length < 2 ^ 63) :
    match removeLoop64 ps 0 offset bs with
    | none => ∃ w', call X (n + 1) .common_RemoveBytes [data, positions, .int .int offset] w = some (.panic w') ∧ Keeps w w'
    | some r => ∃ v w', call X (n + 1) .common_RemoveBytes [data, positions, .int .int offset] w = some (.ok v w') ∧ Keeps w w' ∧
        IsSlice w' v (r.map byteVal) ∧ (∀ a off len cap, v = .slice a off len cap → a = w.next) := by
  rw [call_fn hp prog_common_RemoveBytes]
  have hpe : common_RemoveBytes.params = [.data, .positions, .offset] := rfl
  obtain ⟨l0, hl0⟩ : ∃ l0, l0 = (((Loc.empty.set .offset (.int .int offset)).set .positions positions).set .data data) := ⟨_, rfl⟩
  have hpar : params common_RemoveBytes.params [data, positions, .int .int offset] = some l0 := by rw [hl0]; rfl
  have k1 : l0 .data = data := by rw [hl0]; simp
  have k2 : l0 .positions = positions := by rw [hl0]; simp
  have k3 : l0 .offset = .int .int offset := by rw [hl0]; simp
  have hbody : common_RemoveBytes.body = .seq (.assign .cp (.appendAll (.lit .nil) (.var .data))) (.seq (.range (some .i) (some .pos) (.var .positions) remBody) (.ret (.var .cp))) := rfl
  rw [hpar, hbody]
  by_cases hbs : bs = []
  · subst hbs
    cases ps with
    | nil =>
      refine ⟨.nil, w, ?_, Keeps.refl w, Or.inl ⟨rfl, rfl⟩, by intros; contradiction⟩
      have := hps.items X.order
      simp [k1, k2, hd.elems, exec_range, this, rangeLoop]
    | cons p ps =>
      have hr : removeLoop64 (p :: ps) 0 offset [] = none := by
        simp only [removeLoop64]
        rw [if_neg]; simp only [List.length_nil]; omega
      rw [hr]
      refine ⟨w, ?_, Keeps.refl w⟩
      have := hps.items X.order
      obtain ⟨q, hw⟩ : ∃ q, Kind.wrap .int (Kind.wrap .int p - offset) = q := ⟨_, rfl⟩
      have hround : ∀ l : Loc, l .offset = .int .int offset → l .cp = .nil → exec X (call X n) remBody ((l.set .i (natVal 0)).set .pos (.int .int p)) w = some (.panic w) := by
        intro l h1 h2
        simp only [remBody, common_RemoveBytes]
        by_cases hz : q = 0
        · simp [h1, h2, natVal, hw, hz, wrap_int (x := 0), wrap_int (x := 1)]
        · simp [h1, h2, natVal, hw, hz]
      have hr2 := hround (l0.set .cp .nil) (by simp [k3]) (by simp)
      simp [k1, k2, hd.elems, exec_range, this, rangeLoop, List.range'_succ, hr2]
  · have hne : (bs.map byteVal).length ≠ 0 := by simpa using hbs
    have hap := append_nil_some X.extra (bs.map byteVal) hne w
    obtain ⟨w1, hw1⟩ : ∃ w1 : W E, w1 = { w with heap := upd w.heap w.next (.arr (bs.map byteVal ++ List.replicate (X.extra (bs.map byteVal).length) (.int .const 0))), next := w.next + 1 } := ⟨_, rfl⟩
    rw [← hw1] at hap
    have hkeep : Keeps w w1 := by rw [hw1]; exact Keeps.alloc _ _
    have hps1 : IsSlice w1 positions (ps.map (.int .int)) := by
      rcases hps with h | ⟨a, off, len, cap, arr, h0, h1, h2, h3, h4, h5⟩
      · exact Or.inl h
      · exact Or.inr ⟨a, off, len, cap, arr, h0, by rw [hkeep.1 a h2]; exact h1, by have := hkeep.2.1; omega, h3, h4, h5⟩
    have hit := hps1.items X.order
    rw [List.length_map] at hit
    obtain ⟨s1, s2⟩ := rem_loop (X := X) (call X n) offset ps 0 bs (l0.set .cp (.slice w.next 0 bs.length (bs.length + X.extra bs.length))) w1 w.next bs.length
      (bs.length + X.extra bs.length) (bs.map byteVal ++ List.replicate (X.extra bs.length) (.int .const 0)) hl (by simp [k3]) (by simp)
      (by rw [hw1]; simp) (by rw [hw1]; simp) (by simp) (by omega) (by simp)
    rw [List.length_map] at hap
    cases hr : removeLoop64 ps 0 offset bs with
    | none =>
      obtain ⟨w', u, e⟩ := s1 hr
      refine ⟨w', ?_, Keeps.trans (w2 := { w1 with next := w.next }) ⟨fun a ha => hkeep.1 a ha, Nat.le_refl _, hkeep.2.2⟩ u⟩
      simp [k1, k2, hd.elems, exec_range, hap, hit, e]
    | some r =>
      obtain ⟨l', w', len', arr', e, u1, u2, u3, u4, u5⟩ := s2 r hr
      refine ⟨.slice w.next 0 len' (bs.length + X.extra bs.length), w', ?_, ?_, ?_, by intro a off len cap h; cases h; rfl⟩
      · simp [k1, k2, hd.elems, exec_range, hap, hit, e, u1]
      · rw [u2]
        refine ⟨fun a ha => ?_, hkeep.2⟩
        simp only [upd_ne _ _ (show a ≠ w.next by omega)]
        exact hkeep.1 a ha
      · rw [u2]
        exact Or.inr ⟨w.next, 0, len', _, arr', rfl, by simp, by rw [hw1]; simp, by simpa using u3, u4, by simpa using u5.symm⟩

end Verif.Mini
