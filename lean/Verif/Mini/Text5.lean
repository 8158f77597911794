import Verif.Mini.Export
import Verif.Mini.Opts
import Verif.Mini.Fmt
import Verif.Builder.Print

/-!
# `SyslogMessage.String` (rfc5424/builder.go:9351-9411), run symbolically
-/

set_option linter.constructorNameAsVariable false
set_option linter.unusedSimpArgs false

namespace Verif.Mini
open Verif.Gen.Mini
open Verif.Builder (sortStrings)

variable {E : Type}

/-! ## What it uses of other packages -/

def Val.str? : Val → Option Bytes
  | .str s => some s
  | _ => none

/-- `sort.Strings(s)` -/
def xSort : List Val → M E Val
  | [.slice a off len _] => fun w => match w.heap a with
    | .arr vs => match ((vs.drop off).take len).mapM Val.str? with
      | some ss => some (.ok (.tuple []) { w with heap := upd w.heap a (.arr (vs.take off ++ (sortStrings ss).map Val.str ++ vs.drop (off + len))) })
      | none => none
    | _ => if len = 0 then some (.ok (.tuple []) w) else none
  | _ => M.stuck

/-- `fmt.Sprintf` -/
def xSprintf : List Val → M E Val
  | .str f :: args => match sprintf verb0 f args with
    | some s => M.pure (.str s)
    | none => M.stuck
  | _ => M.stuck

/-- `t.Format(layout)` -/
def xFormat : List Val → M E Val
  | [p, .str layout] => M.bind (load p) fun v => match v with
    | .ext (.time t) => if layout = ascii "2006-01-02T15:04:05.999999Z07:00" then M.pure (.str (Builder.formatMicro t)) else M.stuck
    | _ => M.stuck
  | _ => M.stuck

/-- `fmt.Errorf(format, args...)` -/
def xError : List Val → M E Val
  | .str f :: args => M.pure (.err f args)
  | _ => M.stuck

/-- the functions of other packages; the rest is arbitrary -/
def libCall (other : Nm → List Val → M E Val) (f : Nm) (args : List Val) : M E Val :=
  match f with
  | .sort_Strings => xSort args
  | .fmt_Sprintf => xSprintf args
  | .fmt_Errorf => xError args
  | .time_Format => xFormat args
  | _ => other f args

/-- the program, with these functions of other packages -/
def libX (extra : Nat → Nat) (order : List Bytes → List Bytes) (other : Nm → List Val → M E Val) : Env0 E :=
  { extra := extra, order := order, call := libCall other, meth := meth, prog := prog }

section
variable (extra : Nat → Nat) (order : List Bytes → List Bytes) (other : Nm → List Val → M E Val) (n : Nat) (args : List Val)
theorem lib_prog : (libX extra order other).prog = prog := rfl
@[simp] theorem lib_Sort : call (libX extra order other) (n + 1) .sort_Strings args = xSort args := rfl
@[simp] theorem lib_Sprintf : call (libX extra order other) (n + 1) .fmt_Sprintf args = xSprintf args := rfl
@[simp] theorem lib_Errorf : call (libX extra order other) (n + 1) .fmt_Errorf args = xError args := rfl
@[simp] theorem lib_Format : call (libX extra order other) (n + 1) .time_Format args = xFormat args := rfl
end

theorem xSprintf_apply {f : Bytes} {args : List Val} {s : Bytes} (h : sprintf verb0 f args = some s) (w : W E) : (xSprintf (.str f :: args) : M E Val) w = some (.ok (.str s) w) := by
  show (match sprintf verb0 f args with
    | some s => (M.pure (.str s) : M E Val)
    | none => M.stuck) w = _
  rw [h]; rfl

/-! ## Slices of strings that grow -/

/-- the slice has these strings; it is empty or in an array that is not in the world `w0` -/
def Strs (w0 w : W E) (v : Val) (xs : List Bytes) : Prop :=
  (v = .slice 0 0 0 0 ∧ xs = []) ∨ ∃ b fill, v = .slice b 0 xs.length (xs.length + fill) ∧ w0.next ≤ b ∧ b < w.next ∧
    ∃ rest, rest.length = fill ∧ w.heap b = .arr (xs.map .str ++ rest)

theorem elems_empty (w : W E) : (elems (.slice 0 0 0 0) : M E (List Val)) w = some (.ok [] w) := by
  show (match w.heap 0 with
    | .arr vs => some (Out.ok ((vs.drop 0).take 0) w)
    | _ => if 0 = 0 then some (Out.ok [] w) else none) = _
  cases w.heap 0 <;> simp

theorem Strs.elems {w0 w : W E} {v : Val} {xs : List Bytes} (h : Strs w0 w v xs) : elems v w = some (.ok (xs.map .str) w) := by
  rcases h with ⟨rfl, rfl⟩ | ⟨b, fill, rfl, _, _, rest, _, h⟩
  · exact elems_empty w
  · rw [elems_slice h]; simp

theorem Keeps.upd {w0 w : W E} (h : Keeps w0 w) {a : Nat} (ha : w0.next ≤ a) (v : Val) : Keeps w0 { w with heap := Mini.upd w.heap a v } :=
  ⟨fun c hc => by show Mini.upd w.heap a v c = _; rw [upd_ne _ _ (by omega)]; exact h.1 c hc, h.2.1, h.2.2.1, h.2.2.2⟩

/-- `append(s, x)` -/
theorem Strs.append {w0 w : W E} {v : Val} {xs : List Bytes} (h : Strs w0 w v xs) (hk : Keeps w0 w) (extra : Nat → Nat) (x : Bytes) :
    ∃ v' w', (appendVals extra v [.str x] : M E Val) w = some (.ok v' w') ∧ Strs w0 w' v' (xs ++ [x]) ∧ Keeps w0 w' := by
  rcases h with ⟨rfl, rfl⟩ | ⟨b, fill, rfl, h1, h2, rest, h3, h⟩
  · refine ⟨.slice w.next 0 1 (1 + extra 1), { w with heap := upd w.heap w.next (.arr ([.str x] ++ List.replicate (extra 1) (.int .const 0))), next := w.next + 1 }, ?_, ?_, hk.trans (Keeps.alloc w _)⟩
    · simp only [appendVals, bind_apply, elems_empty]
      rw [if_neg (by simp)]
      simp
    · exact Or.inr ⟨w.next, extra 1, rfl, hk.2.1, Nat.lt_succ_self _, List.replicate (extra 1) (.int .const 0), by simp, by simp⟩
  · by_cases hc : xs.length + 1 ≤ xs.length + fill
    · obtain ⟨r, rest', rfl⟩ : ∃ r rest', rest = r :: rest' := by cases rest with
        | nil => simp at h3; omega
        | cons r rest' => exact ⟨r, rest', rfl⟩
      refine ⟨_, _, append_inplace h extra 0 xs.length (xs.length + fill) [.str x] (by simpa using hc), ?_, hk.upd h1 _⟩
      refine Or.inr ⟨b, fill - 1, ?_, h1, h2, rest', by simp at h3; omega, ?_⟩
      · simp only [List.length_append, List.length_cons, List.length_nil]
        congr 1
        omega
      · simp [List.drop_append]
    · obtain rfl : fill = 0 := by omega
      obtain rfl : rest = [] := by simpa using h3
      refine ⟨.slice w.next 0 (xs.length + 1) (xs.length + 1 + extra (xs.length + 1)), { w with heap := upd w.heap w.next (.arr (xs.map .str ++ [.str x] ++ List.replicate (extra (xs.length + 1)) (.int .const 0))), next := w.next + 1 }, ?_, ?_, hk.trans (Keeps.alloc w _)⟩
      · simp only [appendVals, bind_apply, elems_slice h]
        rw [if_neg (by simp)]
        have e1 : List.take xs.length (xs.map Val.str) = xs.map Val.str := List.take_of_length_le (by simp)
        simp [e1]
      · exact Or.inr ⟨w.next, extra (xs.length + 1), by simp, hk.2.1, Nat.lt_succ_self _, List.replicate (extra (xs.length + 1)) (.int .const 0), by simp, by simp⟩

theorem mapM_str (xs : List Bytes) : (xs.map Val.str).mapM Val.str? = some xs := by
  induction xs with
  | nil => rfl
  | cons x xs ih => simp [List.mapM_cons, Val.str?, ih]

theorem sort_length (xs : List Bytes) : (sortStrings xs).length = xs.length := (Builder.sortStrings_perm xs).length_eq

/-- `sort.Strings(s)` -/
theorem Strs.sort {w0 w : W E} {v : Val} {xs : List Bytes} (h : Strs w0 w v xs) (hk : Keeps w0 w) :
    ∃ w', (xSort [v] : M E Val) w = some (.ok (.tuple []) w') ∧ Strs w0 w' v (sortStrings xs) ∧ Keeps w0 w' := by
  rcases h with ⟨rfl, rfl⟩ | ⟨b, fill, rfl, h1, h2, rest, h3, h⟩
  · cases h0 : w.heap 0
    case arr vs =>
      refine ⟨{ w with heap := upd w.heap 0 (.arr (vs.take 0 ++ (sortStrings []).map Val.str ++ vs.drop (0 + 0))) }, ?_, Or.inl ⟨rfl, rfl⟩, ?_⟩
      · show (match w.heap 0 with
          | .arr vs => match ((vs.drop 0).take 0).mapM Val.str? with
            | some ss => some (Out.ok (Val.tuple []) { w with heap := upd w.heap 0 (.arr (vs.take 0 ++ (sortStrings ss).map Val.str ++ vs.drop (0 + 0))) })
            | none => none
          | _ => if 0 = 0 then some (Out.ok (Val.tuple []) w) else none) = _
        rw [h0]; rfl
      · have : upd w.heap 0 (.arr (vs.take 0 ++ (sortStrings []).map Val.str ++ vs.drop (0 + 0))) = w.heap := by
          have : Val.arr (vs.take 0 ++ (sortStrings []).map Val.str ++ vs.drop (0 + 0)) = w.heap 0 := by rw [h0]; simp [sortStrings]
          rw [this, upd_self]
        rw [this]; exact hk
    all_goals
      refine ⟨w, ?_, Or.inl ⟨rfl, rfl⟩, hk⟩
      show (match w.heap 0 with
          | .arr vs => match ((vs.drop 0).take 0).mapM Val.str? with
            | some ss => some (Out.ok (Val.tuple []) { w with heap := upd w.heap 0 (.arr (vs.take 0 ++ (sortStrings ss).map Val.str ++ vs.drop (0 + 0))) })
            | none => none
          | _ => if 0 = 0 then some (Out.ok (Val.tuple []) w) else none) = _
      rw [h0]; rfl
  · refine ⟨{ w with heap := upd w.heap b (.arr ((sortStrings xs).map .str ++ rest)) }, ?_, Or.inr ⟨b, fill, by rw [sort_length], h1, h2, rest, h3, by simp⟩, hk.upd h1 _⟩
    show (match w.heap b with
      | .arr vs => match ((vs.drop 0).take xs.length).mapM Val.str? with
        | some ss => some (Out.ok (Val.tuple []) { w with heap := upd w.heap b (.arr (vs.take 0 ++ (sortStrings ss).map Val.str ++ vs.drop (0 + xs.length))) })
        | none => none
      | _ => if xs.length = 0 then some (Out.ok (Val.tuple []) w) else none) = _
    rw [h]
    have e1 : (((xs.map Val.str ++ rest).drop 0).take xs.length).mapM Val.str? = some xs := by
      rw [← mapM_str xs]; simp
    simp only [e1]
    simp

/-! ## The loops -/

theorem Strs.keys {w0 w : W E} {v : Val} {xs : List Bytes} (h : Strs w0 w v xs) (order : List Bytes → List Bytes) :
    (rangeItems order v : M E (List (Val × Val))) w = some (.ok (items (xs.map .str)) w) := by
  have he := h.elems
  rcases h with ⟨rfl, rfl⟩ | ⟨b, fill, rfl, _⟩
  · rw [items_slice]; simp [he]
  · rw [items_slice]; simp [he]

theorem map_keys {w : W E} {a : Nat} {m : List (Bytes × Val)} (h : w.heap a = .entries m) (order : List Bytes → List Bytes) :
    (rangeItems order (.map a) : M E (List (Val × Val))) w = some (.ok ((order (m.map Prod.fst)).map fun k => (.str k, .nil)) w) := by
  show (match w.heap a with
    | .entries m => some (Out.ok ((order (m.map Prod.fst)).map fun k => (Val.str k, Val.nil)) w)
    | _ => none) = _
  rw [h]

/-- the loop that collects the keys of a map -/
theorem collect {X : Env0 E} {calls : Nm → List Val → M E Val} {k x : Nm} (hkx : k ≠ x) {w0 : W E} :
    ∀ (ks : List Bytes) (acc : List Bytes) (l : Loc) (w : W E), Strs w0 w (l x) acc → Keeps w0 w →
      ∃ l' w', rangeLoop (some k) none (fun l => exec X calls (.assign x (.append (.var x) (.var k))) l) (ks.map fun k => (.str k, .nil)) l w = some (.ok (.next, l') w') ∧
        Strs w0 w' (l' x) (acc ++ ks) ∧ Keeps w0 w' ∧ ∀ y, y ≠ k → y ≠ x → l' y = l y := by
  intro ks
  induction ks with
  | nil => intro acc l w h hk; exact ⟨l, w, rfl, by simpa using h, hk, fun _ _ _ => rfl⟩
  | cons c ks ih =>
    intro acc l w h hk
    obtain ⟨v', w', e1, h1, k1⟩ := h.append hk X.extra c
    obtain ⟨l2, w2, e2, h2, k2, o2⟩ := ih (acc ++ [c]) ((l.set k (.str c)).set x v') w' (by simpa [Loc.set] using h1) k1
    refine ⟨l2, w2, ?_, by simpa using h2, k2, ?_⟩
    · simp only [List.map_cons, rangeLoop, bind_apply]
      have e3 : exec X calls (.assign x (.append (.var x) (.var k))) (bindOpt (bindOpt l (some k) (.str c)) none .nil) w = some (.ok (.next, (l.set k (.str c)).set x v') w') := by
        simp [bindOpt, Loc.set, Ne.symm hkx, e1]
      rw [e3]
      exact e2
    · intro y hy hx
      rw [o2 y hy hx]
      simp [Loc.set, hy, hx]

theorem fmt_open (id : Bytes) : sprintf verb0 (ascii "[%s") [.str id] = some (91 :: id) := by
  rw [show ascii "[%s" = [91] ++ (37 :: 115 :: []) from by decide, sprintf_lit _ _ _ _ (by decide), sprintf_verb (verb0_str id), sprintf_nil]
  simp

theorem fmt_param (name v : Bytes) : sprintf verb0 (ascii " %s=\"%s\"") [.str name, .str v] = some (32 :: (name ++ 61 :: 34 :: (v ++ [34]))) := by
  rw [show ascii " %s=\"%s\"" = [32] ++ (37 :: 115 :: ([61, 34] ++ (37 :: 115 :: ([34] ++ [])))) from by decide, sprintf_lit _ _ _ _ (by decide), sprintf_verb (verb0_str name),
    sprintf_lit _ _ _ _ (by decide), sprintf_verb (verb0_str v), sprintf_lit _ _ _ _ (by decide), sprintf_nil]
  simp

theorem find_map {ps : SMap Bytes} (k : Bytes) : SMap.find k (ps.map fun e => (e.1, Val.str e.2)) = (SMap.find k ps).map .str := by
  induction ps with
  | nil => rfl
  | cons e ps ih =>
    show (if k = e.1 then some (Val.str e.2) else SMap.find k (ps.map fun e => (e.1, Val.str e.2))) = _
    by_cases h : k = e.1 <;> simp [SMap.find, h, ih]

theorem find_key {V : Type} {m : SMap V} {k : Bytes} (h : k ∈ Builder.keys m) : ∃ v, SMap.find k m = some v := by
  induction m with
  | nil => cases h
  | cons e m ih =>
    by_cases hk : k = e.1
    · exact ⟨e.2, by simp [SMap.find, hk]⟩
    · obtain ⟨v, hv⟩ := ih (by simpa [Builder.keys, hk] using h)
      exact ⟨v, by simp [SMap.find, hk, hv]⟩

/-- what the round of a parameter does -/
def paramStmt : Stmt := .assign .sd (.bin .add (.var .sd) (.call .fmt_Sprintf (.cons (.lit (.str (ascii " %s=\"%s\""))) (.cons (.var .name) (.cons (.call .common_EscapeBytes (.cons (.index (.var .params) (.var .name)) .unit)) .unit)))))

section
variable {extra : Nat → Nat} {order : List Bytes → List Bytes} {other : Nm → List Val → M E Val}

/-- the loop over the names of the parameters of an element -/
theorem names_loop (n : Nat) {c : Nat} {ps : SMap Bytes} {w : W E} (hc : w.heap c = .entries (ps.map fun e => (e.1, .str e.2))) :
    ∀ (names : List Bytes) (es : List (Val × Val)) (l : Loc) (acc : Bytes), es.map Prod.snd = names.map .str → (∀ x ∈ names, x ∈ Builder.keys ps) →
      l .params = .map c → l .sd = .str acc →
      ∃ l', rangeLoop none (some .name) (fun l => exec (libX extra order other) (call (libX extra order other) (n + 1)) paramStmt l) es l w = some (.ok (.next, l') w) ∧
        l' .sd = .str (acc ++ Builder.printParams ps names) ∧ ∀ y, y ≠ .name → y ≠ .sd → l' y = l y := by
  intro names
  induction names with
  | nil =>
    intro es l acc he _ _ hsd
    obtain rfl : es = [] := by simpa using he
    exact ⟨l, rfl, by simpa [Builder.printParams] using hsd, fun _ _ _ => rfl⟩
  | cons x names ih =>
    intro es l acc he hx hp hsd
    cases es with
    | nil => simp at he
    | cons e es =>
      simp only [List.map_cons, List.cons.injEq] at he
      obtain ⟨v, hv⟩ := find_key (hx x (by simp))
      obtain ⟨l2, e2, h2, o2⟩ := ih es ((l.set .name (.str x)).set .sd (.str (acc ++ 32 :: (x ++ 61 :: 34 :: (Common.escapeBytes v ++ [34]))))) _ he.2
        (fun y hy => hx y (by simp [hy])) (by simpa [Loc.set] using hp) (by simp [Loc.set]; rfl)
      refine ⟨l2, ?_, ?_, ?_⟩
      · simp only [rangeLoop, bind_apply]
        have e3 : exec (libX extra order other) (call (libX extra order other) (n + 1)) paramStmt (bindOpt (bindOpt l none e.1) (some .name) e.2) w =
            some (.ok (.next, (l.set .name (.str x)).set .sd (.str (acc ++ 32 :: (x ++ 61 :: 34 :: (Common.escapeBytes v ++ [34]))))) w) := by
          simp [paramStmt, bindOpt, he.1, Loc.set, hp, hsd, index_map, hc, find_map, hv, escapeBytes_call (lib_prog extra order other), xSprintf_apply (fmt_param _ _)]
        rw [e3]
        exact e2
      · rw [h2]; simp [Builder.printParams, hv]
      · intro y hy hx
        rw [o2 y hy hx]
        simp [Loc.set, hy, hx]

theorem entries_keys {w : W E} {own : Nat} : ∀ {m : List (Bytes × Val)} {sd : Rfc5424.SD}, ElemEntries w own m sd → m.map Prod.fst = Builder.keys sd
  | [], [], _ => rfl
  | _ :: _, _ :: _, h => by
    have := entries_keys h.2.2
    simp only [Builder.keys] at this
    simp [Builder.keys, h.1, this]

theorem entries_find {w : W E} {own : Nat} {k : Bytes} {ps : SMap Bytes} :
    ∀ {m : List (Bytes × Val)} {sd : Rfc5424.SD}, ElemEntries w own m sd → SMap.find k sd = some ps → ∃ v, SMap.find k m = some v ∧ ParamMap w own v ps
  | [], [], _, h => by cases h
  | e :: m, x :: sd, h, hf => by
    by_cases hk : k = x.1
    · refine ⟨e.2, by simp [SMap.find, h.1, hk], ?_⟩
      obtain rfl : x.2 = ps := by simpa [SMap.find, hk] using hf
      exact h.2.1
    · obtain ⟨v, h1, h2⟩ := entries_find h.2.2 (by simpa [SMap.find, hk] using hf)
      exact ⟨v, by simp [SMap.find, h.1, hk, h1], h2⟩

/-- the names of the parameters of a map, as the loop collects them, are a permutation of its keys -/
theorem param_keys {w : W E} {own : Nat} {v : Val} {ps : SMap Bytes} (h : ParamMap w own v ps) (ho : ∀ xs, (order xs).Perm xs) :
    ∃ ks : List Bytes, (rangeItems order v : M E (List (Val × Val))) w = some (.ok (ks.map fun k => (.str k, .nil)) w) ∧ ks.Perm (Builder.keys ps) := by
  rcases h with ⟨rfl, rfl⟩ | ⟨c, rfl, _, _, hc⟩
  · exact ⟨[], rfl, List.Perm.refl _⟩
  · refine ⟨_, map_keys hc order, ?_⟩
    have : (ps.map fun e => (e.1, Val.str e.2)).map Prod.fst = Builder.keys ps := by simp [Builder.keys]
    rw [this]; exact ho _

theorem elem_keys {w : W E} {own : Nat} {v : Val} {sd : Rfc5424.SD} (h : ElemMap w own v sd) (ho : ∀ xs, (order xs).Perm xs) :
    ∃ ks : List Bytes, (rangeItems order v : M E (List (Val × Val))) w = some (.ok (ks.map fun k => (.str k, .nil)) w) ∧ ks.Perm (Builder.keys sd) := by
  rcases h with ⟨rfl, rfl⟩ | ⟨c, m, rfl, _, _, hc, hm⟩
  · exact ⟨[], rfl, List.Perm.refl _⟩
  · refine ⟨_, map_keys hc order, ?_⟩
    rw [entries_keys hm]; exact ho _

/-- what the round of an element does -/
def elemStmt : Stmt :=
  (.seq (.assign .sd (.bin .add (.var .sd) (.call .fmt_Sprintf (.cons (.lit (.str (ascii "[%s"))) (.cons (.var .id) .unit))))) <|
  .seq (.assign .params (.index (.deref (.field (.var .sm) .StructuredData)) (.var .id))) <|
  .seq (.assign .names (.lit (.slice 0 0 0 0))) <|
  .seq (.range (some .n) none (.var .params) (.assign .names (.append (.var .names) (.var .n)))) <|
  .seq (.expr (.call .sort_Strings (.cons (.var .names) .unit))) <|
  .seq (.range none (some .name) (.var .names) paramStmt) <|
  .assign .sd (.bin .add (.var .sd) (.lit (.str (ascii "]")))))

/-- the text of an element -/
def elemText (sd : Rfc5424.SD) (id : Bytes) : Bytes :=
  91 :: (id ++ (Builder.printParams ((sd.find id).getD []) (sortStrings (Builder.keys ((sd.find id).getD []))) ++ [93]))

/-- the round of an element -/
theorem elem_round (ho : ∀ xs, (order xs).Perm xs) (n : Nat) {w0 w : W E} {a : Nat} {sd : Rfc5424.SD} (hsd : HasSD w0 a (some sd)) (ha : a < w0.next) (hk : Keeps w0 w)
    {l : Loc} {id acc : Bytes} (hid : id ∈ Builder.keys sd) (hsm : l .sm = .ptr a []) (hl : l .id = .str id) (hacc : l .sd = .str acc) :
    ∃ l' w', exec (libX extra order other) (call (libX extra order other) (n + 1)) elemStmt l w = some (.ok (.next, l') w') ∧ Keeps w0 w' ∧
      l' .sd = .str (acc ++ elemText sd id) ∧ ∀ y, y ≠ .sd → y ≠ .params → y ≠ .names → y ≠ .n → y ≠ .name → l' y = l y := by
  obtain ⟨ty, fs, v, h1, h2, c, p, u, rfl, h3, h4, h5, h6⟩ := hsd
  have g1 : w.heap a = .struct ty fs := by rw [hk.1 a ha, h1]
  have g5 : (w.heap c).getPath p = some u := by rw [hk.1 c h3, h5]
  obtain ⟨ps, hps⟩ := find_key hid
  obtain ⟨pv, hpv, hpm⟩ : ∃ pv, (indexVal u (.str id) : M E Val) w = some (.ok pv w) ∧ ParamMap w0 a pv ps := by
    rcases h6 with ⟨rfl, rfl⟩ | ⟨c', m, rfl, hcn, _, hc, hm⟩
    · cases hid
    · obtain ⟨pv, hf, hp⟩ := entries_find hm hps
      exact ⟨pv, by rw [index_map, hk.1 c' hcn, hc]; simp [hf], hp⟩
  obtain ⟨ks, hks, hperm⟩ := param_keys (order := order) (hpm.keep (hk.but a)) ho
  -- the start
  obtain ⟨l1, hl1⟩ : ∃ x, x = ((l.set .sd (.str (acc ++ 91 :: id))).set .params pv).set .names (.slice 0 0 0 0) := ⟨_, rfl⟩
  have e1 : exec (libX extra order other) (call (libX extra order other) (n + 1)) (.assign .sd (.bin .add (.var .sd) (.call .fmt_Sprintf (.cons (.lit (.str (ascii "[%s"))) (.cons (.var .id) .unit))))) l w =
      some (.ok (.next, l.set .sd (.str (acc ++ 91 :: id))) w) := by
    simp [hl, hacc, xSprintf_apply (fmt_open _)]
  have e2 : exec (libX extra order other) (call (libX extra order other) (n + 1)) (.assign .params (.index (.deref (.field (.var .sm) .StructuredData)) (.var .id))) (l.set .sd (.str (acc ++ 91 :: id))) w =
      some (.ok (.next, (l.set .sd (.str (acc ++ 91 :: id))).set .params pv) w) := by
    simp [Loc.set, hsm, hl, g1, h2, load_path g5, hpv]
  have e3 : exec (libX extra order other) (call (libX extra order other) (n + 1)) (.assign .names (.lit (.slice 0 0 0 0))) ((l.set .sd (.str (acc ++ 91 :: id))).set .params pv) w =
      some (.ok (.next, l1) w) := by
    rw [hl1]; simp
  have a1 : l1 .sm = .ptr a [] := by simp [hl1, Loc.set, hsm]
  have a2 : l1 .params = pv := by simp [hl1, Loc.set]
  have a3 : l1 .sd = .str (acc ++ 91 :: id) := by simp [hl1, Loc.set]
  have a4 : l1 .names = .slice 0 0 0 0 := by simp [hl1, Loc.set]
  have a5 : ∀ y, y ≠ .sd → y ≠ .params → y ≠ .names → l1 y = l y := by intro y y1 y2 y3; simp [hl1, Loc.set, y1, y2, y3]
  -- the names
  obtain ⟨l2, w2, e4, s2, k2, o2⟩ := collect (X := libX extra order other) (calls := call (libX extra order other) (n + 1)) (k := .n) (x := .names) (by decide) ks [] l1 w
    (w0 := w0) (Or.inl ⟨a4, rfl⟩) hk
  have e4' : exec (libX extra order other) (call (libX extra order other) (n + 1)) (.range (some .n) none (.var .params) (.assign .names (.append (.var .names) (.var .n)))) l1 w =
      some (.ok (.next, l2) w2) := by
    rw [exec_range]
    simp only [bind_apply, eval_var, a2]
    rw [show (libX extra order other).order = order from rfl, hks]
    exact e4
  obtain ⟨w3, e5, s3, k3⟩ := s2.sort k2
  have e5' : exec (libX extra order other) (call (libX extra order other) (n + 1)) (.expr (.call .sort_Strings (.cons (.var .names) .unit))) l2 w2 = some (.ok (.next, l2) w3) := by
    simp [e5]
  rw [List.nil_append, Builder.sortStrings_of_perm hperm] at s3
  have b2 : l2 .params = pv := by rw [o2 _ (by decide) (by decide), a2]
  have b3 : l2 .sd = .str (acc ++ 91 :: id) := by rw [o2 _ (by decide) (by decide), a3]
  -- the parameters
  obtain ⟨l3, e6, c3, o3⟩ : ∃ l3, exec (libX extra order other) (call (libX extra order other) (n + 1)) (.range none (some .name) (.var .names) paramStmt) l2 w3 = some (.ok (.next, l3) w3) ∧
      l3 .sd = .str (acc ++ 91 :: id ++ Builder.printParams ps (sortStrings (Builder.keys ps))) ∧ ∀ y, y ≠ .name → y ≠ .sd → l3 y = l2 y := by
    rw [exec_range]
    simp only [bind_apply, eval_var, s3.keys]
    rcases hpm with ⟨hn, rfl⟩ | ⟨c', hc', hcn, hca, hc⟩
    · exact ⟨l2, rfl, by rw [b3]; simp [Builder.printParams, Builder.keys, sortStrings], fun _ _ _ => rfl⟩
    · have hc3 : w3.heap c' = .entries (ps.map fun e => (e.1, .str e.2)) := by rw [k3.1 c' hcn, hc]
      exact names_loop n hc3 _ _ l2 _ (by rw [items_snd]) (fun x hx => (Builder.sortStrings_perm _).subset hx) (by rw [b2, hc']) b3
  refine ⟨l3.set .sd (.str (acc ++ elemText sd id)), w3, ?_, k3, by simp [Loc.set], ?_⟩
  · unfold elemStmt
    rw [seq_next e1, seq_next e2, seq_next e3, seq_next e4', seq_next e5', seq_next e6]
    have e7 : acc ++ 91 :: id ++ Builder.printParams ps (sortStrings (Builder.keys ps)) ++ ascii "]" = acc ++ elemText sd id := by
      rw [show ascii "]" = [93] from by decide]
      simp [elemText, hps]
    simp [c3]
    rw [← e7]; simp
  · intro y y1 y2 y3 y4 y5
    simp only [Loc.set, if_neg y1]
    rw [o3 y y5 y1, o2 y y4 y3, a5 y y1 y2 y3]

/-- the loop over the elements -/
theorem ids_loop (ho : ∀ xs, (order xs).Perm xs) (n : Nat) {w0 : W E} {a : Nat} {sd : Rfc5424.SD} (hsd : HasSD w0 a (some sd)) (ha : a < w0.next) :
    ∀ (ids : List Bytes) (es : List (Val × Val)) (l : Loc) (w : W E) (acc : Bytes), es.map Prod.snd = ids.map .str → (∀ x ∈ ids, x ∈ Builder.keys sd) →
      Keeps w0 w → l .sm = .ptr a [] → l .sd = .str acc →
      ∃ l' w', rangeLoop none (some .id) (fun l => exec (libX extra order other) (call (libX extra order other) (n + 1)) elemStmt l) es l w = some (.ok (.next, l') w') ∧ Keeps w0 w' ∧
        l' .sd = .str (acc ++ ids.flatMap (elemText sd)) ∧ ∀ y, y ≠ .id → y ≠ .sd → y ≠ .params → y ≠ .names → y ≠ .n → y ≠ .name → l' y = l y := by
  intro ids
  induction ids with
  | nil =>
    intro es l w acc he _ hk _ h2
    obtain rfl : es = [] := by simpa using he
    exact ⟨l, w, rfl, hk, by simpa using h2, fun _ _ _ _ _ _ _ => rfl⟩
  | cons x ids ih =>
    intro es l w acc he hx hk h1 h2
    cases es with
    | nil => simp at he
    | cons e es =>
      simp only [List.map_cons, List.cons.injEq] at he
      obtain ⟨l1, w1, e1, k1, s1, o1⟩ := elem_round (extra := extra) (other := other) ho n hsd ha hk (l := l.set .id (.str x)) (id := x) (acc := acc) (hx x (by simp)) (by simpa [Loc.set] using h1) (by simp [Loc.set]) (by simpa [Loc.set] using h2)
      obtain ⟨l2, w2, e2, k2, s2, o2⟩ := ih es l1 w1 _ he.2 (fun y hy => hx y (by simp [hy])) k1 (by rw [o1 _ (by decide) (by decide) (by decide) (by decide) (by decide)]; simpa [Loc.set] using h1) s1
      refine ⟨l2, w2, ?_, k2, by rw [s2]; simp, ?_⟩
      · simp only [rangeLoop, bind_apply]
        rw [show bindOpt (bindOpt l none e.1) (some .id) e.2 = l.set .id (.str x) from by rw [he.1]; rfl, e1]
        exact e2
      · intro y y0 y1 y2 y3 y4 y5
        rw [o2 y y0 y1 y2 y3 y4 y5, o1 y y1 y2 y3 y4 y5]
        simp [Loc.set, y0]

/-- `if sm.F != nil { x = *sm.F }` -/
theorem opt_assign {X : Env0 E} {calls : Nm → List Val → M E Val} {l : Loc} {w : W E} {a : Nat} {ty : Nm} {fs : List (Nm × Val)} {f x : Nm} {o : Option Bytes} {d : Bytes}
    (h1 : l .sm = .ptr a []) (h2 : w.heap a = .struct ty fs) (h3 : FieldAt w a fs f .str o) (h4 : l x = .str d) :
    exec X calls (.ifs (.bin .ne (.field (.var .sm) f) (.lit .nil)) (.assign x (.deref (.field (.var .sm) f))) .skip) l w = some (.ok (.next, l.set x (.str (o.getD d))) w) := by
  obtain ⟨v, h5, h6⟩ := h3
  cases o with
  | none =>
    obtain rfl : v = .nil := h6
    have : l.set x (.str d) = l := by funext y; by_cases hy : y = x <;> simp [Loc.set, hy, h4]
    simp [h1, h2, h5, this]
  | some b =>
    obtain ⟨c, p, rfl, _, _, h7⟩ := h6
    simp [h1, h2, h5, load_path h7]

theorem format_apply {w : W E} {p : Val} {t : GoTime.Time} (h : (load p : M E Val) w = some (.ok (timeVal t) w)) :
    (xFormat [p, .str (ascii "2006-01-02T15:04:05.999999Z07:00")] : M E Val) w = some (.ok (.str (Builder.formatMicro t)) w) := by
  show (M.bind (load p) fun v => match v with
    | .ext (.time t) => if ascii "2006-01-02T15:04:05.999999Z07:00" = ascii "2006-01-02T15:04:05.999999Z07:00" then (M.pure (.str (Builder.formatMicro t)) : M E Val) else M.stuck
    | _ => M.stuck) w = _
  simp only [bind_apply, h, timeVal]
  rfl

theorem intString_nat (k : Nat) : Texts.intString (k : Int) = Builder.printUint k := by
  rw [Builder.printUint_eq, Texts.intString, if_neg (by omega)]; rfl

theorem fmt_string (pri : UInt8) (v : UInt16) (t hn an pid mid sd m : Bytes) :
    sprintf verb0 (ascii "<%d>%d %s %s %s %s %s %s%s") [byteVal pri, .int .u16 v.toNat, .str t, .str hn, .str an, .str pid, .str mid, .str sd, .str m] =
      some (60 :: (Builder.printUint pri.toNat ++ 62 :: (Builder.printUint v.toNat ++ 32 :: (t ++ 32 :: (hn ++ 32 :: (an ++ 32 :: (pid ++ 32 :: (mid ++ 32 :: (sd ++ m))))))))) := by
  rw [show ascii "<%d>%d %s %s %s %s %s %s%s" = [60] ++ (37 :: 100 :: ([62] ++ (37 :: 100 :: ([32] ++ (37 :: 115 :: ([32] ++ (37 :: 115 :: ([32] ++ (37 :: 115 :: ([32] ++ (37 :: 115 :: ([32] ++ (37 :: 115 :: ([32] ++ (37 :: 115 :: (37 :: 115 :: [])))))))))))))))) from by decide,
    sprintf_lit _ _ _ _ (by decide), sprintf_verb (show verb0 100 (byteVal pri) = some (Builder.printUint pri.toNat) from by rw [← intString_nat]; rfl),
    sprintf_lit _ _ _ _ (by decide), sprintf_verb (show verb0 100 (.int .u16 v.toNat) = some (Builder.printUint v.toNat) from by rw [← intString_nat]; rfl),
    sprintf_lit _ _ _ _ (by decide), sprintf_verb (verb0_str t), sprintf_lit _ _ _ _ (by decide), sprintf_verb (verb0_str hn), sprintf_lit _ _ _ _ (by decide), sprintf_verb (verb0_str an),
    sprintf_lit _ _ _ _ (by decide), sprintf_verb (verb0_str pid), sprintf_lit _ _ _ _ (by decide), sprintf_verb (verb0_str mid), sprintf_lit _ _ _ _ (by decide), sprintf_verb (verb0_str sd),
    sprintf_verb (verb0_str m), sprintf_nil]
  simp

/-- `if sm.StructuredData != nil { .. }` -/
def sdStmt : Stmt :=
  .ifs (.bin .ne (.field (.var .sm) .StructuredData) (.lit .nil)) (.seq (.assign .identifiers (.lit (.slice 0 0 0 0))) <|
    .seq (.range (some .k) none (.deref (.field (.var .sm) .StructuredData)) (.assign .identifiers (.append (.var .identifiers) (.var .k)))) <|
    .seq (.expr (.call .sort_Strings (.cons (.var .identifiers) .unit))) <|
    .seq (.assign .sd (.lit (.str []))) <|
    .range none (some .id) (.var .identifiers) elemStmt) .skip

/-- the text of the structured data -/
def sdText : Option Rfc5424.SD → Bytes
  | none => [45]
  | some sd => (sortStrings (Builder.keys sd)).flatMap (elemText sd)

/-- the variables that the block writes -/
def sdVars : List Nm := [.identifiers, .k, .sd, .id, .params, .names, .n, .name]

theorem sd_exec (ho : ∀ xs, (order xs).Perm xs) (n : Nat) {w : W E} {a : Nat} {sd : Option Rfc5424.SD} (hsd : HasSD w a sd) (ha : a < w.next) {l : Loc}
    (h1 : l .sm = .ptr a []) (h2 : l .sd = .str [45]) :
    ∃ l' w', exec (libX extra order other) (call (libX extra order other) (n + 1)) sdStmt l w = some (.ok (.next, l') w') ∧ Keeps w w' ∧
      l' .sd = .str (sdText sd) ∧ ∀ y, y ∉ sdVars → l' y = l y := by
  have hsd' := hsd
  obtain ⟨ty, fs, v, g1, g2, g3⟩ := hsd
  cases sd with
  | none =>
    obtain rfl : v = .nil := g3
    exact ⟨l, w, by simp [sdStmt, h1, g1, g2], Keeps.refl w, h2, fun _ _ => rfl⟩
  | some sd =>
    obtain ⟨c, p, u, rfl, h3, h4, h5, h6⟩ := g3
    obtain ⟨ks, hks, hperm⟩ := elem_keys (order := order) h6 ho
    obtain ⟨l1, hl1⟩ : ∃ x, x = l.set .identifiers (.slice 0 0 0 0) := ⟨_, rfl⟩
    have e1 : exec (libX extra order other) (call (libX extra order other) (n + 1)) (.assign .identifiers (.lit (.slice 0 0 0 0))) l w = some (.ok (.next, l1) w) := by
      rw [hl1]; simp
    have a1 : l1 .sm = .ptr a [] := by simp [hl1, Loc.set, h1]
    obtain ⟨l2, w2, e2, s2, k2, o2⟩ := collect (X := libX extra order other) (calls := call (libX extra order other) (n + 1)) (k := .k) (x := .identifiers) (by decide) ks [] l1 w
      (w0 := w) (Or.inl ⟨by simp [hl1, Loc.set], rfl⟩) (Keeps.refl w)
    have e2' : exec (libX extra order other) (call (libX extra order other) (n + 1)) (.range (some .k) none (.deref (.field (.var .sm) .StructuredData)) (.assign .identifiers (.append (.var .identifiers) (.var .k)))) l1 w =
        some (.ok (.next, l2) w2) := by
      rw [exec_range]
      have : eval (libX extra order other) (call (libX extra order other) (n + 1)) l1 (.deref (.field (.var .sm) .StructuredData)) w = some (.ok u w) := by
        simp [a1, g1, g2, load_path h5]
      simp only [bind_apply, this]
      rw [show (libX extra order other).order = order from rfl, hks]
      exact e2
    obtain ⟨w3, e3, s3, k3⟩ := s2.sort k2
    have e3' : exec (libX extra order other) (call (libX extra order other) (n + 1)) (.expr (.call .sort_Strings (.cons (.var .identifiers) .unit))) l2 w2 = some (.ok (.next, l2) w3) := by
      simp [e3]
    rw [List.nil_append, Builder.sortStrings_of_perm hperm] at s3
    have e4 : exec (libX extra order other) (call (libX extra order other) (n + 1)) (.assign .sd (.lit (.str []))) l2 w3 = some (.ok (.next, l2.set .sd (.str [])) w3) := by simp
    obtain ⟨l5, w5, e5, k5, s5, o5⟩ := ids_loop (extra := extra) (other := other) ho n hsd' ha _ (items ((sortStrings (Builder.keys sd)).map .str)) (l2.set .sd (.str [])) w3 [] (items_snd _)
      (fun x hx => (Builder.sortStrings_perm _).subset hx) k3 (by simp only [Loc.set]; rw [if_neg (by decide), o2 _ (by decide) (by decide), a1]) (by simp [Loc.set])
    have e5' : exec (libX extra order other) (call (libX extra order other) (n + 1)) (.range none (some .id) (.var .identifiers) elemStmt) (l2.set .sd (.str [])) w3 = some (.ok (.next, l5) w5) := by
      rw [exec_range]
      have : eval (libX extra order other) (call (libX extra order other) (n + 1)) (l2.set .sd (.str [])) (.var .identifiers) w3 = some (.ok (l2 .identifiers) w3) := by simp [Loc.set]
      simp only [bind_apply, this]
      rw [s3.keys]
      exact e5
    refine ⟨l5, w5, ?_, k5, by simpa [sdText] using s5, ?_⟩
    · unfold sdStmt
      rw [exec_ifs]
      have : eval (libX extra order other) (call (libX extra order other) (n + 1)) l (.bin .ne (.field (.var .sm) .StructuredData) (.lit .nil)) w = some (.ok (.bool true) w) := by
        simp [h1, g1, g2]
      simp only [bind_apply, this, truth_bool, if_true]
      rw [seq_next e1, seq_next e2', seq_next e3', seq_next e4, e5']
    · intro y hy
      simp only [sdVars, List.mem_cons, List.not_mem_nil, not_or, or_false] at hy
      obtain ⟨y1, y2, y3, y4, y5, y6, y7, y8⟩ := hy
      rw [o5 y y4 y3 y5 y6 y7 y8]
      simp only [Loc.set, if_neg y3]
      rw [o2 y y2 y1, hl1]
      simp only [Loc.set, if_neg y1]

theorem string_eq (m : Rfc5424.SyslogMessage) {pri : UInt8} (hv : m.valid = true) (hp : m.priority = some pri) :
    Builder.string m = some (60 :: (Builder.printUint pri.toNat ++ 62 :: (Builder.printUint m.version.toNat ++ 32 :: (Builder.textTime m.timestamp ++ 32 :: (m.hostname.getD [45] ++ 32 ::
      (m.appname.getD [45] ++ 32 :: (m.procID.getD [45] ++ 32 :: (m.msgID.getD [45] ++ 32 :: (sdText m.structuredData ++ Builder.textMsg m.message))))))))) := by
  unfold Builder.string Builder.stringWith
  rw [if_neg (by simp [hv])]
  simp only [hp]
  have : Builder.textSD (Builder.keys (m.structuredData.getD [])) (fun id => Builder.keys (((m.structuredData.getD []).find id).getD [])) m.structuredData = sdText m.structuredData := by
    cases h : m.structuredData with
    | none => rfl
    | some sd => rfl
  rw [this]

theorem assign_lit (X : Env0 E) (calls : Nm → List Val → M E Val) (l : Loc) (w : W E) (x : Nm) (v : Val) : exec X calls (.assign x (.lit v)) l w = some (.ok (.next, l.set x v) w) := rfl

/-- `SyslogMessage.String` (rfc5424/builder.go:9351-9411) -/
theorem string_call (ho : ∀ xs, (order xs).Perm xs) (n : Nat) {w : W E} {a : Nat} {m : Rfc5424.SyslogMessage} (h : HasMsg5 w a m) :
    ∃ w', call (libX extra order other) (n + 5) .rfc5424_SyslogMessage_String [.ptr a []] w = some (.ok (match Builder.string m with
      | some text => .tuple [.str text, .nil]
      | none => .tuple [.str [], .err (ascii "invalid syslog") []]) w') ∧ Keeps w w' := by
  rw [call_fn (lib_prog extra order other) prog_rfc5424_SyslogMessage_String]
  cases hv : m.valid with
  | false =>
    refine ⟨w, ?_, Keeps.refl w⟩
    have : Builder.string m = none := by simp [Builder.string, Builder.stringWith, hv]
    rw [this]
    simp [rfc5424_SyslogMessage_String, valid5_call (lib_prog extra order other) n a m w h.base h.version, hv]
    rfl
  | true =>
    obtain ⟨ty, fs, g1, ga, gb⟩ := h.base
    obtain ⟨ty', fs', g1', gv⟩ := h.version
    obtain ⟨rfl, rfl⟩ : ty = ty' ∧ fs = fs' := by rw [g1] at g1'; injection g1' with q1 q2; exact ⟨q1, q2⟩
    obtain ⟨pri, hpri⟩ : ∃ pri, m.priority = some pri := by
      cases hp : m.priority with
      | some pri => exact ⟨pri, rfl⟩
      | none => simp [Rfc5424.SyslogMessage.valid, Base.valid, hp] at hv
    obtain ⟨pv, gp1, gp2⟩ := gb.priority
    rw [hpri] at gp2
    obtain ⟨pc, pp, rfl, gp3, gp4, gp5⟩ := gp2
    obtain ⟨l1, hl1⟩ : ∃ x : Loc, x = ((((((((Loc.empty.set .sm (.ptr a [])).set .template (.str (ascii "<%d>%d %s %s %s %s %s %s%s"))).set .t (.str (ascii "-"))).set .hn (.str (ascii "-"))).set .an (.str (ascii "-"))).set .pid
      (.str (ascii "-"))).set .mid (.str (ascii "-"))).set .sd (.str (ascii "-"))).set .m (.str []) := ⟨_, rfl⟩
    have d : ascii "-" = [45] := by decide
    have e2 : exec (libX extra order other) (call (libX extra order other) (n + 4)) (.ifs (.bin .ne (.field (.var .sm) .Timestamp) (.lit .nil)) (.assign .t (.call .time_Format (.cons (.field (.var .sm) .Timestamp)
        (.cons (.lit (.str (ascii "2006-01-02T15:04:05.999999Z07:00"))) .unit)))) .skip) l1 w = some (.ok (.next, l1.set .t (.str (Builder.textTime m.timestamp))) w) := by
      obtain ⟨v, f1, f2⟩ := gb.timestamp
      have hsm : l1 .sm = .ptr a [] := by simp [hl1, Loc.set]
      have ht : l1 .t = .str [45] := by simp [hl1, Loc.set, d]
      cases hts : m.timestamp with
      | none =>
        rw [hts] at f2
        obtain rfl : v = .nil := f2
        have : l1.set .t (.str [45]) = l1 := by funext y; by_cases hy : y = Nm.t <;> simp [Loc.set, hy, ht]
        simp [hsm, g1, f1, Builder.textTime, this]
      | some t =>
        rw [hts] at f2
        obtain ⟨c, p, rfl, _, _, f3⟩ := f2
        simp [hsm, g1, f1, Builder.textTime, format_apply (load_path f3)]
    obtain ⟨l2, hl2⟩ : ∃ x : Loc, x = l1.set .t (.str (Builder.textTime m.timestamp)) := ⟨_, rfl⟩
    rw [← hl2] at e2
    have e3 := opt_assign (X := libX extra order other) (calls := call (libX extra order other) (n + 4)) (l := l2) (x := .hn) (d := [45]) (by simp [hl2, hl1, Loc.set]) g1 gb.hostname (by simp [hl2, hl1, Loc.set, d])
    obtain ⟨l3, hl3⟩ : ∃ x : Loc, x = l2.set .hn (.str (m.hostname.getD [45])) := ⟨_, rfl⟩
    rw [← hl3] at e3
    have e4 := opt_assign (X := libX extra order other) (calls := call (libX extra order other) (n + 4)) (l := l3) (x := .an) (d := [45]) (by simp [hl3, hl2, hl1, Loc.set]) g1 gb.appname (by simp [hl3, hl2, hl1, Loc.set, d])
    obtain ⟨l4, hl4⟩ : ∃ x : Loc, x = l3.set .an (.str (m.appname.getD [45])) := ⟨_, rfl⟩
    rw [← hl4] at e4
    have e5 := opt_assign (X := libX extra order other) (calls := call (libX extra order other) (n + 4)) (l := l4) (x := .pid) (d := [45]) (by simp [hl4, hl3, hl2, hl1, Loc.set]) g1 gb.procID (by simp [hl4, hl3, hl2, hl1, Loc.set, d])
    obtain ⟨l5, hl5⟩ : ∃ x : Loc, x = l4.set .pid (.str (m.procID.getD [45])) := ⟨_, rfl⟩
    rw [← hl5] at e5
    have e6 := opt_assign (X := libX extra order other) (calls := call (libX extra order other) (n + 4)) (l := l5) (x := .mid) (d := [45]) (by simp [hl5, hl4, hl3, hl2, hl1, Loc.set]) g1 gb.msgID (by simp [hl5, hl4, hl3, hl2, hl1, Loc.set, d])
    obtain ⟨l6, hl6⟩ : ∃ x : Loc, x = l5.set .mid (.str (m.msgID.getD [45])) := ⟨_, rfl⟩
    rw [← hl6] at e6
    obtain ⟨l7, w7, e7, k7, s7, o7⟩ := sd_exec (extra := extra) (other := other) ho (n + 3) h.sd ga (l := l6) (by simp [hl6, hl5, hl4, hl3, hl2, hl1, Loc.set]) (by simp [hl6, hl5, hl4, hl3, hl2, hl1, Loc.set, d])
    have q1 : l7 .sm = .ptr a [] := by rw [o7 _ (by decide)]; simp [hl6, hl5, hl4, hl3, hl2, hl1, Loc.set]
    have q2 : l7 .template = .str (ascii "<%d>%d %s %s %s %s %s %s%s") := by rw [o7 _ (by decide)]; simp [hl6, hl5, hl4, hl3, hl2, hl1, Loc.set]
    have q3 : l7 .t = .str (Builder.textTime m.timestamp) := by rw [o7 _ (by decide)]; simp [hl6, hl5, hl4, hl3, hl2, Loc.set]
    have q4 : l7 .hn = .str (m.hostname.getD [45]) := by rw [o7 _ (by decide)]; simp [hl6, hl5, hl4, hl3, Loc.set]
    have q5 : l7 .an = .str (m.appname.getD [45]) := by rw [o7 _ (by decide)]; simp [hl6, hl5, hl4, Loc.set]
    have q6 : l7 .pid = .str (m.procID.getD [45]) := by rw [o7 _ (by decide)]; simp [hl6, hl5, Loc.set]
    have q7 : l7 .mid = .str (m.msgID.getD [45]) := by rw [o7 _ (by decide)]; simp [hl6, Loc.set]
    have q8 : l7 .m = .str [] := by rw [o7 _ (by decide)]; simp [hl6, hl5, hl4, hl3, hl2, hl1, Loc.set]
    have g7 : w7.heap a = .struct ty fs := by rw [k7.1 a ga, g1]
    have e8 : exec (libX extra order other) (call (libX extra order other) (n + 4)) (.ifs (.bin .ne (.field (.var .sm) .Message) (.lit .nil)) (.assign .m (.bin .add (.lit (.str (ascii " "))) (.deref (.field (.var .sm) .Message)))) .skip) l7 w7 =
        some (.ok (.next, l7.set .m (.str (Builder.textMsg m.message))) w7) := by
      obtain ⟨v, f1, f2⟩ := (gb.keep (k7.but a)).message
      cases hts : m.message with
      | none =>
        rw [hts] at f2
        obtain rfl : v = .nil := f2
        have : l7.set .m (.str []) = l7 := by funext y; by_cases hy : y = Nm.m <;> simp [Loc.set, hy, q8]
        simp [q1, g7, f1, Builder.textMsg, this]
      | some t =>
        rw [hts] at f2
        obtain ⟨c, p, rfl, _, _, f3⟩ := f2
        simp [q1, g7, f1, Builder.textMsg, load_path f3, show ascii " " = [32] from by decide]
    have gp7 : (w7.heap pc).getPath pp = some (byteVal pri) := by rw [k7.1 pc gp3, gp5]
    refine ⟨w7, ?_, k7⟩
    rw [string_eq m hv hpri]
    have e0 : exec (libX extra order other) (call (libX extra order other) (n + 4)) (.ifs (.not (.call .rfc5424_SyslogMessage_Valid (.cons (.var .sm) .unit))) (.ret (.cons (.lit (.str [])) (.cons (.call .fmt_Errorf (.cons (.lit (.str (ascii "invalid syslog"))) .unit)) .unit))) .skip)
        (Loc.empty.set .sm (.ptr a [])) w = some (.ok (.next, Loc.empty.set .sm (.ptr a [])) w) := by
      simp [Loc.set, valid5_call (lib_prog extra order other) n a m w h.base h.version, hv]
    have hbody : exec (libX extra order other) (call (libX extra order other) (n + 4)) rfc5424_SyslogMessage_String.body (Loc.empty.set .sm (.ptr a [])) w =
        some (.ok (.ret (.tuple [.str (60 :: (Builder.printUint pri.toNat ++ 62 :: (Builder.printUint m.version.toNat ++ 32 :: (Builder.textTime m.timestamp ++ 32 :: (m.hostname.getD [45] ++ 32 ::
      (m.appname.getD [45] ++ 32 :: (m.procID.getD [45] ++ 32 :: (m.msgID.getD [45] ++ 32 :: (sdText m.structuredData ++ Builder.textMsg m.message))))))))), .nil]), l7.set .m (.str (Builder.textMsg m.message))) w7) := by
      unfold rfc5424_SyslogMessage_String
      dsimp only
      rw [seq_next e0]
      iterate 8 rw [seq_next (assign_lit _ _ _ _ _ _)]
      rw [← hl1, seq_next e2, seq_next e3, seq_next e4, seq_next e5, seq_next e6]
      refine (seq_next (a := sdStmt) e7).trans ?_
      rw [seq_next e8]
      simp [Loc.set, q1, q2, q3, q4, q5, q6, q7, s7, g7, gp1, gv, load_path gp7, xSprintf_apply (fmt_string _ _ _ _ _ _ _ _ _)]
    simp only [bind_apply]
    rw [show (M.of (params rfc5424_SyslogMessage_String.params [.ptr a []]) : M E Loc) w = some (.ok (Loc.empty.set .sm (.ptr a [])) w) from rfl]
    simp only [hbody]
    rfl

end

end Verif.Mini
