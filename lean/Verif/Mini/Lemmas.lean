import Verif.Gen.Mini

/-!
# Running the hand-written functions symbolically
-/

set_option linter.constructorNameAsVariable false

namespace Verif.Mini

variable {E α β : Type}

@[simp] theorem bind_apply (x : M E α) (f : α → M E β) (w : W E) : M.bind x f w =
    match x w with
    | none => none
    | some (.panic w') => some (.panic w')
    | some (.ok a w') => f a w' := rfl

@[simp] theorem pure_apply (a : α) (w : W E) : (M.pure a : M E α) w = some (.ok a w) := rfl
@[simp] theorem panic_apply (w : W E) : (M.panic : M E α) w = some (.panic w) := rfl
@[simp] theorem stuck_apply (w : W E) : (M.stuck : M E α) w = none := rfl
@[simp] theorem of_some (a : α) : (M.of (some a) : M E α) = M.pure a := rfl
@[simp] theorem of_none : (M.of none : M E α) = M.stuck := rfl

@[simp] theorem set_apply (l : Loc) (x y : Nm) (v : Val) : l.set x v y = if y = x then v else l y := rfl

@[simp] theorem upd_same (h : Nat → Val) (a : Nat) (v : Val) : upd h a v a = v := by simp [upd]

theorem upd_ne (h : Nat → Val) {a b : Nat} (v : Val) (hn : b ≠ a) : upd h a v b = h b := by simp [upd, hn]

/-- one round of a loop -/
theorem exec_forc (X : Env0 E) (calls : Nm → List Val → M E Val) (c : Expr) (post body : Stmt) (l : Loc) (w : W E) :
    exec X calls (.forc c post body) l w =
      match M.bind (eval X calls l c) truth w with
      | none => none
      | some (.panic w1) => some (.panic w1)
      | some (.ok false w1) => some (.ok (.next, l) w1)
      | some (.ok true w1) =>
        match exec X calls body l w1 with
        | none => none
        | some (.panic w2) => some (.panic w2)
        | some (.ok (.brk, l2) w2) => some (.ok (.next, l2) w2)
        | some (.ok (.ret x, l2) w2) => some (.ok (.ret x, l2) w2)
        | some (.ok (.next, l2) w2) =>
          match exec X calls post l2 w2 with
          | none => none
          | some (.panic w3) => some (.panic w3)
          | some (.ok r w3) => exec X calls (.forc c post body) r.2 w3 := by
  simp only [exec]
  rw [forLoop]
  simp only [bind_apply]
  cases h : eval X calls l c w with
  | none => rfl
  | some o =>
    cases o with
    | panic w1 => rfl
    | ok v w1 =>
      simp only []
      cases h1 : truth v w1 with
      | none => rfl
      | some o =>
        cases o with
        | panic w1 => rfl
        | ok b w1 =>
          cases b with
          | false => rfl
          | true =>
            simp only [if_true, bind_apply]
            cases h2 : exec X calls body l w1 with
            | none => rfl
            | some o =>
              cases o with
              | panic w1 => rfl
              | ok r w2 =>
                obtain ⟨c, l2⟩ := r
                cases c with
                | brk => rfl
                | ret x => rfl
                | next =>
                  simp only [bind_apply]
                  cases h3 : exec X calls post l2 w2 with
                  | none => rfl
                  | some o => cases o <;> rfl

/-! Equations for `simp`: expressions. -/

section
variable (X : Env0 E) (calls : Nm → List Val → M E Val) (l : Loc) (w : W E)

@[simp] theorem eval_lit (v : Val) : eval X calls l (.lit v) w = some (.ok v w) := rfl
@[simp] theorem eval_var (x : Nm) : eval X calls l (.var x) w = some (.ok (l x) w) := rfl
@[simp] theorem eval_glob (x : Nm) : eval X calls l (.glob x) w = some (.ok (w.glob x) w) := rfl
@[simp] theorem eval_unit : eval X calls l .unit w = some (.ok (.tuple []) w) := rfl
@[simp] theorem eval_field (e : Expr) (f : Nm) : eval X calls l (.field e f) w =
    (M.bind (eval X calls l e) fun v =>
    match v with
    | .struct _ _ => M.of (v.get f)
    | _ => M.bind (load v) fun u => M.of (u.get f)) w := by rw [eval]; rfl
@[simp] theorem eval_deref (e : Expr) : eval X calls l (.deref e) w =
    (M.bind (eval X calls l e) load) w := rfl
@[simp] theorem eval_addr (e : Expr) (f : Nm) : eval X calls l (.addr e f) w =
    (M.bind (eval X calls l e) fun v =>
    match v with
    | .ptr a path => M.pure (.ptr a (path ++ [f]))
    | .nil => M.panic
    | _ => M.stuck) w := by rw [eval]; rfl
@[simp] theorem eval_new (e : Expr) : eval X calls l (.new e) w =
    (M.bind (eval X calls l e) fun v => M.bind (alloc v) fun a => M.pure (.ptr a [])) w := rfl
@[simp] theorem eval_mk (zero : Val) (fs : List Nm) (args : Expr) : eval X calls l (.mk zero fs args) w =
    (M.bind (eval X calls l args) fun v => M.bind (M.of (argsOf v)) fun vs => M.of (putAll zero fs vs)) w := rfl
@[simp] theorem eval_index (e i : Expr) : eval X calls l (.index e i) w =
    (M.bind (eval X calls l e) fun v => M.bind (eval X calls l i) fun j => indexVal v j) w := rfl
@[simp] theorem eval_indexOk (e i : Expr) : eval X calls l (.indexOk e i) w =
    (M.bind (eval X calls l e) fun v => M.bind (eval X calls l i) fun j => indexOkVal v j) w := rfl
@[simp] theorem eval_sub (e lo hi : Expr) : eval X calls l (.sub e lo hi) w =
    (M.bind (eval X calls l e) fun v => M.bind (eval X calls l lo) fun a => M.bind (eval X calls l hi) fun b => subVal v a b) w := rfl
@[simp] theorem eval_len (e : Expr) : eval X calls l (.len e) w =
    (M.bind (eval X calls l e) lenVal) w := rfl
@[simp] theorem eval_bin (o : Op) (a b : Expr) : eval X calls l (.bin o a b) w =
    (M.bind (eval X calls l a) fun v => M.bind (eval X calls l b) fun u => M.of (o.on v u)) w := rfl
@[simp] theorem eval_and (a b : Expr) : eval X calls l (.and a b) w =
    (M.bind (eval X calls l a) fun v => M.bind (truth v) fun t => if t then eval X calls l b else M.pure (.bool false)) w := rfl
@[simp] theorem eval_or (a b : Expr) : eval X calls l (.or a b) w =
    (M.bind (eval X calls l a) fun v => M.bind (truth v) fun t => if t then M.pure (.bool true) else eval X calls l b) w := rfl
@[simp] theorem eval_not (a : Expr) : eval X calls l (.not a) w =
    (M.bind (eval X calls l a) fun v => M.bind (truth v) fun t => M.pure (.bool !t)) w := rfl
@[simp] theorem eval_conv (k : Kind) (e : Expr) : eval X calls l (.conv k e) w =
    (M.bind (eval X calls l e) (convVal k)) w := rfl
@[simp] theorem eval_toStr (e : Expr) : eval X calls l (.toStr e) w =
    (M.bind (eval X calls l e) toStrVal) w := rfl
@[simp] theorem eval_toBytes (e : Expr) : eval X calls l (.toBytes e) w =
    (M.bind (eval X calls l e) toStrVal) w := rfl
@[simp] theorem eval_byteLit (args : Expr) : eval X calls l (.byteLit args) w =
    (M.bind (eval X calls l args) fun v => M.bind (M.of (argsOf v)) fun vs => M.bind (M.of (vs.mapM Val.byte?)) fun bs => M.pure (.str bs)) w := rfl
@[simp] theorem eval_sliceLit (args : Expr) : eval X calls l (.sliceLit args) w =
    (M.bind (eval X calls l args) fun v => M.bind (M.of (argsOf v)) fun vs =>
    if vs.isEmpty then M.pure .nil else M.bind (alloc (.arr vs)) fun a => M.pure (.slice a 0 vs.length vs.length)) w := rfl
@[simp] theorem eval_append (a b : Expr) : eval X calls l (.append a b) w =
    (M.bind (eval X calls l a) fun s => M.bind (eval X calls l b) fun v => appendVals X.extra s [v]) w := rfl
@[simp] theorem eval_appendAll (a b : Expr) : eval X calls l (.appendAll a b) w =
    (M.bind (eval X calls l a) fun s => M.bind (eval X calls l b) fun v => M.bind (elems v) fun vs => appendVals X.extra s vs) w := rfl
@[simp] theorem eval_cons (a b : Expr) : eval X calls l (.cons a b) w =
    (M.bind (eval X calls l a) fun v => M.bind (eval X calls l b) fun r => M.bind (M.of (argsOf r)) fun vs => M.pure (.tuple (v :: vs))) w := rfl
@[simp] theorem eval_call (f : Nm) (args : Expr) : eval X calls l (.call f args) w =
    (M.bind (eval X calls l args) fun v => M.bind (M.of (argsOf v)) fun vs => calls f vs) w := rfl
@[simp] theorem eval_dyn (e : Expr) (f : Nm) (args : Expr) : eval X calls l (.dyn e f args) w =
    (M.bind (eval X calls l e) fun r => M.bind (eval X calls l args) fun v => M.bind (M.of (argsOf v)) fun vs =>
    M.bind (typeOf r) fun ty => M.bind (M.of (X.meth ty f)) fun g => calls g (r :: vs)) w := rfl
@[simp] theorem eval_callVal (e args : Expr) : eval X calls l (.callVal e args) w =
    (M.bind (eval X calls l e) fun c => M.bind (eval X calls l args) fun v => M.bind (M.of (argsOf v)) fun vs =>
    match c with
    | .clo f caps => calls f (caps ++ vs)
    | .ext .listener => calls .emit vs
    | .nil => M.panic
    | _ => M.stuck) w := by rw [eval]; rfl
@[simp] theorem eval_clo (f : Nm) (caps : Expr) : eval X calls l (.clo f caps) w =
    (M.bind (eval X calls l caps) fun v => M.bind (M.of (argsOf v)) fun vs => M.pure (.clo f vs)) w := rfl
end

/-! Statements, except loops. -/

section
variable (X : Env0 E) (calls : Nm → List Val → M E Val) (l : Loc) (w : W E)

@[simp] theorem exec_skip : exec X calls .skip l w = some (.ok (.next, l) w) := rfl
@[simp] theorem exec_brk : exec X calls .brk l w = some (.ok (.brk, l) w) := rfl
@[simp] theorem exec_seq (a b : Stmt) : exec X calls (.seq a b) l w =
    (M.bind (exec X calls a l) fun r =>
    match r.1 with
    | .next => exec X calls b r.2
    | c => M.pure (c, r.2)) w := by rw [exec]; rfl
@[simp] theorem exec_assign (x : Nm) (e : Expr) : exec X calls (.assign x e) l w =
    (M.bind (eval X calls l e) fun v => M.pure (.next, l.set x v)) w := rfl
@[simp] theorem exec_store (p e : Expr) : exec X calls (.store p e) l w =
    (M.bind (eval X calls l p) fun q => M.bind (eval X calls l e) fun v => M.bind (storeAt q v) fun _ => M.pure (.next, l)) w := rfl
@[simp] theorem exec_setGlob (x : Nm) (e : Expr) : exec X calls (.setGlob x e) l w =
    (M.bind (eval X calls l e) fun v => fun w =>
    some (.ok (.next, l) { w with glob := fun y => if y = x then (w.glob y).coerce v else w.glob y })) w := rfl
@[simp] theorem exec_multi (xs : List (Option Nm)) (e : Expr) : exec X calls (.multi xs e) l w =
    (M.bind (eval X calls l e) fun v => M.bind (M.of (argsOf v)) fun vs => M.bind (M.of (assignAll l xs vs)) fun l' => M.pure (.next, l')) w := rfl
@[simp] theorem exec_expr (e : Expr) : exec X calls (.expr e) l w =
    (M.bind (eval X calls l e) fun _ => M.pure (.next, l)) w := rfl
@[simp] theorem exec_ifs (c : Expr) (a b : Stmt) : exec X calls (.ifs c a b) l w =
    (M.bind (eval X calls l c) fun v => M.bind (truth v) fun t => if t then exec X calls a l else exec X calls b l) w := rfl
theorem exec_range (i v : Option Nm) (e : Expr) (body : Stmt) : exec X calls (.range i v e body) l w =
    (M.bind (eval X calls l e) fun s => M.bind (rangeItems X.order s) fun es => rangeLoop i v (fun l => exec X calls body l) es l) w := rfl
@[simp] theorem exec_ret (e : Expr) : exec X calls (.ret e) l w =
    (M.bind (eval X calls l e) fun v => M.pure (.ret v, l)) w := rfl
end

/-- a call of a function of the program -/
theorem call_fn {X : Env0 E} {f : Nm} {fn : Fn} {p : Nm → Option Fn} (hp : X.prog = p) (hf : p f = some fn) (n : Nat) (args : List Val) :
    call X (n + 1) f args = M.bind (M.of (params fn.params args)) fun l => M.bind (exec X (call X n) fn.body l) fun r =>
      match r.1 with
      | .ret v => M.pure v
      | .next => M.pure (.tuple [])
      | .brk => M.stuck := by
  rw [call, hp, hf]; rfl

/-- a call of a function of another package -/
theorem call_ext {X : Env0 E} {f : Nm} {p : Nm → Option Fn} (hp : X.prog = p) (hf : p f = none) (n : Nat) (args : List Val) :
    call X (n + 1) f args = X.call f args := by
  rw [call, hp, hf]

/-! Operations. -/

@[simp] theorem join_const (k : Kind) : Kind.join .const k = k := rfl
@[simp] theorem join_int (k : Kind) : Kind.join .int k = .int := rfl
@[simp] theorem join_u8 (k : Kind) : Kind.join .u8 k = .u8 := rfl
@[simp] theorem join_u64 (k : Kind) : Kind.join .u64 k = .u64 := rfl
@[simp] theorem join_rune (k : Kind) : Kind.join .rune k = .rune := rfl
@[simp] theorem wrap_const (i : Int) : Kind.wrap .const i = i := rfl

@[simp] theorem on_eq (a b : Val) : Op.on .eq a b = (a.eq b).map .bool := by cases a <;> cases b <;> rfl
@[simp] theorem on_ne (a b : Val) : Op.on .ne a b = (a.eq b).map fun x => .bool !x := by cases a <;> cases b <;> rfl
@[simp] theorem eq_nil (v : Val) : v.eq .nil = some v.isNil := by cases v <;> rfl
@[simp] theorem eq_int (k l : Kind) (i j : Int) : (Val.int k i).eq (.int l j) = some (i == j) := rfl
@[simp] theorem eq_str (s t : Bytes) : (Val.str s).eq (.str t) = some (s == t) := rfl
@[simp] theorem isNil_nil : Val.isNil .nil = true := rfl
@[simp] theorem isNil_ptr (a : Nat) (p : List Nm) : Val.isNil (.ptr a p) = false := rfl
@[simp] theorem isNil_ext (x : X) : Val.isNil (.ext x) = false := rfl
@[simp] theorem isNil_err (f : Bytes) (a : List Val) : Val.isNil (.err f a) = false := rfl
@[simp] theorem isNil_map (a : Nat) : Val.isNil (.map a) = false := rfl
@[simp] theorem on_add_str (s t : Bytes) : Op.on .add (.str s) (.str t) = some (.str (s ++ t)) := rfl

section
variable (k l : Kind) (i j : Int)
@[simp] theorem on_add : Op.on .add (.int k i) (.int l j) = some (.int (k.join l) ((k.join l).wrap (i + j))) := rfl
@[simp] theorem on_sub : Op.on .sub (.int k i) (.int l j) = some (.int (k.join l) ((k.join l).wrap (i - j))) := rfl
@[simp] theorem on_mul : Op.on .mul (.int k i) (.int l j) = some (.int (k.join l) ((k.join l).wrap (i * j))) := rfl
@[simp] theorem on_div : Op.on .div (.int k i) (.int l j) = if j = 0 then none else some (.int (k.join l) ((k.join l).wrap (i.tdiv j))) := rfl
@[simp] theorem on_mod : Op.on .mod (.int k i) (.int l j) = if j = 0 then none else some (.int (k.join l) ((k.join l).wrap (i.tmod j))) := rfl
@[simp] theorem on_lt : Op.on .lt (.int k i) (.int l j) = some (.bool (decide (i < j))) := rfl
@[simp] theorem on_le : Op.on .le (.int k i) (.int l j) = some (.bool (decide (i ≤ j))) := rfl
@[simp] theorem on_gt : Op.on .gt (.int k i) (.int l j) = some (.bool (decide (j < i))) := rfl
@[simp] theorem on_ge : Op.on .ge (.int k i) (.int l j) = some (.bool (decide (j ≤ i))) := rfl
end

@[simp] theorem truth_bool (b : Bool) (w : W E) : (truth (.bool b) : M E Bool) w = some (.ok b w) := rfl
@[simp] theorem conv_int (k k' : Kind) (i : Int) (w : W E) : (convVal k (.int k' i) : M E Val) w = some (.ok (.int k (k.wrap i)) w) := rfl
@[simp] theorem load_ptr (a : Nat) (w : W E) : (load (.ptr a []) : M E Val) w = some (.ok (w.heap a) w) := rfl
theorem load_ptr_path (a : Nat) (p : List Nm) (w : W E) : (load (.ptr a p) : M E Val) w =
    match (w.heap a).getPath p with
    | some v => some (.ok v w)
    | none => none := rfl
@[simp] theorem load_nil (w : W E) : (load .nil : M E Val) w = some (.panic w) := rfl
@[simp] theorem alloc_apply (v : Val) (w : W E) : (alloc v : M E Nat) w = some (.ok w.next { w with heap := upd w.heap w.next v, next := w.next + 1 }) := rfl
@[simp] theorem argsOf_tuple (vs : List Val) : argsOf (.tuple vs) = some vs := rfl
@[simp] theorem lenVal_str (s : Bytes) (w : W E) : (lenVal (.str s) : M E Val) w = some (.ok (natVal s.length) w) := rfl
@[simp] theorem toStr_str (s : Bytes) (w : W E) : (toStrVal (.str s) : M E Val) w = some (.ok (.str s) w) := rfl

@[simp] theorem params_nil : params [] [] = some Loc.empty := rfl
@[simp] theorem params_cons (x : Nm) (xs : List Nm) (v : Val) (vs : List Val) : params (x :: xs) (v :: vs) = (params xs vs).map fun l => l.set x v := rfl

@[simp] theorem get_struct (ty : Nm) (fs : List (Nm × Val)) (f : Nm) : (Val.struct ty fs).get f = fs.lookup f := rfl
@[simp] theorem put_struct (ty : Nm) (fs : List (Nm × Val)) (f : Nm) (v : Val) : (Val.struct ty fs).put f v = some (.struct ty (setField fs f v)) := rfl

@[simp] theorem index_str (s : Bytes) (k : Kind) (i : Int) : (indexVal (.str s) (.int k i) : M E Val) = nth (s.map byteVal) i := rfl
@[simp] theorem index_tbl (kvs : List (Int × Bytes)) (k : Kind) (i : Int) : (indexVal (.tbl kvs) (.int k i) : M E Val) = M.pure (.str ((kvs.lookup i).getD [])) := rfl
@[simp] theorem index_arr (vs : List Val) (k : Kind) (i : Int) : (indexVal (.arr vs) (.int k i) : M E Val) = nth vs i := rfl
theorem index_map (a : Nat) (k : Bytes) (w : W E) : (indexVal (.map a) (.str k) : M E Val) w =
    match w.heap a with
    | .entries m => match SMap.find k m with
      | some v => some (.ok v w)
      | none => some (.ok .nil w)
    | _ => none := rfl
@[simp] theorem indexOk_tbl (kvs : List (Int × Bytes)) (k : Kind) (i : Int) : (indexOkVal (.tbl kvs) (.int k i) : M E Val) =
    M.pure (.tuple [.str ((kvs.lookup i).getD []), .bool (kvs.lookup i).isSome]) := rfl
theorem indexOk_map (a : Nat) (k : Bytes) (w : W E) : (indexOkVal (.map a) (.str k) : M E Val) w =
    match w.heap a with
    | .entries m => match SMap.find k m with
      | some v => some (.ok (.tuple [v, .bool true]) w)
      | none => some (.ok (.tuple [.nil, .bool false]) w)
    | _ => none := rfl
@[simp] theorem indexOk_nil (k : Bytes) : (indexOkVal .nil (.str k) : M E Val) = M.pure (.tuple [.nil, .bool false]) := rfl
@[simp] theorem index_nil (k : Bytes) : (indexVal .nil (.str k) : M E Val) = M.pure .nil := rfl
@[simp] theorem elems_nil : (elems .nil : M E (List Val)) = M.pure [] := rfl
@[simp] theorem elems_arr (vs : List Val) : (elems (.arr vs) : M E (List Val)) = M.pure vs := rfl
theorem elems_slice {w : W E} {a : Nat} {vs : List Val} (h : w.heap a = .arr vs) (off len cap : Nat) :
    (elems (.slice a off len cap) : M E (List Val)) w = some (.ok ((vs.drop off).take len) w) := by
  show (match w.heap a with
    | .arr vs => some (Out.ok ((vs.drop off).take len) w)
    | _ => if len = 0 then some (Out.ok [] w) else none) = _
  rw [h]
theorem nth_some {vs : List Val} {i : Nat} {v : Val} (h : vs[i]? = some v) : (nth vs i : M E Val) = M.pure v := by
  simp [nth, h]

@[simp] theorem items_str (order : List Bytes → List Bytes) (s : Bytes) : (rangeItems order (.str s) : M E (List (Val × Val))) = M.pure (runes s 0 0) := rfl
@[simp] theorem items_slice (order : List Bytes → List Bytes) (a off len cap : Nat) : (rangeItems order (.slice a off len cap) : M E (List (Val × Val))) =
    M.bind (elems (.slice a off len cap)) fun vs => M.pure (items vs) := rfl
@[simp] theorem items_nil (order : List Bytes → List Bytes) : (rangeItems order .nil : M E (List (Val × Val))) = M.pure [] := rfl

section
variable (s : Bytes) (a off len cap : Nat) (k k' : Kind) (lo hi : Int) (w : W E)
@[simp] theorem sub_str_to : (subVal (.str s) .nil (.int k hi) : M E Val) w =
    if 0 ≤ hi ∧ hi ≤ s.length then some (.ok (.str (s.take hi.toNat)) w) else some (.panic w) := by
  show (if 0 ≤ (0 : Int) ∧ 0 ≤ hi ∧ hi ≤ s.length then (M.pure (.str ((s.take hi.toNat).drop (0 : Int).toNat)) : M E Val) else M.panic) w = _
  by_cases h : 0 ≤ hi ∧ hi ≤ s.length
  · rw [if_pos ⟨by omega, h⟩, if_pos h]; rfl
  · rw [if_neg (fun x => h x.2), if_neg h]; rfl
@[simp] theorem sub_str_from : (subVal (.str s) (.int k lo) .nil : M E Val) w =
    if 0 ≤ lo ∧ lo ≤ s.length then some (.ok (.str (s.drop lo.toNat)) w) else some (.panic w) := by
  show (if 0 ≤ lo ∧ lo ≤ (s.length : Int) ∧ (s.length : Int) ≤ s.length then (M.pure (.str ((s.take (s.length : Int).toNat).drop lo.toNat)) : M E Val) else M.panic) w = _
  by_cases h : 0 ≤ lo ∧ lo ≤ s.length
  · rw [if_pos ⟨h.1, h.2, by omega⟩, if_pos h]; simp
  · rw [if_neg (fun x => h ⟨x.1, x.2.1⟩), if_neg h]; rfl
@[simp] theorem sub_str : (subVal (.str s) (.int k lo) (.int k' hi) : M E Val) w =
    if 0 ≤ lo ∧ lo ≤ hi ∧ hi ≤ s.length then some (.ok (.str ((s.take hi.toNat).drop lo.toNat)) w) else some (.panic w) := by
  show (if 0 ≤ lo ∧ lo ≤ hi ∧ hi ≤ s.length then (M.pure (.str ((s.take hi.toNat).drop lo.toNat)) : M E Val) else M.panic) w = _
  by_cases h : 0 ≤ lo ∧ lo ≤ hi ∧ hi ≤ s.length
  · rw [if_pos h, if_pos h]; rfl
  · rw [if_neg h, if_neg h]; rfl
@[simp] theorem sub_slice_to : (subVal (.slice a off len cap) .nil (.int k hi) : M E Val) w =
    if 0 ≤ hi ∧ hi ≤ cap then some (.ok (.slice a off hi.toNat cap) w) else some (.panic w) := by
  show (if 0 ≤ (0 : Int) ∧ 0 ≤ hi ∧ hi ≤ cap then (M.pure (.slice a (off + (0 : Int).toNat) (hi.toNat - (0 : Int).toNat) (cap - (0 : Int).toNat)) : M E Val) else M.panic) w = _
  by_cases h : 0 ≤ hi ∧ hi ≤ cap
  · rw [if_pos ⟨by omega, h⟩, if_pos h]; rfl
  · rw [if_neg (fun x => h x.2), if_neg h]; rfl
@[simp] theorem sub_slice_from : (subVal (.slice a off len cap) (.int k lo) .nil : M E Val) w =
    if 0 ≤ lo ∧ lo ≤ len ∧ len ≤ cap then some (.ok (.slice a (off + lo.toNat) (len - lo.toNat) (cap - lo.toNat)) w) else some (.panic w) := by
  show (if 0 ≤ lo ∧ lo ≤ (len : Int) ∧ (len : Int) ≤ cap then (M.pure (.slice a (off + lo.toNat) ((len : Int).toNat - lo.toNat) (cap - lo.toNat)) : M E Val) else M.panic) w = _
  by_cases h : 0 ≤ lo ∧ lo ≤ len ∧ len ≤ cap
  · rw [if_pos ⟨h.1, h.2.1, by omega⟩, if_pos h]; rfl
  · rw [if_neg (fun x => h ⟨x.1, x.2.1, by omega⟩), if_neg h]; rfl
end

@[simp] theorem sub_nil_to (k : Kind) (hi : Int) (w : W E) : (subVal .nil .nil (.int k hi) : M E Val) w = if hi = 0 then some (.ok .nil w) else some (.panic w) := by
  show (if (0 : Int) = 0 ∧ hi = 0 then (M.pure .nil : M E Val) else M.panic) w = _
  by_cases h : hi = 0 <;> simp [h]
@[simp] theorem sub_nil_from (k : Kind) (lo : Int) (w : W E) : (subVal .nil (.int k lo) .nil : M E Val) w = if lo = 0 then some (.ok .nil w) else some (.panic w) := by
  show (if lo = 0 ∧ (0 : Int) = 0 then (M.pure .nil : M E Val) else M.panic) w = _
  by_cases h : lo = 0 <;> simp [h]

/-- `append` in place -/
theorem append_inplace {w : W E} {a : Nat} {arr : List Val} (h : w.heap a = .arr arr) (extra : Nat → Nat) (off len cap : Nat) (vs : List Val) (hc : len + vs.length ≤ cap) :
    (appendVals extra (.slice a off len cap) vs : M E Val) w =
      some (.ok (.slice a off (len + vs.length) cap) { w with heap := upd w.heap a (.arr (arr.take (off + len) ++ vs ++ arr.drop (off + len + vs.length))) }) := by
  simp only [appendVals, bind_apply, elems_slice h, if_pos hc, writeArr, h, pure_apply]

/-- `append` to nil -/
theorem append_nil_some (extra : Nat → Nat) (vs : List Val) (hv : vs.length ≠ 0) (w : W E) :
    (appendVals extra .nil vs : M E Val) w =
      some (.ok (.slice w.next 0 vs.length (vs.length + extra vs.length))
        { w with heap := upd w.heap w.next (.arr (vs ++ List.replicate (extra vs.length) (.int .const 0))), next := w.next + 1 }) := by
  simp only [appendVals, bind_apply, elems_nil, pure_apply, if_neg hv, alloc_apply]

@[simp] theorem append_nil_nil (extra : Nat → Nat) (w : W E) : (appendVals extra .nil [] : M E Val) w = some (.ok .nil w) := rfl

attribute [simp] bindOpt assignAll

end Verif.Mini
