import Verif.Gen.MiniNames
import Verif.Common
import Verif.Rfc5424.Machine
import Verif.Rfc3164.Machine

/-!
# A small part of Go: the hand-written functions

Besides the functions written by Ragel (`Verif/Go/Lang.lean`) the packages consist of ordinary functions: variables, pointers, structs,
strings, slices, maps, `if`, `for`, `range`, closures, calls. This file has a syntax for them and its meaning, the same for all functions;
the functions themselves are in `Verif/Gen/Mini.lean`, transcribed by `tools/gomini.py`.

Simplifications, for the code at hand: a variable whose address is taken is boxed (it lives in the heap), the others are values; nested
declarations have different names; embedded structs are flattened (their fields are promoted, the address of an embedded struct is that of
the outer one); a `[]byte` that no function writes to is a value like a string (aliasing: `Verif/Heap.lean`, `Verif/Octet/Memory.lean`),
the others are slices of arrays in the heap; `range` reads the elements before the first round; there is no `continue` and no labelled `break`.
-/

set_option linter.constructorNameAsVariable false

namespace Verif.Mini

/-- Integer types; `const` are untyped constants. `int` has 64 bits. -/
inductive Kind where
  | int | u8 | u16 | u64 | rune | const
  deriving DecidableEq, Repr

/-- the value modulo the size of the type -/
def Kind.wrap : Kind → Int → Int
  | .int, i => (i + 2 ^ 63) % 2 ^ 64 - 2 ^ 63
  | .u8, i => i % 2 ^ 8
  | .u16, i => i % 2 ^ 16
  | .u64, i => i % 2 ^ 64
  | .rune, i => (i + 2 ^ 31) % 2 ^ 32 - 2 ^ 31
  | .const, i => i

/-- Values of other packages that are only passed on. -/
inductive X where
  | time (t : GoTime.Time)
  | msg5 (m : Rfc5424.SyslogMessage)
  | err5 (e : Rfc5424.Err)
  | msg3 (m : Base)
  | err3 (e : Rfc3164.Err)
  | loc (l : GoTime.Location)
  | utc
  /-- an `io.Reader`, a `*bufio.Reader`, a random source, ... -/
  | obj (n : Nat)
  /-- the listener of the user -/
  | listener
  /-- an error of a reader -/
  | readErr (n : Nat)

/-- Values. -/
inductive Val where
  | nil
  | bool (b : Bool)
  | int (k : Kind) (i : Int)
  | str (s : Bytes)
  /-- pointer to the variable `a`, or to a field of it -/
  | ptr (a : Nat) (path : List Nm)
  /-- slice of the array in the variable `a` -/
  | slice (a off len cap : Nat)
  | struct (ty : Nm) (fs : List (Nm × Val))
  /-- an array -/
  | arr (vs : List Val)
  /-- a map, in the variable `a` -/
  | map (a : Nat)
  /-- the contents of a map with string keys -/
  | entries (m : List (Bytes × Val))
  /-- a package level map with integer keys and string values, which is never written to -/
  | tbl (kvs : List (Int × Bytes))
  /-- several values -/
  | tuple (vs : List Val)
  /-- a function literal and the captured variables -/
  | clo (f : Nm) (caps : List Val)
  /-- `fmt.Errorf(format, args...)` -/
  | err (format : Bytes) (args : List Val)
  | ext (x : X)

inductive Op where
  | add | sub | mul | div | mod | eq | ne | lt | le | gt | ge | band | shr
  deriving DecidableEq, Repr

/-- Expressions. -/
inductive Expr where
  | lit (v : Val)
  | var (x : Nm)
  /-- a package level variable -/
  | glob (x : Nm)
  /-- `e.f`, for a struct or a pointer to one -/
  | field (e : Expr) (f : Nm)
  /-- `*e` -/
  | deref (e : Expr)
  /-- `&e.f` -/
  | addr (e : Expr) (f : Nm)
  /-- `&T{...}`; a boxed variable -/
  | new (e : Expr)
  /-- `T{f1: e1, ...}`: the zero value with some fields replaced -/
  | mk (zero : Val) (fs : List Nm) (args : Expr)
  /-- `e[i]` -/
  | index (e i : Expr)
  /-- `v, ok := e[i]` -/
  | indexOk (e i : Expr)
  /-- `e[lo:hi]`; an omitted bound is `nil` -/
  | sub (e lo hi : Expr)
  | len (e : Expr)
  | bin (o : Op) (a b : Expr)
  | and (a b : Expr)
  | or (a b : Expr)
  | not (a : Expr)
  /-- `int(e)`, ... -/
  | conv (k : Kind) (e : Expr)
  /-- `string(e)` -/
  | toStr (e : Expr)
  /-- `[]byte(e)` -/
  | toBytes (e : Expr)
  /-- `[]byte{...}` -/
  | byteLit (args : Expr)
  /-- `[]T{...}`, the variadic arguments -/
  | sliceLit (args : Expr)
  /-- `make([]byte, n)` -/
  | makeBytes (n : Expr)
  /-- `append(a, b)` -/
  | append (a b : Expr)
  /-- `append(a, b...)` -/
  | appendAll (a b : Expr)
  /-- argument lists, several results -/
  | unit
  | cons (a b : Expr)
  /-- a function or a method of a known type; the receiver is the first argument -/
  | call (f : Nm) (args : Expr)
  /-- a method called through an interface -/
  | dyn (e : Expr) (f : Nm) (args : Expr)
  /-- a function value -/
  | callVal (e : Expr) (args : Expr)
  /-- a function literal -/
  | clo (f : Nm) (caps : Expr)

/-- Statements. -/
inductive Stmt where
  | skip
  | seq (a b : Stmt)
  | assign (x : Nm) (e : Expr)
  /-- `*p = e` -/
  | store (p e : Expr)
  | setGlob (x : Nm) (e : Expr)
  /-- `a[i] = e` -/
  | setIdx (a i e : Expr)
  /-- `x, y = e` -/
  | multi (xs : List (Option Nm)) (e : Expr)
  | expr (e : Expr)
  | ifs (c : Expr) (a b : Stmt)
  /-- `for ; c; post { body }` -/
  | forc (c : Expr) (post body : Stmt)
  /-- `for i, v := range e { body }` -/
  | range (i v : Option Nm) (e : Expr) (body : Stmt)
  | brk
  | ret (e : Expr)
  /-- `defer e`, and the statements after it -/
  | deferd (e : Expr) (rest : Stmt)

/-- A function: the parameters (the receiver first), the body. -/
structure Fn where
  params : List Nm
  body : Stmt

/-- What a function can access besides its local variables: variables in the heap, package level variables, and what belongs to other
packages (`E`). -/
structure W (E : Type) where
  heap : Nat → Val
  next : Nat
  glob : Nm → Val
  ext : E

variable {E : Type}

/-- The outcome of a computation that ends. -/
inductive Out (E α : Type) where
  | ok (a : α) (w : W E)
  | panic (w : W E)

/-- Computations; `none`: it does not end, or does something that the compiler does not allow or that is not modelled. -/
def M (E α : Type) : Type := W E → Option (Out E α)

variable {α β : Type}

def M.pure (a : α) : M E α := fun w => some (.ok a w)
def M.bind (x : M E α) (f : α → M E β) : M E β := fun w =>
  match x w with
  | none => none
  | some (.panic w') => some (.panic w')
  | some (.ok a w') => f a w'
/-- not modelled -/
def M.stuck : M E α := fun _ => none
/-- a run time panic -/
def M.panic : M E α := fun w => some (.panic w)
def M.of : Option α → M E α
  | none => M.stuck
  | some a => M.pure a

/-! ## Values -/

def Val.isNil : Val → Bool
  | .nil => true
  | _ => false

/-- the field of a struct -/
def Val.get (v : Val) (f : Nm) : Option Val :=
  match v with
  | .struct _ fs => fs.lookup f
  | _ => none

/-- the value as it is stored in place of `old`: an untyped constant gets the type -/
def Val.coerce (old new : Val) : Val :=
  match old, new with
  | .int k _, .int .const i => .int k (k.wrap i)
  | _, v => v

def setField (fs : List (Nm × Val)) (f : Nm) (v : Val) : List (Nm × Val) :=
  fs.map fun e => if e.1 = f then (e.1, e.2.coerce v) else e

/-- the struct with the field replaced -/
def Val.put (s : Val) (f : Nm) (v : Val) : Option Val :=
  match s with
  | .struct ty fs => some (.struct ty (setField fs f v))
  | _ => none

/-- follow fields -/
def Val.getPath : Val → List Nm → Option Val
  | v, [] => some v
  | v, f :: p => match v.get f with
    | none => none
    | some u => u.getPath p

def Val.putPath : Val → List Nm → Val → Option Val
  | old, [], v => some (old.coerce v)
  | s, f :: p, v => match s.get f with
    | none => none
    | some u => match u.putPath p v with
      | none => none
      | some u' => s.put f u'

/-- the kind of the result of an operation -/
def Kind.join : Kind → Kind → Kind
  | .const, k => k
  | k, _ => k

def Val.eq : Val → Val → Option Bool
  | .nil, v => some v.isNil
  | v, .nil => some v.isNil
  | .int _ a, .int _ b => some (a == b)
  | .str a, .str b => some (a == b)
  | .bool a, .bool b => some (a == b)
  | _, _ => none

/-- `a o b` -/
def Op.on (o : Op) (a b : Val) : Option Val :=
  match o with
  | .eq => (a.eq b).map .bool
  | .ne => (a.eq b).map fun x => .bool !x
  | _ =>
    match a, b with
    | .str s, .str t => if o = .add then some (.str (s ++ t)) else none
    | .int k i, .int l j =>
      let n := fun x => some (.int (k.join l) ((k.join l).wrap x))
      match o with
      | .add => n (i + j)
      | .sub => n (i - j)
      | .mul => n (i * j)
      | .div => if j = 0 then none else n (i.tdiv j)
      | .mod => if j = 0 then none else n (i.tmod j)
      | .lt => some (.bool (decide (i < j)))
      | .le => some (.bool (decide (i ≤ j)))
      | .gt => some (.bool (decide (j < i)))
      | .ge => some (.bool (decide (j ≤ i)))
      -- on numbers that are not negative
      | .band => if i < 0 ∨ j < 0 then none else n (i.toNat &&& j.toNat : Nat)
      | .shr => if i < 0 ∨ j < 0 then none else n (i / 2 ^ j.toNat)
      | _ => none
    | _, _ => none

def byteVal (b : UInt8) : Val := .int .u8 b.toNat

def boolVal (b : Bool) : Val := .bool b

def natVal (n : Nat) : Val := .int .int n

/-- a byte of a `[]byte` literal -/
def Val.byte? : Val → Option UInt8
  | .int _ i => some (UInt8.ofInt i)
  | _ => none

/-- the code point of the first character of a string, as `range` sees it; exact below 128, U+FFFD otherwise stands for any character that
is not ASCII (no function here looks closer). -/
def runeOf : UInt8 → Int := fun b => if b.toNat < 128 then b.toNat else 0xFFFD

/-- index and character of the rounds of `for i, c := range s`; `skip` bytes belong to the current character -/
def runes : Bytes → Nat → Nat → List (Val × Val)
  | [], _, _ => []
  | _ :: cs, i, skip + 1 => runes cs (i + 1) skip
  | c :: cs, i, 0 => (natVal i, .int .rune (runeOf c)) :: runes cs (i + 1) (Common.runeWidth (c :: cs) - 1)

/-- the elements of a slice -/
def items (vs : List Val) : List (Val × Val) := (List.range vs.length).map (fun i => natVal i) |>.zip vs

/-! ## The heap -/

def upd (h : Nat → Val) (a : Nat) (v : Val) : Nat → Val := fun b => if b = a then v else h b

/-- a new variable -/
def alloc (v : Val) : M E Nat := fun w => some (.ok w.next { w with heap := upd w.heap w.next v, next := w.next + 1 })

/-- `*p`; a nil pointer is a panic -/
def load : Val → M E Val
  | .ptr a path => fun w => match (w.heap a).getPath path with
    | some v => some (.ok v w)
    | none => none
  | .nil => M.panic
  | _ => M.stuck

/-- `*p = v` -/
def storeAt (p v : Val) : M E Unit :=
  match p with
  | .ptr a path => fun w => match (w.heap a).putPath path v with
    | some x => some (.ok () { w with heap := upd w.heap a x })
    | none => none
  | .nil => M.panic
  | _ => M.stuck

/-- the elements of a slice or array -/
def elems : Val → M E (List Val)
  | .nil => M.pure []
  | .arr vs => M.pure vs
  | .slice a off len _ => fun w => match w.heap a with
    | .arr vs => some (.ok ((vs.drop off).take len) w)
    | _ => if len = 0 then some (.ok [] w) else none
  | _ => M.stuck

/-- `e[i]` for a list of elements -/
def nth (vs : List Val) (i : Int) : M E Val :=
  if 0 ≤ i then match vs[i.toNat]? with
    | some v => M.pure v
    | none => M.panic
  else M.panic

/-- `v[i]` -/
def indexVal (v i : Val) : M E Val :=
  match v, i with
  | .str s, .int _ i => nth (s.map byteVal) i
  | .tbl kvs, .int _ i => M.pure (.str ((kvs.lookup i).getD []))
  | .map a, .str k => fun w => match w.heap a with
    | .entries m => match SMap.find k m with
      | some v => some (.ok v w)
      | none => some (.ok .nil w)
    | _ => none
  | .nil, .str _ => M.pure .nil
  | v, .int _ i => M.bind (elems v) fun vs => nth vs i
  | _, _ => M.stuck

/-- `x, ok := v[i]` -/
def indexOkVal (v i : Val) : M E Val :=
  match v, i with
  | .tbl kvs, .int _ i => M.pure (.tuple [.str ((kvs.lookup i).getD []), .bool (kvs.lookup i).isSome])
  | .map a, .str k => fun w => match w.heap a with
    | .entries m => match SMap.find k m with
      | some v => some (.ok (.tuple [v, .bool true]) w)
      | none => some (.ok (.tuple [.nil, .bool false]) w)
    | _ => none
  | .nil, .str _ => M.pure (.tuple [.nil, .bool false])
  | _, _ => M.stuck

/-- a bound of a slice expression; `nil` is an omitted one -/
def bound (d : Int) : Val → Option Int
  | .nil => some d
  | .int _ i => some i
  | _ => none

/-- `v[lo:hi]`; for strings (and byte slices that are values) the bound is the length -/
def subVal (v lo hi : Val) : M E Val :=
  match v with
  | .str s => match bound 0 lo, bound s.length hi with
    | some l, some h => if 0 ≤ l ∧ l ≤ h ∧ h ≤ s.length then M.pure (.str ((s.take h.toNat).drop l.toNat)) else M.panic
    | _, _ => M.stuck
  | .slice a off len cap => match bound 0 lo, bound len hi with
    | some l, some h => if 0 ≤ l ∧ l ≤ h ∧ h ≤ cap then M.pure (.slice a (off + l.toNat) (h.toNat - l.toNat) (cap - l.toNat)) else M.panic
    | _, _ => M.stuck
  | .nil => match bound 0 lo, bound 0 hi with
    | some l, some h => if l = 0 ∧ h = 0 then M.pure .nil else M.panic
    | _, _ => M.stuck
  | _ => M.stuck

def lenVal (v : Val) : M E Val :=
  match v with
  | .str s => M.pure (natVal s.length)
  | .slice _ _ len _ => M.pure (natVal len)
  | .arr vs => M.pure (natVal vs.length)
  | .nil => M.pure (natVal 0)
  | _ => M.stuck

/-- write elements into the array of the variable `a`, from index `i` on -/
def writeArr (a i : Nat) (vs : List Val) : M E Unit := fun w =>
  match w.heap a with
  | .arr old => some (.ok () { w with heap := upd w.heap a (.arr (old.take i ++ vs ++ old.drop (i + vs.length))) })
  | _ => if vs.isEmpty then some (.ok () w) else none

/-- what is not fixed by the language: the size of the arrays that `append` allocates (more than needed), the order of `range` over a map;
and the functions of other packages. -/
structure Env0 (E : Type) where
  extra : Nat → Nat
  order : List Bytes → List Bytes
  call : Nm → List Val → M E Val
  /-- methods called through an interface -/
  meth : Nm → Nm → Option Nm
  /-- the functions -/
  prog : Nm → Option Fn

/-- `append(s, vs...)`: in place if the capacity suffices, else in a new array -/
def appendVals (extra : Nat → Nat) (s : Val) (vs : List Val) : M E Val :=
  M.bind (elems s) fun old =>
  match s with
  | .slice a off len cap =>
    if len + vs.length ≤ cap then M.bind (writeArr a (off + len) vs) fun _ => M.pure (.slice a off (len + vs.length) cap)
    else M.bind (alloc (.arr (old ++ vs ++ List.replicate (extra (len + vs.length)) (.int .const 0)))) fun b =>
      M.pure (.slice b 0 (len + vs.length) (len + vs.length + extra (len + vs.length)))
  | .nil =>
    if vs.length = 0 then M.pure .nil
    else M.bind (alloc (.arr (vs ++ List.replicate (extra vs.length) (.int .const 0)))) fun b =>
      M.pure (.slice b 0 vs.length (vs.length + extra vs.length))
  | _ => M.stuck

/-- `string(v)`: of an integer, the UTF-8 encoding (below 256 only) -/
def toStrVal : Val → M E Val
  | .str s => M.pure (.str s)
  | .nil => M.pure (.str [])
  | .int _ i => if 0 ≤ i ∧ i < 256 then M.pure (.str (Common.stringOfByte (UInt8.ofInt i))) else M.stuck
  | _ => M.stuck

def convVal (k : Kind) : Val → M E Val
  | .int _ i => M.pure (.int k (k.wrap i))
  | _ => M.stuck

def truth : Val → M E Bool
  | .bool b => M.pure b
  | _ => M.stuck

/-- the arguments of a call -/
def argsOf : Val → Option (List Val)
  | .tuple vs => some vs
  | _ => none

/-- fields replaced by values, in order -/
def putAll : Val → List Nm → List Val → Option Val
  | s, [], [] => some s
  | s, f :: fs, v :: vs => match s.put f v with
    | none => none
    | some s' => putAll s' fs vs
  | _, _, _ => none

/-- the local variables -/
abbrev Loc := Nm → Val

def Loc.set (l : Loc) (x : Nm) (v : Val) : Loc := fun y => if y = x then v else l y

/-- the type of a struct or of what a pointer points to -/
def typeOf (v : Val) : M E Nm :=
  match v with
  | .struct ty _ => M.pure ty
  | .ptr _ _ => M.bind (load v) fun u => match u with
    | .struct ty _ => M.pure ty
    | _ => M.stuck
  | .nil => M.panic
  | _ => M.stuck

/-- `calls` is the meaning of calls -/
def eval (X : Env0 E) (calls : Nm → List Val → M E Val) (l : Loc) : Expr → M E Val
  | .lit v => M.pure v
  | .var x => M.pure (l x)
  | .glob x => fun w => some (.ok (w.glob x) w)
  | .field e f => M.bind (eval X calls l e) fun v =>
    match v with
    | .struct _ _ => M.of (v.get f)
    | _ => M.bind (load v) fun u => M.of (u.get f)
  | .deref e => M.bind (eval X calls l e) load
  | .addr e f => M.bind (eval X calls l e) fun v =>
    match v with
    | .ptr a path => M.pure (.ptr a (path ++ [f]))
    | .nil => M.panic
    | _ => M.stuck
  | .new e => M.bind (eval X calls l e) fun v => M.bind (alloc v) fun a => M.pure (.ptr a [])
  | .mk zero fs args => M.bind (eval X calls l args) fun v => M.bind (M.of (argsOf v)) fun vs => M.of (putAll zero fs vs)
  | .index e i => M.bind (eval X calls l e) fun v => M.bind (eval X calls l i) fun j => indexVal v j
  | .indexOk e i => M.bind (eval X calls l e) fun v => M.bind (eval X calls l i) fun j => indexOkVal v j
  | .sub e lo hi => M.bind (eval X calls l e) fun v => M.bind (eval X calls l lo) fun a => M.bind (eval X calls l hi) fun b => subVal v a b
  | .len e => M.bind (eval X calls l e) lenVal
  | .bin o a b => M.bind (eval X calls l a) fun v => M.bind (eval X calls l b) fun u => M.of (o.on v u)
  | .and a b => M.bind (eval X calls l a) fun v => M.bind (truth v) fun t => if t then eval X calls l b else M.pure (.bool false)
  | .or a b => M.bind (eval X calls l a) fun v => M.bind (truth v) fun t => if t then M.pure (.bool true) else eval X calls l b
  | .not a => M.bind (eval X calls l a) fun v => M.bind (truth v) fun t => M.pure (.bool !t)
  | .conv k e => M.bind (eval X calls l e) (convVal k)
  | .toStr e => M.bind (eval X calls l e) toStrVal
  | .toBytes e => M.bind (eval X calls l e) toStrVal
  | .byteLit args => M.bind (eval X calls l args) fun v => M.bind (M.of (argsOf v)) fun vs => M.bind (M.of (vs.mapM Val.byte?)) fun bs => M.pure (.str bs)
  | .sliceLit args => M.bind (eval X calls l args) fun v => M.bind (M.of (argsOf v)) fun vs =>
    if vs.isEmpty then M.pure .nil else M.bind (alloc (.arr vs)) fun a => M.pure (.slice a 0 vs.length vs.length)
  | .makeBytes n => M.bind (eval X calls l n) fun v =>
    match v with
    | .int _ i => if i < 0 then M.panic else M.bind (alloc (.arr (List.replicate i.toNat (byteVal 0)))) fun a => M.pure (.slice a 0 i.toNat i.toNat)
    | _ => M.stuck
  | .append a b => M.bind (eval X calls l a) fun s => M.bind (eval X calls l b) fun v => appendVals X.extra s [v]
  | .appendAll a b => M.bind (eval X calls l a) fun s => M.bind (eval X calls l b) fun v => M.bind (elems v) fun vs => appendVals X.extra s vs
  | .unit => M.pure (.tuple [])
  | .cons a b => M.bind (eval X calls l a) fun v => M.bind (eval X calls l b) fun r => M.bind (M.of (argsOf r)) fun vs => M.pure (.tuple (v :: vs))
  | .call f args => M.bind (eval X calls l args) fun v => M.bind (M.of (argsOf v)) fun vs => calls f vs
  | .dyn e f args => M.bind (eval X calls l e) fun r => M.bind (eval X calls l args) fun v => M.bind (M.of (argsOf v)) fun vs =>
    M.bind (typeOf r) fun ty => M.bind (M.of (X.meth ty f)) fun g => calls g (r :: vs)
  | .callVal e args => M.bind (eval X calls l e) fun c => M.bind (eval X calls l args) fun v => M.bind (M.of (argsOf v)) fun vs =>
    match c with
    | .clo f caps => calls f (caps ++ vs)
    | .ext .listener => calls .emit vs
    | .nil => M.panic
    | _ => M.stuck
  | .clo f caps => M.bind (eval X calls l caps) fun v => M.bind (M.of (argsOf v)) fun vs => M.pure (.clo f vs)

/-- how a statement ends -/
inductive Ctl where
  | next
  | brk
  | ret (v : Val)

/-- rounds of a loop as long as `step` says so -/
def forLoop (step : Loc → M E (Ctl × Loc × Bool)) (l : Loc) (w : W E) : Option (Out E (Ctl × Loc)) :=
  match step l w with
  | none => none
  | some (.panic w') => some (.panic w')
  | some (.ok (c, l', false) w') => some (.ok (c, l') w')
  | some (.ok (_, l', true) w') => forLoop step l' w'
  partial_fixpoint

def bindOpt (l : Loc) (x : Option Nm) (v : Val) : Loc :=
  match x with
  | none => l
  | some x => l.set x v

/-- rounds for all items -/
def rangeLoop (i v : Option Nm) (body : Loc → M E (Ctl × Loc)) : List (Val × Val) → Loc → M E (Ctl × Loc)
  | [], l => M.pure (.next, l)
  | e :: es, l => M.bind (body (bindOpt (bindOpt l i e.1) v e.2)) fun r =>
    match r.1 with
    | .next => rangeLoop i v body es r.2
    | .brk => M.pure (.next, r.2)
    | .ret x => M.pure (.ret x, r.2)

/-- what a `range` clause runs over -/
def rangeItems (order : List Bytes → List Bytes) (v : Val) : M E (List (Val × Val)) :=
  match v with
  | .str s => M.pure (runes s 0 0)
  | .map a => fun w => match w.heap a with
    | .entries m => some (.ok ((order (m.map Prod.fst)).map fun k => (.str k, .nil)) w)
    | _ => none
  | v => M.bind (elems v) fun vs => M.pure (items vs)

def assignAll : Loc → List (Option Nm) → List Val → Option Loc
  | l, [], [] => some l
  | l, x :: xs, v :: vs => assignAll (bindOpt l x v) xs vs
  | _, _, _ => none

def exec (X : Env0 E) (calls : Nm → List Val → M E Val) : Stmt → Loc → M E (Ctl × Loc)
  | .skip, l => M.pure (.next, l)
  | .seq a b, l => M.bind (exec X calls a l) fun r =>
    match r.1 with
    | .next => exec X calls b r.2
    | c => M.pure (c, r.2)
  | .assign x e, l => M.bind (eval X calls l e) fun v => M.pure (.next, l.set x v)
  | .store p e, l => M.bind (eval X calls l p) fun q => M.bind (eval X calls l e) fun v => M.bind (storeAt q v) fun _ => M.pure (.next, l)
  | .setGlob x e, l => M.bind (eval X calls l e) fun v => fun w =>
    some (.ok (.next, l) { w with glob := fun y => if y = x then (w.glob y).coerce v else w.glob y })
  | .setIdx a i e, l => M.bind (eval X calls l a) fun s => M.bind (eval X calls l i) fun j => M.bind (eval X calls l e) fun v =>
    match s, j with
    | .slice b off len _, .int _ j => if 0 ≤ j ∧ j < len then M.bind (writeArr b (off + j.toNat) [v]) fun _ => M.pure (.next, l) else M.panic
    | _, _ => M.stuck
  | .multi xs e, l => M.bind (eval X calls l e) fun v => M.bind (M.of (argsOf v)) fun vs => M.bind (M.of (assignAll l xs vs)) fun l' => M.pure (.next, l')
  | .expr e, l => M.bind (eval X calls l e) fun _ => M.pure (.next, l)
  | .ifs c a b, l => M.bind (eval X calls l c) fun v => M.bind (truth v) fun t => if t then exec X calls a l else exec X calls b l
  | .forc c post body, l => forLoop (fun l => M.bind (eval X calls l c) fun v => M.bind (truth v) fun t =>
      if t then M.bind (exec X calls body l) fun r =>
        match r.1 with
        | .brk => M.pure (.next, r.2, false)
        | .ret x => M.pure (.ret x, r.2, false)
        | .next => M.bind (exec X calls post r.2) fun r => M.pure (.next, r.2, true)
      else M.pure (.next, l, false)) l
  | .range i v e body, l => M.bind (eval X calls l e) fun s => M.bind (rangeItems X.order s) fun es => rangeLoop i v (fun l => exec X calls body l) es l
  | .brk, l => M.pure (.brk, l)
  | .ret e, l => M.bind (eval X calls l e) fun v => M.pure (.ret v, l)
  | .deferd e rest, l => fun w =>
    match exec X calls rest l w with
    | none => none
    | some (.ok r w1) => M.bind (eval X calls l e) (fun _ => M.pure r) w1
    | some (.panic w1) => M.bind (eval X calls l e) (fun _ => M.panic) w1

/-- no local variables yet -/
def Loc.empty : Loc := fun _ => .nil

/-- the parameters -/
def params : List Nm → List Val → Option Loc
  | [], [] => some Loc.empty
  | x :: xs, v :: vs => (params xs vs).map fun l => l.set x v
  | _, _ => none

/-- A call of the function `f`. The first argument bounds the depth of nested calls; no function calls itself, so a small number is enough. -/
def call (X : Env0 E) : Nat → Nm → List Val → M E Val
  | 0, _, _ => M.stuck
  | n + 1, f, args =>
    match X.prog f with
    | none => X.call f args
    | some fn => M.bind (M.of (params fn.params args)) fun l => M.bind (exec X (call X n) fn.body l) fun r =>
      match r.1 with
      | .ret v => M.pure v
      | .next => M.pure (.tuple [])
      | .brk => M.stuck

end Verif.Mini
