import Verif.Rfc3164.Stamp
import Verif.Rfc5424.Grammar

/-!
# A recursive-descent description of what the RFC 3164 automaton computes

`descend o input` is proved equal to the automaton's outcome in `DescentRun.lean`.
-/

namespace Verif.Rfc3164
open Spec Spec.Bsd
open Verif.Rfc5424 (isGraph priScan)

/-- How a run ends: in an accepting state, or not (possibly without an error). -/
inductive Fin where
  | ok (out : Out)
  | stop (err : Option Err) (out : Out)
  deriving DecidableEq, Repr

def mkErr (k : ErrKind) (col : Nat) (out : Out) : Fin := .stop (some ⟨k, col⟩) out

def resultOf (o : Opts) : Fin → Result
  | .ok out => ⟨some out.export, none⟩
  | .stop e out => if o.bestEffort && out.minimal then ⟨some out.export, e⟩ else ⟨none, e⟩

def isCtl (b : UInt8) : Bool := decide (b.toNat ≤ 31) || decide (b.toNat = 127)
def isTag (b : UInt8) : Bool := isGraph b && decide (b.toNat ≠ 58) && decide (b.toNat ≠ 91)

/-- state 333: `rest` must have no control character -/
def dText (whole rest : Bytes) (out : Out) : Fin :=
  if rest.all (fun b => !isCtl b) then .ok { out with message := whole } else .stop none out

/-- states 23-26 (`clean = false`) and 369-372; `k` counts how much of `]: ` was just read, `acc` is the text since the mark -/
def dCont : (clean : Bool) → (k : Nat) → (acc : Bytes) → Bytes → Out → Fin
  | clean, _, acc, [], out => if clean then .ok { out with message := acc } else .stop none out
  | clean, k, acc, b :: r, out =>
    if b.toNat = 93 then dCont (clean || decide (k = 3)) 1 (if k = 3 then [b] else acc ++ [b]) r { out with content := acc }
    else if isCtl b then dCont false 0 (acc ++ [b]) r out
    else if k = 3 then dCont true 0 [b] r out
    else dCont clean (if k = 1 ∧ b.toNat = 58 then 2 else if k = 2 ∧ b.toNat = 32 then 3 else 0) (acc ++ [b]) r out

/-- after `tag[` -/
def dOpen (whole rest : Bytes) (out : Out) : Fin :=
  match rest with
  | [] => .ok { out with message := whole }
  | b :: r => dCont true 3 [] (b :: r) out

/-- after `tag:` -/
def dColon (whole rest : Bytes) (out : Out) : Fin :=
  match rest with
  | 32 :: b :: r => if isCtl b then .stop none out else dText (b :: r) r out
  | rest => dText whole rest out

/-- after the tag -/
def dTag (whole w t : Bytes) (out : Out) : Fin :=
  match t with
  | 58 :: t' => dColon whole t' { out with tag := w }
  | 91 :: t' => dOpen whole t' { out with tag := w }
  | t => dText whole t out

/-- state 22 -/
def dMsg (pos : Nat) (rest : Bytes) (out : Out) : Fin :=
  match rest with
  | [] => mkErr .tag pos out
  | b :: r =>
    if isCtl b then mkErr .tag pos out
    else if isTag b then dTag (b :: r) (spanN isTag 32 (b :: r)).1 (spanN isTag 32 (b :: r)).2 out
    else dText (b :: r) r out

/-- state 20 -/
def dHost (pos : Nat) (rest : Bytes) (out : Out) : Fin :=
  match spanN isGraph 255 rest with
  | (w, 32 :: t) => if w = [] then mkErr .hostname pos out else dMsg (pos + w.length + 1) t { out with hostname := w }
  | (w, _) => mkErr .hostname (pos + w.length) out

/-- after the timestamp text `w`: the space, `time.Parse`, HOSTNAME (states 19 and 324) -/
def dAfter (parse : Bytes → Option GoTime.Time) (pos : Nat) (w tl : Bytes) (out : Out) : Fin :=
  match tl with
  | 32 :: t =>
    match parse w with
    | none => mkErr .timeParse (pos + w.length) out
    | some tm => dHost (pos + w.length + 1) t { out with timestamp := tm, timestampSet := true }
  | _ => .stop none out

/-- the RFC 3339 alternative -/
def dIso (pos : Nat) (rest : Bytes) (out : Out) : Fin :=
  match Ts.scan false .y1 rest with
  | .bad n => if n < 19 then .stop none out else mkErr .rfc3339 (pos + n) out
  | .ok w tl => dAfter GoTime.parseRFC3339Micro pos w tl out

/-- the `Mmm dd hh:mm:ss` alternative -/
def dBsd (o : Opts) (pos : Nat) (rest : Bytes) (out : Out) : Fin :=
  match Bs.scan .m1 rest with
  | .bad n => mkErr .timestamp (pos + n) out
  | .ok w tl => dAfter (fun w => (parseStamp w).map (adjust o)) pos w tl out

def headDigit : Bytes → Bool
  | [] => false
  | b :: _ => decide (48 ≤ b.toNat) && decide (b.toNat ≤ 57)

/-- state 4 -/
def dTime (o : Opts) (pos : Nat) (rest : Bytes) (out : Out) : Fin :=
  if o.rfc3339 && headDigit rest then dIso pos rest out else dBsd o pos rest out

def setP (ds : Bytes) : Out := { priority := Common.toU8 (Common.unsafeDec ds), prioritySet := true }

/-- what is stored of the digits `ds` -/
def priOut (ds : Bytes) : Out := if ds = [] then {} else setP ds

def descend (o : Opts) (input : Bytes) : Fin :=
  match input with
  | 60 :: r =>
    match priScan .start r with
    | .bad n => mkErr .prival (1 + n) (priOut (if n = r.length then r.take (n - 1) else r.take n))
    | .ok w tl => dTime o (1 + w.length + 1) tl (setP w)
  | _ => mkErr .pri 0 {}

end Verif.Rfc3164
