import Verif.Rfc5424.Machine
import Verif.FsmLemmas
import Verif.Utf8
import Verif.Timestamp

/-!
# A recursive-descent reading of the RFC 5424 automaton (proof device)

`descend` is a structured parser on byte lists, field by field, with the same errors and columns as the automaton.
`Verif.Rfc5424.DescentEq` proves that the automaton computes exactly this function; nothing below is trusted.
-/

namespace Verif.Rfc5424

/-- Observable end of a run: success with the collected fields, or an error with the collected fields if
they are minimally valid. -/
inductive Fin where
  | ok (out : Out)
  | err (e : Err) (part : Option Out)
  deriving DecidableEq, Repr

def partOf (out : Out) : Option Out := if out.minimal then some out else none

def mkErr (kind : ErrKind) (col : Nat) (out : Out) : Fin := .err ⟨kind, col⟩ (partOf out)

/-- printable US-ASCII, no space (`%d33-126`) -/
def isGraph (b : UInt8) : Bool := decide (33 ≤ b.toNat) && decide (b.toNat ≤ 126)

/-- characters of SD-NAME: printable except `"`, `=`, `]` -/
def isSdName (b : UInt8) : Bool := isGraph b && decide (b.toNat ≠ 34) && decide (b.toNat ≠ 61) && decide (b.toNat ≠ 93)

/-! ## MSG -/

def dMsg (compliant : Bool) (pos : Nat) (rest : Bytes) (out : Out) : Fin :=
  if rest = [] then .ok out
  else if compliant then
    match rest with
    | 0xEF :: 0xBB :: 0xBF :: l =>
      match U8.firstBad .s0 l with
      | none => .ok { out with message := rest }
      | some n => mkErr .msgNotCompliant (pos + (3 + n)) { out with message := rest.take (3 + n) }
    | _ => .ok { out with message := rest }
  else .ok { out with message := rest }

/-! ## STRUCTURED-DATA -/

inductive VRes where
  | ok (raw rest : Bytes)
  | bad (k : ErrKind) (n : Nat)
  deriving DecidableEq, Repr

def VRes.cons (b : UInt8) : VRes → VRes
  | .ok w r => .ok (b :: w) r
  | .bad k n => .bad k (n + 1)

/-- PARAM-VALUE up to and including the closing quote; `none` is the state after a backslash. -/
def valScan : Option U8 → Bytes → VRes
  | some .s0, [] => .bad .escape 0
  | some _, [] => .bad .sdParam 0
  | none, [] => .bad .escape 0
  | some .s0, b :: l =>
    if b.toNat = 34 then .ok [] l
    else if b.toNat = 92 then (valScan none l).cons b
    else if b.toNat = 93 then .bad .escape 0
    else match U8.step .s0 b with
      | none => .bad .escape 0
      | some s => (valScan (some s) l).cons b
  | some s, b :: l =>
    match U8.step s b with
    | none => .bad .sdParam 0
    | some s => (valScan (some s) l).cons b
  | none, b :: l =>
    if b.toNat = 34 ∨ b.toNat = 92 ∨ b.toNat = 93 then (valScan (some .s0) l).cons b else .bad .escape 0

/-- remove each backslash and keep the byte after it -/
def unesc : Bool → Bytes → Bytes
  | _, [] => []
  | true, b :: l => b :: unesc false l
  | false, b :: l => if b.toNat = 92 then unesc true l else b :: unesc false l

/-- positions of the escaping backslashes -/
def slashes : Bool → Nat → Bytes → List Nat
  | _, _, [] => []
  | true, pos, _ :: l => slashes false (pos + 1) l
  | false, pos, b :: l => if b.toNat = 92 then pos :: slashes true (pos + 1) l else slashes false (pos + 1) l

inductive SdRes where
  | bad (kind : ErrKind) (col : Nat) (sd : SD)
  | ok (sd : SD) (pos : Nat) (rest : Bytes)
  deriving DecidableEq, Repr

/-- The parameters of element `id` after the space; `ps` are its parameters so far, `last` the last name. -/
def dParams : Nat → Bytes → SMap Bytes → Bytes → SD → Nat → Bytes → SdRes
  | 0, _, _, _, sd, pos, _ => .bad .sdParam pos sd
  | fuel + 1, id, ps, last, sd, pos, rest =>
    let name := (spanN isSdName 32 rest).1
    match (spanN isSdName 32 rest).2 with
    | 61 :: r =>
      if name = [] then .bad .sdParam pos (sd.insert id (ps.erase last))
      else
        match r with
        | 34 :: r2 =>
          match valScan (some .s0) r2 with
          | .bad k n =>
            .bad k (pos + name.length + 2 + n) (if k = .escape then sd else sd.insert id (ps.erase name))
          | .ok raw tl =>
            let ps' := ps.insert name (unesc false raw)
            let pos' := pos + name.length + 2 + raw.length + 1
            match tl with
            | 32 :: t => dParams fuel id ps' name (sd.insert id ps') (pos' + 1) t
            | 93 :: t => .ok (sd.insert id ps') (pos' + 1) t
            | _ => .bad .sdParam pos' (sd.insert id (ps'.erase name))
        | _ => .bad .sdParam (pos + name.length + 1) (sd.insert id (ps.erase name))
    | _ => .bad .sdParam (pos + name.length) (sd.insert id (ps.erase last))

/-- One or more SD-ELEMENTs, after the opening bracket; `prev` is the id of the previous element. -/
def dElems : Nat → Bytes → SD → Nat → Bytes → SdRes
  | 0, _, sd, pos, _ => .bad .sdId pos sd
  | fuel + 1, prev, sd, pos, rest =>
    let id := (spanN isSdName 32 rest).1
    let pos1 := pos + id.length
    if id = [] then .bad .sdId pos (sd.erase prev)
    else
      match sd.find id with
      | some _ => .bad .sdIdDup pos1 sd
      | none =>
        match (spanN isSdName 32 rest).2 with
        | 32 :: t =>
          match dParams (t.length + 1) id [] [] (sd.insert id []) (pos1 + 1) t with
          | .bad k c sd' => .bad k c sd'
          | .ok sd' p tl =>
            match tl with
            | 91 :: t' => dElems fuel id sd' (p + 1) t'
            | _ => .ok sd' p tl
        | 93 :: tl =>
            match tl with
            | 91 :: t' => dElems fuel id (sd.insert id []) (pos1 + 1 + 1) t'
            | _ => .ok (sd.insert id []) (pos1 + 1) tl
        | _ => .bad .sdId pos1 sd

/-- output with structured data -/
def withSD (base : Out) (sd : SD) : Out := { base with structuredData := some sd, hasElements := !sd.isEmpty }

def dSD (compliant : Bool) (pos : Nat) (rest : Bytes) (out : Out) : Fin :=
  match rest with
  | 45 :: r =>
    match r with
    | [] => .ok out
    | 32 :: t => dMsg compliant (pos + 2) t out
    | _ => mkErr .parse (pos + 1) out
  | 91 :: r =>
    match dElems (r.length + 1) [] [] (pos + 1) r with
    | .bad k c sd => mkErr k c (withSD out sd)
    | .ok sd p tl =>
      match tl with
      | [] => .ok (withSD out sd)
      | 32 :: t => dMsg compliant (p + 1) t (withSD out sd)
      | _ => mkErr .structuredData p (withSD out sd)
  | _ => mkErr .structuredData pos out

/-! ## header -/

/-- a name field and the following space; continue with `k` -/
def dField (max : Nat) (kind : ErrKind) (k : Bytes → Nat → Bytes → Fin) (pos : Nat) (rest : Bytes) (out : Out) : Fin :=
  let w := (spanN isGraph max rest).1
  match (spanN isGraph max rest).2 with
  | 32 :: t => if w = [] then mkErr kind pos out else k w (pos + w.length + 1) t
  | _ => mkErr kind (pos + w.length) out

def dMsgid (compliant : Bool) (pos : Nat) (rest : Bytes) (out : Out) : Fin :=
  dField 32 .msgid (fun w p t => dSD compliant p t { out with msgID := w }) pos rest out

def dProcid (compliant : Bool) (pos : Nat) (rest : Bytes) (out : Out) : Fin :=
  dField 128 .procid (fun w p t => dMsgid compliant p t { out with procID := w }) pos rest out

def dAppname (compliant : Bool) (pos : Nat) (rest : Bytes) (out : Out) : Fin :=
  dField 48 .appname (fun w p t => dProcid compliant p t { out with appname := w }) pos rest out

def dHostname (compliant : Bool) (pos : Nat) (rest : Bytes) (out : Out) : Fin :=
  dField 255 .hostname (fun w p t => dAppname compliant p t { out with hostname := w }) pos rest out

def dTimestamp (compliant : Bool) (pos : Nat) (rest : Bytes) (out : Out) : Fin :=
  match rest with
  | 45 :: r =>
    match r with
    | 32 :: t => dHostname compliant (pos + 2) t out
    | _ => mkErr .parse (pos + 1) out
  | _ =>
    match Ts.scan true .y1 rest with
    | .bad n => mkErr .timestamp (pos + n) out
    | .ok w tl =>
      match GoTime.parseRFC3339Micro w with
      | none => mkErr .timeParse (pos + w.length) out
      | some tm =>
        match tl with
        | 32 :: t =>
          dHostname compliant (pos + w.length + 1) t { out with timestamp := tm, timestampSet := true }
        | _ => mkErr .parse (pos + w.length) { out with timestamp := tm, timestampSet := true }

def setV (out : Out) (ds : Bytes) : Out := { out with version := Common.toU16 (Common.unsafeDec ds) }

def isDig (b : UInt8) : Bool := decide (48 ≤ b.toNat) && decide (b.toNat ≤ 57)

def dVersion (compliant : Bool) (pos : Nat) (rest : Bytes) (out : Out) : Fin :=
  match rest with
  | [] => mkErr .version pos out
  | d1 :: r1 =>
    if d1.toNat < 49 ∨ 57 < d1.toNat then mkErr .version pos out
    else
      match r1 with
      | [] => mkErr .parse (pos + 1) (setV out [d1])
      | d2 :: r2 =>
        if d2 = 32 then dTimestamp compliant (pos + 2) r2 (setV out [d1])
        else if isDig d2 then
          match r2 with
          | [] => mkErr .version (pos + 2) (setV out [d1])
          | d3 :: r3 =>
            if d3 = 32 then dTimestamp compliant (pos + 3) r3 (setV out [d1, d2])
            else if isDig d3 then
              match r3 with
              | [] => mkErr .version (pos + 3) (setV out [d1, d2])
              | d4 :: r4 =>
                if d4 = 32 then dTimestamp compliant (pos + 4) r4 (setV out [d1, d2, d3])
                else mkErr .version (pos + 3) (setV out [d1, d2, d3])
            else mkErr .version (pos + 2) (setV out [d1, d2])
        else mkErr .parse (pos + 1) (setV out [d1])

/-- digits of PRIVAL read so far: nothing, `1`, `19`, `1[0-8]` or `[2-9]`, anything that cannot be extended -/
inductive PriSt where
  | start | one | nineteen | two | full
  deriving DecidableEq, Repr

def priStep : PriSt → UInt8 → Option PriSt
  | .start, b =>
    if b.toNat = 48 then some .full else if b.toNat = 49 then some .one
    else if 50 ≤ b.toNat ∧ b.toNat ≤ 57 then some .two else none
  | .one, b => if 48 ≤ b.toNat ∧ b.toNat ≤ 56 then some .two else if b.toNat = 57 then some .nineteen else none
  | .nineteen, b => if 48 ≤ b.toNat ∧ b.toNat ≤ 49 then some .full else none
  | .two, b => if 48 ≤ b.toNat ∧ b.toNat ≤ 57 then some .full else none
  | .full, _ => none

/-- PRIVAL and `>` -/
def priScan : PriSt → Bytes → Ts.Res
  | _, [] => .bad 0
  | s, b :: l =>
    if s ≠ .start ∧ b.toNat = 62 then .ok [] l
    else match priStep s b with
      | none => .bad 0
      | some s' => (priScan s' l).cons b

def setP (ds : Bytes) : Out := { priority := Common.toU8 (Common.unsafeDec ds), prioritySet := true }

def descend (compliant : Bool) (input : Bytes) : Fin :=
  match input with
  | 60 :: r =>
    match priScan .start r with
    | .bad n => .err ⟨.prival, 1 + n⟩ none
    | .ok w tl => dVersion compliant (1 + w.length + 1) tl (setP w)
  | _ => .err ⟨.pri, 0⟩ none

end Verif.Rfc5424
