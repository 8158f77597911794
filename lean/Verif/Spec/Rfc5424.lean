import Verif.Rfc5424.Machine
import Verif.Spec.Timestamp
import Verif.Spec.Utf8

/-!
# Specification: SYSLOG-MSG (RFC 5424, section 6)

A `Parts` value is the abstract content of a message; `Parts.render` is its (only) text, `Parts.WF` are the side
conditions of the grammar as implemented by this library, `Parts.toMessage` is what a user expects to get back.
The only thing taken from the model of the code is the type `SyslogMessage` of results.
-/

namespace Verif.Spec
open Verif.Rfc5424 (SyslogMessage SD)

/-- decimal digits of a number, no leading zeros -/
def dec (n : Nat) : Bytes := if n < 10 then [digit n] else dec (n / 10) ++ [digit (n % 10)]
termination_by n
decreasing_by omega

/-- PRINTUSASCII = %d33-126 -/
def Printable (b : UInt8) : Prop := 33 ≤ b.toNat ∧ b.toNat ≤ 126

instance (b : UInt8) : Decidable (Printable b) := inferInstanceAs (Decidable (_ ∧ _))

/-- 1*max PRINTUSASCII -/
def NameWF (max : Nat) (w : Bytes) : Prop := w ≠ [] ∧ w.length ≤ max ∧ ∀ b ∈ w, Printable b

/-- a NILVALUE-able field: `none` is `-` -/
def FieldWF (max : Nat) : Option Bytes → Prop
  | none => True
  | some w => NameWF max w ∧ w ≠ [45]

/-- text of a NILVALUE-able field -/
def fieldText (f : Option Bytes) : Bytes := f.getD [45]

/-- SD-NAME = 1*32PRINTUSASCII except `=`, SP, `]`, `"` -/
def SdNameWF (w : Bytes) : Prop :=
  w ≠ [] ∧ w.length ≤ 32 ∧ ∀ b ∈ w, Printable b ∧ b ≠ 61 ∧ b ≠ 93 ∧ b ≠ 34

/-- in PARAM-VALUE `"`, `\` and `]` are escaped with a backslash -/
def escape : Bytes → Bytes
  | [] => []
  | b :: l => if b = 34 ∨ b = 92 ∨ b = 93 then 92 :: b :: escape l else b :: escape l

/-- SD-PARAM with the *unescaped* value -/
structure Param where
  name : Bytes
  value : Bytes
  deriving DecidableEq, Repr

/-- SD-ELEMENT -/
structure Elem where
  id : Bytes
  params : List Param
  deriving DecidableEq, Repr

/-- ` NAME="VALUE"` -/
def Param.render (p : Param) : Bytes := 32 :: (p.name ++ 61 :: 34 :: (escape p.value ++ [34]))

/-- `[ID PARAM...]` -/
def Elem.render (e : Elem) : Bytes := 91 :: (e.id ++ (e.params.flatMap Param.render ++ [93]))

def Param.WF (p : Param) : Prop := SdNameWF p.name ∧ Utf8 p.value

def Elem.WF (e : Elem) : Prop := SdNameWF e.id ∧ ∀ p ∈ e.params, p.WF

/-- the map from parameter names to values: a later parameter replaces an earlier one of the same name -/
def paramMap (ps : List Param) : SMap Bytes := ps.foldl (fun m p => m.insert p.name p.value) []

/-- the map from ids to parameter maps -/
def elemMap (es : List Elem) : SD := es.foldl (fun m e => m.insert e.id (paramMap e.params)) []

structure Parts where
  pri : Nat
  version : Nat
  /-- `none` is `-` -/
  timestamp : Option Stamp
  hostname : Option Bytes
  appname : Option Bytes
  procID : Option Bytes
  msgID : Option Bytes
  /-- `[]` is `-` -/
  sd : List Elem
  /-- `none`: the text ends after STRUCTURED-DATA; `some w`: a space and `w` follow -/
  msg : Option Bytes
  deriving DecidableEq, Repr

def tsText : Option Stamp → Bytes
  | none => [45]
  | some s => s.render

def sdText : List Elem → Bytes
  | [] => [45]
  | es => es.flatMap Elem.render

def msgText : Option Bytes → Bytes
  | none => []
  | some w => 32 :: w

/-- `<PRI>VERSION SP TIMESTAMP SP HOSTNAME SP APP-NAME SP PROCID SP MSGID SP STRUCTURED-DATA [SP MSG]` -/
def Parts.render (p : Parts) : Bytes :=
  60 :: (dec p.pri ++ 62 :: (dec p.version ++ 32 :: (tsText p.timestamp ++ 32 :: (fieldText p.hostname ++ 32 ::
    (fieldText p.appname ++ 32 :: (fieldText p.procID ++ 32 :: (fieldText p.msgID ++ 32 ::
      (sdText p.sd ++ msgText p.msg))))))))

/-- everything before STRUCTURED-DATA -/
def Parts.head (p : Parts) : Bytes :=
  60 :: (dec p.pri ++ 62 :: (dec p.version ++ 32 :: (tsText p.timestamp ++ 32 :: (fieldText p.hostname ++ 32 ::
    (fieldText p.appname ++ 32 :: (fieldText p.procID ++ 32 :: (fieldText p.msgID ++ [32])))))))

theorem Parts.render_eq (p : Parts) : p.render = p.head ++ (sdText p.sd ++ msgText p.msg) := by
  simp [Parts.render, Parts.head]

structure Parts.WF (p : Parts) : Prop where
  pri : p.pri ≤ 191
  version : 1 ≤ p.version ∧ p.version ≤ 999
  timestamp : ∀ s, p.timestamp = some s → s.WF ∧ s.Real
  hostname : FieldWF 255 p.hostname
  appname : FieldWF 48 p.appname
  procID : FieldWF 128 p.procID
  msgID : FieldWF 32 p.msgID
  sd : ∀ e ∈ p.sd, e.WF
  ids : (p.sd.map Elem.id).Nodup

/-- the message a user expects -/
def Parts.toMessage (p : Parts) : SyslogMessage :=
  { priority := some (UInt8.ofNat p.pri)
    facility := some (UInt8.ofNat (p.pri / 8))
    severity := some (UInt8.ofNat (p.pri % 8))
    version := UInt16.ofNat p.version
    timestamp := p.timestamp.map Stamp.time
    hostname := p.hostname
    appname := p.appname
    procID := p.procID
    msgID := p.msgID
    structuredData := if p.sd = [] then none else some (elemMap p.sd)
    message := if p.msg = some [] then none else p.msg }

/-- The UTF-8 byte order mark. -/
def bom : Bytes := [0xEF, 0xBB, 0xBF]

/-- What the compliant-MSG option asks of MSG: MSG-ANY, or BOM followed by UTF-8. -/
def MsgCompliant (w : Bytes) : Prop := bom <+: w → Utf8 w

end Verif.Spec
