import Verif.Spec.Rfc5424

/-!
# Specification: refused inputs (RFC 5424)

`Broken co input kind col m` says that `input` is not a syslog message, that the refusal has kind `kind` and column
`col`, and that best effort returns the partial message `m` (`none`: nothing). It is written in terms of the grammar
of `Verif/Spec/Rfc5424.lean` only: how much of the text is a well-formed beginning, and how far the piece that
follows still can be the beginning of the next grammar element.
-/

namespace Verif.Spec
open Verif.Rfc5424 (SyslogMessage ErrKind)

/-- No beginning of `x` is in `L`, and `x.take n` is the longest beginning of `x` that some word of `L` begins with. -/
structure Fails (L : Bytes → Prop) (x : Bytes) (n : Nat) : Prop where
  no : ∀ u, L u → ¬ u <+: x
  le : n ≤ x.length
  viable : ∃ t, L (x.take n ++ t)
  stuck : n < x.length → ∀ t, ¬ L (x.take (n + 1) ++ t)

/-- `PRIVAL>` -/
def PriText (u : Bytes) : Prop := ∃ n, n ≤ 191 ∧ u = dec n ++ [62]

/-- a syntactically correct timestamp (the day may not exist in that month) -/
def StampText (u : Bytes) : Prop := ∃ s : Stamp, s.WF ∧ u = s.render

/-- a header field and the space after it -/
def FieldText (max : Nat) (u : Bytes) : Prop := ∃ w, NameWF max w ∧ u = w ++ [32]

/-- SD-ID and the byte after it -/
def IdText (u : Bytes) : Prop := ∃ w c, SdNameWF w ∧ (c = 32 ∨ c = 93) ∧ u = w ++ [c]

/-- PARAM-NAME and `=` -/
def NameText (u : Bytes) : Prop := ∃ w, SdNameWF w ∧ u = w ++ [61]

/-- PARAM-VALUE and the closing quote -/
def ValueText (u : Bytes) : Prop := ∃ v, Utf8 v ∧ u = escape v ++ [34]

/-- between two characters of a PARAM-VALUE, or right after a backslash -/
def Between (u : Bytes) : Prop := ∃ v, Utf8 v ∧ (u = escape v ∨ u = escape v ++ [92])

/-- `x` does not begin with byte `b` -/
def NotAt (b : UInt8) (x : Bytes) : Prop := ∀ t, x ≠ b :: t

/-- the text of the `k`-th field: 1 VERSION, 2 TIMESTAMP, 3 HOSTNAME, 4 APP-NAME, 5 PROCID, 6 MSGID -/
def Parts.piece (p : Parts) : Nat → Bytes
  | 1 => dec p.version
  | 2 => tsText p.timestamp
  | 3 => fieldText p.hostname
  | 4 => fieldText p.appname
  | 5 => fieldText p.procID
  | _ => fieldText p.msgID

/-- `<PRI>`, and the text of the first `k` fields, each with the space after it -/
def Parts.lead (p : Parts) : Nat → Bytes
  | 0 => [60] ++ dec p.pri ++ [62]
  | k + 1 => p.lead k ++ p.piece (k + 1) ++ [32]

/-- the message that has only the first `k` fields of `p` (numbered as above) -/
def Parts.first (p : Parts) (k : Nat) : SyslogMessage :=
  { p with
    timestamp := if 2 ≤ k then p.timestamp else none
    hostname := if 3 ≤ k then p.hostname else none
    appname := if 4 ≤ k then p.appname else none
    procID := if 5 ≤ k then p.procID else none
    msgID := if 6 ≤ k then p.msgID else none
    sd := []
    msg := none : Parts }.toMessage

/-- the message with all header fields of `p` and the elements `es` -/
def Parts.withElems (p : Parts) (es : List Elem) : SyslogMessage := { p with sd := es, msg := none : Parts }.toMessage

/-- parameters without those called `name` -/
def dropName (name : Bytes) (ps : List Param) : List Param := ps.filter fun q => q.name ≠ name

/-- parameters without the last one (and without earlier ones of the same name) -/
def dropLastName (ps : List Param) : List Param :=
  match ps.getLast? with
  | none => []
  | some q => dropName q.name ps

/-- `ParamStuck ps x kind n ps'`: after the complete parameters `ps` and a space comes `x`, which goes wrong at `n`;
`ps'` are the parameters that are kept. -/
inductive ParamStuck (ps : List Param) : Bytes → ErrKind → Nat → List Param → Prop
  /-- no `NAME=`: the *previous* parameter is dropped as well -/
  | name {x : Bytes} {n : Nat} : Fails NameText x n →
      ParamStuck ps x .sdParam n (dropLastName ps)
  /-- `NAME=` without opening quote -/
  | quote {w t : Bytes} : SdNameWF w → NotAt 34 t →
      ParamStuck ps (w ++ [61] ++ t) .sdParam (w.length + 1) (dropName w ps)
  /-- a bad byte, or the end of input, between two characters of the value -/
  | value {w x : Bytes} {n : Nat} : SdNameWF w → Fails ValueText x n → Between (x.take n) →
      ParamStuck ps (w ++ [61, 34] ++ x) .escape (w.length + 2 + n) ps
  /-- a bad byte, or the end of input, inside a UTF-8 character of the value -/
  | char {w x : Bytes} {n : Nat} : SdNameWF w → Fails ValueText x n → ¬ Between (x.take n) →
      ParamStuck ps (w ++ [61, 34] ++ x) .sdParam (w.length + 2 + n) (dropName w ps)
  /-- `NAME="VALUE"` followed by neither space nor `]` -/
  | after {w v t : Bytes} : SdNameWF w → Utf8 v → NotAt 32 t → NotAt 93 t →
      ParamStuck ps (w ++ [61, 34] ++ escape v ++ [34] ++ t) .sdParam (w.length + 2 + (escape v).length + 1) (dropName w ps)

/-- `ElemStuck es x kind n es'`: after the complete elements `es` and `[` comes `x`, which goes wrong at `n`; `es'` are
the elements that are kept. -/
inductive ElemStuck (es : List Elem) : Bytes → ErrKind → Nat → List Elem → Prop
  /-- no id at all: the *previous* element is dropped -/
  | noId {x : Bytes} : Fails IdText x 0 → ElemStuck es x .sdId 0 es.dropLast
  /-- a malformed id -/
  | badId {x : Bytes} {n : Nat} : Fails IdText x n → 0 < n → (∀ e ∈ es, e.id ≠ x.take n) → ElemStuck es x .sdId n es
  /-- an id that was used before -/
  | dupId {id t : Bytes} : (∃ e ∈ es, e.id = id) →
      (id.length = 32 ∨ ∀ b l, t = b :: l → ¬ (Printable b ∧ b ≠ 61 ∧ b ≠ 93 ∧ b ≠ 34)) →
      ElemStuck es (id ++ t) .sdIdDup id.length es
  /-- a malformed parameter; the element is kept with the parameters `ps'` -/
  | param {id x : Bytes} {ps ps' : List Param} {kind : ErrKind} {n : Nat} :
      (∀ e ∈ es, e.id ≠ id) → (Elem.mk id ps).WF → ParamStuck ps x kind n ps' →
      ElemStuck es (id ++ ps.flatMap Param.render ++ [32] ++ x) kind ((id ++ ps.flatMap Param.render).length + 1 + n)
        (es ++ [⟨id, ps'⟩])

/-- maximal length of the header fields (numbered as above) -/
def fieldMax : Nat → Nat
  | 3 => 255
  | 4 => 48
  | 5 => 128
  | _ => 32

def fieldKind : Nat → ErrKind
  | 3 => .hostname
  | 4 => .appname
  | 5 => .procid
  | _ => .msgid

inductive Broken (co : Bool) : Bytes → ErrKind → Nat → Option SyslogMessage → Prop
  | noLt {x : Bytes} : NotAt 60 x → Broken co x .pri 0 none
  | pri {x : Bytes} {n : Nat} : Fails PriText x n → Broken co (60 :: x) .prival (1 + n) none
  | noVersion {p : Parts} {x : Bytes} : p.WF → (∀ d t, x = d :: t → ¬ (49 ≤ d.toNat ∧ d.toNat ≤ 57)) →
      Broken co (p.lead 0 ++ x) .version (p.lead 0).length none
  /-- VERSION not followed by a space. If the input ends after two or three digits, the last one is lost. -/
  | version {p : Parts} {t : Bytes} : p.WF → NotAt 32 t →
      (p.version < 100 → ∀ d l, t = d :: l → ¬ (48 ≤ d.toNat ∧ d.toNat ≤ 57)) →
      Broken co (p.lead 0 ++ dec p.version ++ t) (if p.version < 10 then .parse else .version)
        (p.lead 0 ++ dec p.version).length
        (some (({ p with version := if t = [] ∧ 10 ≤ p.version then p.version / 10 else p.version } : Parts).first 1))
  /-- `-` not followed by a space -/
  | nilTime {p : Parts} {t : Bytes} : p.WF → NotAt 32 t →
      Broken co (p.lead 1 ++ [45] ++ t) .parse ((p.lead 1).length + 1) (some (p.first 1))
  /-- not a timestamp -/
  | time {p : Parts} {x : Bytes} {n : Nat} : p.WF → NotAt 45 x → Fails StampText x n →
      Broken co (p.lead 1 ++ x) .timestamp ((p.lead 1).length + n) (some (p.first 1))
  /-- a timestamp whose day does not exist -/
  | noSuchDay {p : Parts} {s : Stamp} {t : Bytes} : p.WF → s.WF → ¬ s.Real →
      Broken co (p.lead 1 ++ s.render ++ t) .timeParse (p.lead 1 ++ s.render).length (some (p.first 1))
  /-- a timestamp not followed by a space -/
  | afterTime {p : Parts} {s : Stamp} {t : Bytes} : p.WF → p.timestamp = some s → NotAt 32 t →
      Broken co (p.lead 1 ++ s.render ++ t) .parse (p.lead 1 ++ s.render).length (some (p.first 2))
  /-- HOSTNAME, APP-NAME, PROCID or MSGID -/
  | field {p : Parts} {k : Nat} {x : Bytes} {n : Nat} : p.WF → 3 ≤ k → k ≤ 6 → Fails (FieldText (fieldMax k)) x n →
      Broken co (p.lead (k - 1) ++ x) (fieldKind k) ((p.lead (k - 1)).length + n) (some (p.first (k - 1)))
  | noSd {p : Parts} {x : Bytes} : p.WF → NotAt 45 x → NotAt 91 x →
      Broken co (p.lead 6 ++ x) .structuredData (p.lead 6).length (some (p.first 6))
  /-- `-` followed by something else than a space -/
  | nilSd {p : Parts} {b : UInt8} {t : Bytes} : p.WF → b ≠ 32 →
      Broken co (p.lead 6 ++ [45, b] ++ t) .parse ((p.lead 6).length + 1) (some (p.first 6))
  /-- a malformed element after the elements of `p` -/
  | element {p : Parts} {x : Bytes} {kind : ErrKind} {n : Nat} {es : List Elem} : p.WF → ElemStuck p.sd x kind n es →
      Broken co (p.lead 6 ++ p.sd.flatMap Elem.render ++ [91] ++ x) kind
        ((p.lead 6 ++ p.sd.flatMap Elem.render).length + 1 + n) (some (p.withElems es))
  /-- elements followed by something else than a space or another element -/
  | afterSd {p : Parts} {b : UInt8} {t : Bytes} : p.WF → p.sd ≠ [] → b ≠ 32 → b ≠ 91 →
      Broken co (p.lead 6 ++ sdText p.sd ++ [b] ++ t) .structuredData (p.lead 6 ++ sdText p.sd).length
        (some (p.withElems p.sd))
  /-- a MSG that begins with a BOM and is not UTF-8, when compliant MSGs are asked for -/
  | msg {p : Parts} {w : Bytes} {n : Nat} : p.WF → p.msg = some w → co = true → ¬ MsgCompliant w →
      n ≤ w.length → (∃ t, Utf8 (w.take n ++ t)) → (n < w.length → ∀ t, ¬ Utf8 (w.take (n + 1) ++ t)) →
      Broken co p.render .msgNotCompliant ((p.lead 6 ++ sdText p.sd).length + 1 + n)
        (some ({ p with msg := some (w.take n) } : Parts).toMessage)

end Verif.Spec
