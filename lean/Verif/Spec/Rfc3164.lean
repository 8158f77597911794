import Verif.Spec.Rfc5424
import Verif.Base

/-!
# Specification: the messages read by the RFC 3164 parser

`<PRI>TIMESTAMP HOSTNAME MSG`, the reading of MSG as `tag[pid]: text`, and the timestamp `Mmm dd hh:mm:ss`.
-/

namespace Verif.Spec.Bsd
open Verif.Spec

/-- English month abbreviations -/
def monthText : Nat → Bytes
  | 1 => ascii "Jan" | 2 => ascii "Feb" | 3 => ascii "Mar" | 4 => ascii "Apr" | 5 => ascii "May" | 6 => ascii "Jun"
  | 7 => ascii "Jul" | 8 => ascii "Aug" | 9 => ascii "Sep" | 10 => ascii "Oct" | 11 => ascii "Nov" | 12 => ascii "Dec"
  | _ => []

/-- the content of a `Mmm dd hh:mm:ss` timestamp (RFC 3164, section 4.1.2): there is no year and no zone -/
structure BStamp where
  month : Nat
  day : Nat
  hour : Nat
  min : Nat
  sec : Nat
  deriving DecidableEq, Repr

/-- a day below ten is written with a space in front -/
def dayText (d : Nat) : Bytes := if d < 10 then [32, digit d] else d2 d

def BStamp.render (s : BStamp) : Bytes :=
  monthText s.month ++ 32 :: (dayText s.day ++ 32 :: (d2 s.hour ++ 58 :: (d2 s.min ++ 58 :: d2 s.sec)))

def BStamp.WF (s : BStamp) : Prop :=
  1 ≤ s.month ∧ s.month ≤ 12 ∧ 1 ≤ s.day ∧ s.day ≤ 31 ∧ s.hour ≤ 23 ∧ s.min ≤ 59 ∧ s.sec ≤ 59

/-- the day exists in some year: February has 29 days -/
def BStamp.Real (s : BStamp) : Prop :=
  s.day ≤ (if s.month = 2 then 29 else if s.month ∈ [4, 6, 9, 11] then 30 else 31)

instance (s : BStamp) : Decidable s.Real := inferInstanceAs (Decidable (_ ≤ _))

/-- what is written in the TIMESTAMP position: the classic form, or (with `WithRFC3339`) an RFC 3339 timestamp without fraction -/
inductive When where
  | bsd (s : BStamp)
  | iso (s : Stamp)
  deriving DecidableEq, Repr

def When.render : When → Bytes
  | .bsd s => s.render
  | .iso s => s.render

/-- `iso` tells whether `WithRFC3339` is on -/
def When.WF (iso : Bool) : When → Prop
  | .bsd s => s.WF ∧ s.Real
  | .iso s => iso = true ∧ s.WF ∧ s.Real ∧ s.frac = []

/-- an ASCII control character: bytes 0-31 and 127 -/
def Control (b : UInt8) : Prop := b.toNat ≤ 31 ∨ b.toNat = 127

instance (b : UInt8) : Decidable (Control b) := inferInstanceAs (Decidable (_ ∨ _))

/-- no control character -/
def Clean (w : Bytes) : Prop := ∀ b ∈ w, ¬ Control b

/-- 1..32 printable characters other than `:` and `[` -/
def TagWF (w : Bytes) : Prop := w ≠ [] ∧ w.length ≤ 32 ∧ ∀ b ∈ w, Printable b ∧ b ≠ 58 ∧ b ≠ 91

/-- `x` follows an occurrence of `]: ` in `s`, and begins with a byte that is not a control character -/
def Follows (s x : Bytes) : Prop := (∃ a, s = a ++ (ascii "]: " ++ x)) ∧ ∃ c r, x = c :: r ∧ ¬ Control c

/-- what follows the last such `]: ` in `s`; all of `s` when there is none -/
def LastPart (s x : Bytes) : Prop :=
  (Follows s x ∧ ∀ y, Follows s y → x.length ≤ y.length) ∨ ((∀ y, ¬ Follows s y) ∧ x = s)

/-- How MSG is read: `Reads msg tag pid text` (an empty `tag` or `pid` is an absent one). -/
inductive Reads : Bytes → Bytes → Bytes → Bytes → Prop
  /-- MSG does not begin with a tag and `:` or `[` -/
  | plain {msg : Bytes} (h : msg ≠ []) (hc : Clean msg) (hn : ∀ tag r, TagWF tag → msg ≠ tag ++ 58 :: r ∧ msg ≠ tag ++ 91 :: r) :
      Reads msg [] [] msg
  /-- `tag: text` -/
  | colon {tag text : Bytes} (ht : TagWF tag) (h : text ≠ []) (hc : Clean text) : Reads (tag ++ 58 :: 32 :: text) tag [] text
  /-- `tag:` not followed by a space and a text: everything is the text -/
  | colonBare {tag r : Bytes} (ht : TagWF tag) (hc : Clean r) (hr : ∀ text, text ≠ [] → r ≠ 32 :: text) :
      Reads (tag ++ 58 :: r) tag [] (tag ++ 58 :: r)
  /-- `tag[` and nothing more: everything is the text -/
  | openBare {tag : Bytes} (ht : TagWF tag) : Reads (tag ++ [91]) tag [] (tag ++ [91])
  /-- `tag[` and bytes without `]`: they are the text -/
  | opened {tag s : Bytes} (ht : TagWF tag) (h : s ≠ []) (hc : Clean s) (hs : ∀ b ∈ s, b ≠ 93) : Reads (tag ++ 91 :: s) tag [] s
  /-- `tag[u]v` where `v` has no `]` -/
  | closed {tag u v pid text : Bytes} (ht : TagWF tag) (hv : ∀ b ∈ v, b ≠ 93) (hp : LastPart u pid)
      (htext : LastPart (u ++ 93 :: v) text) (hc : Clean text) : Reads (tag ++ 91 :: (u ++ 93 :: v)) tag pid text

/-- the content of a message -/
structure Parts where
  pri : Nat
  time : When
  host : Bytes
  msg : Bytes
  tag : Bytes
  pid : Bytes
  text : Bytes
  deriving DecidableEq, Repr

/-- `<PRI>TIMESTAMP HOSTNAME MSG` -/
def Parts.render (p : Parts) : Bytes :=
  60 :: (dec p.pri ++ 62 :: (p.time.render ++ 32 :: (p.host ++ 32 :: p.msg)))

structure Parts.WF (iso : Bool) (p : Parts) : Prop where
  pri : p.pri ≤ 191
  time : p.time.WF iso
  host : NameWF 255 p.host
  msg : Reads p.msg p.tag p.pid p.text

/-- fields that are empty or `-` are absent from the result -/
def given (w : Bytes) : Option Bytes := if w = [] ∨ w = ascii "-" then none else some w

/-- the result for a message whose timestamp denotes `tm` -/
def Parts.toMessage (p : Parts) (tm : GoTime.Time) : Base :=
  { priority := some (UInt8.ofNat p.pri), facility := some (UInt8.ofNat (p.pri / 8)), severity := some (UInt8.ofNat (p.pri % 8))
    timestamp := some tm, hostname := given p.host, appname := given p.tag, procID := given p.pid, message := some p.text }

/-! ## Inputs that are neither read nor refused with an error -/

/-- the text of a timestamp, possibly of a day that does not exist -/
def When.Text (iso : Bool) : When → Prop
  | .bsd s => s.WF
  | .iso s => iso = true ∧ s.WF ∧ s.frac = []

/-- the first byte exists and is not a control character -/
def Starts (msg : Bytes) : Prop := ∃ b r, msg = b :: r ∧ ¬ Control b

/-- `l` begins with `YYYY-MM-DDThh:mm:ss` -/
def IsoPrefix (l : Bytes) : Prop := ∃ s : Stamp, s.WF ∧ s.frac = [] ∧ l.take 19 = s.render.take 19

/-- The inputs for which the code reports nothing: `<PRI>` and then
* a timestamp that is not followed by a space, or
* with `WithRFC3339`, a digit that does not begin `YYYY-MM-DDThh:mm:ss`, or
* `TIMESTAMP HOSTNAME MSG` where MSG begins properly but has a control character where none is allowed. -/
def Silent (iso : Bool) (input : Bytes) : Prop :=
  ∃ pri rest, pri ≤ 191 ∧ input = 60 :: (dec pri ++ 62 :: rest) ∧
    ((∃ (w : When) (tl : Bytes), w.Text iso ∧ rest = w.render ++ tl ∧ ∀ t, tl ≠ 32 :: t) ∨
     (iso = true ∧ (∃ d t, rest = d :: t ∧ 48 ≤ d.toNat ∧ d.toNat ≤ 57) ∧ ¬ IsoPrefix rest) ∨
     (∃ (w : When) (host msg : Bytes), w.WF iso ∧ NameWF 255 host ∧ rest = w.render ++ 32 :: (host ++ 32 :: msg) ∧ Starts msg ∧
        ∀ tag pid text, ¬ Reads msg tag pid text))

end Verif.Spec.Bsd
