import Verif.Texts
import Verif.Props.OctetStream
import Verif.Props.Rfc3164

/-!
# C61: error texts

`err.Error()` tells the kind of the error and the column, and nothing else is needed to tell errors apart.
-/

namespace Verif.Props
open Verif.Spec Verif.Octet Verif.Texts

/-- the text ends with the column `n` -/
def EndsWithColumn (text : Bytes) (n : Nat) : Prop := ∃ before, text = before ++ ascii " [col " ++ dec n ++ ascii "]"

/-! ## helpers -/

theorem last_split {c : UInt8} {a a' b b' : Bytes} (h : a ++ c :: b = a' ++ c :: b') (hb : c ∉ b) (hb' : c ∉ b') : a = a' ∧ b = b' := by
  induction a generalizing a' with
  | nil =>
    cases a' with
    | nil => simp at h; exact ⟨rfl, h⟩
    | cons x a' =>
      simp only [List.nil_append, List.cons_append, List.cons.injEq] at h
      exact absurd (h.2 ▸ by simp) hb
  | cons x a ih =>
    cases a' with
    | nil =>
      simp only [List.nil_append, List.cons_append, List.cons.injEq] at h
      exact absurd (h.2 ▸ by simp) hb'
    | cons y a' =>
      simp only [List.cons_append, List.cons.injEq] at h
      obtain ⟨rfl, h⟩ := h
      obtain ⟨rfl, rfl⟩ := ih h
      exact ⟨rfl, rfl⟩

theorem not_mem_dec {n : Nat} {c : UInt8} (h : ¬ Digit c) : c ∉ dec n := fun hm => h (dec_digits n c hm)

theorem col_split {a b : Bytes} {n k : Nat} (h : a ++ col n = b ++ col k) : a = b ∧ n = k := by
  have e : ∀ n, col n = [32] ++ 91 :: (ascii "col " ++ dec n ++ ascii "]") := by
    intro n; unfold col; rw [show ascii " [col " = [32] ++ 91 :: ascii "col " by decide +kernel]; simp
  have hn : ∀ n, (91 : UInt8) ∉ ascii "col " ++ dec n ++ ascii "]" := by
    intro n hm
    rcases List.mem_append.mp hm with hm | hm
    · rcases List.mem_append.mp hm with hm | hm
      · revert hm; decide +kernel
      · exact not_mem_dec (by decide) hm
    · revert hm; decide +kernel
  rw [e, e, ← List.append_assoc, ← List.append_assoc] at h
  obtain ⟨h1, h2⟩ := last_split h (hn _) (hn _)
  refine ⟨List.append_cancel_right h1, dec_inj ?_⟩
  exact List.append_cancel_left (List.append_cancel_right h2)

theorem ends_iff {body : Bytes} {n k : Nat} : EndsWithColumn (body ++ col n) k ↔ k = n := by
  constructor
  · rintro ⟨b, h⟩
    have : body ++ col n = b ++ col k := by rw [h]; simp [col]
    exact (col_split this).2.symm
  · rintro rfl; exact ⟨body, by simp [col]⟩

def kinds5424 : List Rfc5424.ErrKind :=
  [.prival, .pri, .version, .timestamp, .hostname, .appname, .procid, .msgid, .structuredData, .sdId, .sdIdDup, .sdParam, .msg,
    .msgNotCompliant, .escape, .parse, .timeParse]

theorem kinds5424_all (k : Rfc5424.ErrKind) : k ∈ kinds5424 := by cases k <;> decide

def kinds3164 : List Rfc3164.ErrKind := [.prival, .pri, .timestamp, .rfc3339, .hostname, .tag, .contentStart, .content, .timeParse]

theorem kinds3164_all (k : Rfc3164.ErrKind) : k ∈ kinds3164 := by cases k <;> decide

/-- how a text with constant `c` (or none) starts -/
def start (c : Option Bytes) : Bytes := match c with | some c => c ++ ascii " [col " | none => ascii "parsing time \""

/-- neither text starts like the other -/
def apart (a b : Bytes) : Bool := !a.isPrefixOf b && !b.isPrefixOf a

theorem starts5424 : ∀ k ∈ kinds5424, ∀ k' ∈ kinds5424, k ≠ k' → apart (start (rfc5424Const k)) (start (rfc5424Const k')) = true := by
  decide +kernel

theorem starts3164 : ∀ k ∈ kinds3164, ∀ k' ∈ kinds3164, k ≠ k' → apart (start (rfc3164Const k)) (start (rfc3164Const k')) = true := by
  decide +kernel

theorem apart_false {a b t : Bytes} (h : apart a b = true) (ha : a <+: t) (hb : b <+: t) : False := by
  simp only [apart, Bool.and_eq_true, Bool.not_eq_true', ← Bool.not_eq_true, List.isPrefixOf_iff_prefix] at h
  rcases List.prefix_or_prefix_of_prefix ha hb with g | g
  · exact h.1 g
  · exact h.2 g

theorem start5424 (x : Bytes) (e : Rfc5424.Err) : start (rfc5424Const e.kind) <+: rfc5424Text x e := by
  unfold rfc5424Text start
  cases rfc5424Const e.kind with
  | none => exact ⟨_, by simp only [timeError, List.append_assoc]; rfl⟩
  | some c => exact ⟨dec e.col ++ ascii "]", by simp [col]⟩

theorem start3164 (x : Bytes) (e : Rfc3164.Err) : start (rfc3164Const e.kind) <+: rfc3164Text x e := by
  unfold rfc3164Text start
  cases rfc3164Const e.kind with
  | none => exact ⟨_, by simp only [timeError, List.append_assoc]; rfl⟩
  | some c => exact ⟨dec e.col ++ ascii "]", by simp [col]⟩

/-! ## RFC 5424 and RFC 3164 -/

/-- C61: the text of every error of RFC 5424 parsing ends with the column, and with no other; hence the column can be read off the text. -/
theorem C61_rfc5424_column (input : Bytes) (e : Rfc5424.Err) (n : Nat) : EndsWithColumn (rfc5424Text input e) n ↔ n = e.col := ends_iff

theorem C61_rfc3164_column (input : Bytes) (e : Rfc3164.Err) (n : Nat) : EndsWithColumn (rfc3164Text input e) n ↔ n = e.col := ends_iff

/-- C61: testing for an exported constant followed by the column finds exactly the errors of that kind. (Without the bracket it would
not: `ErrMsg` is the beginning of `ErrMsgNotCompliant`.) -/
theorem C61_rfc5424_constant (input : Bytes) (e : Rfc5424.Err) (k : Rfc5424.ErrKind) (c : Bytes) (hc : rfc5424Const k = some c) :
    c ++ ascii " [col " <+: rfc5424Text input e ↔ e.kind = k := by
  have hs : start (rfc5424Const k) = c ++ ascii " [col " := by rw [hc]; rfl
  rw [← hs]
  constructor
  · intro h
    apply Decidable.byContradiction
    intro hne
    exact apart_false (starts5424 _ (kinds5424_all _) _ (kinds5424_all _) hne) (start5424 input e) h
  · rintro rfl; exact start5424 input e

/-- C61: equal texts mean equal kinds and columns, whatever the inputs and options. -/
theorem C61_rfc5424_text_identifies (x x' : Bytes) (e e' : Rfc5424.Err) (h : rfc5424Text x e = rfc5424Text x' e') : e = e' := by
  have hk : e.kind = e'.kind := by
    apply Decidable.byContradiction
    intro hne
    exact apart_false (starts5424 _ (kinds5424_all _) _ (kinds5424_all _) hne) (start5424 x e) (h ▸ start5424 x' e')
  have hc : e.col = e'.col := (col_split h).2
  cases e; cases e'; simp only at hk hc; subst hk; subst hc; rfl

theorem C61_rfc3164_text_identifies (x x' : Bytes) (e e' : Rfc3164.Err) (h : rfc3164Text x e = rfc3164Text x' e') : e = e' := by
  have hk : e.kind = e'.kind := by
    apply Decidable.byContradiction
    intro hne
    exact apart_false (starts3164 _ (kinds3164_all _) _ (kinds3164_all _) hne) (start3164 x e) (h ▸ start3164 x' e')
  have hc : e.col = e'.col := (col_split h).2
  cases e; cases e'; simp only at hk hc; subst hk; subst hc; rfl

theorem dropWhile_upto {c : UInt8} {a b : Bytes} (h : ∀ x ∈ a, x ≠ c) : ((a ++ c :: b).dropWhile (· ≠ c)).drop 1 = b := by
  induction a with
  | nil => simp
  | cons x a ih =>
    rw [List.cons_append, List.dropWhile_cons_of_pos (by simp [h x])]
    exact ih fun y hy => h y (by simp [hy])

/-- C61: the text of the error of an impossible date quotes the timestamp. -/
theorem C61_impossible_date_text (o : Rfc5424.Opts) (pri ver : Nat) (s : Stamp) (t : Bytes) (hpri : pri ≤ 191) (hver : 1 ≤ ver ∧ ver ≤ 999)
    (hwf : s.WF) (hreal : ¬ s.Real) :
    ∃ msg e, Rfc5424.parse1 o ([60] ++ dec pri ++ [62] ++ dec ver ++ [32] ++ s.render ++ t) = some ⟨msg, some e⟩ ∧
      rfc5424Text ([60] ++ dec pri ++ [62] ++ dec ver ++ [32] ++ s.render ++ t) e =
        ascii "parsing time \"" ++ s.render ++ ascii "\": day out of range [col " ++
          dec ([60] ++ dec pri ++ [62] ++ dec ver ++ [32] ++ s.render).length ++ ascii "]" := by
  obtain ⟨msg, h, -⟩ := C08_impossible_date_refused o pri ver s t hpri hver hwf hreal
  refine ⟨msg, _, h, ?_⟩
  have e1 : ([60] ++ dec pri ++ [62] ++ dec ver ++ [32] ++ s.render ++ t).take
      ([60] ++ dec pri ++ [62] ++ dec ver ++ [32] ++ s.render).length = [60] ++ dec pri ++ [62] ++ dec ver ++ 32 :: s.render := by
    rw [List.take_left]; simp
  have e2 : ∀ x ∈ [60] ++ dec pri ++ [62] ++ dec ver, x ≠ (32 : UInt8) := by
    intro x hx
    rintro rfl
    simp only [List.mem_append] at hx
    rcases hx with ((hx | hx) | hx) | hx
    · revert hx; decide
    · exact not_mem_dec (by decide) hx
    · revert hx; decide
    · exact not_mem_dec (by decide) hx
  unfold rfc5424Text
  simp only [rfc5424Const]
  rw [e1, dropWhile_upto e2]
  rw [show ascii "\": day out of range [col " = ascii "\": day out of range" ++ ascii " [col " by decide +kernel]
  simp only [timeError, col, List.append_assoc]

example : ∃ msg e, Rfc5424.parse1 {} (ascii "<1>1 2003-02-29T00:00:00Z - - - - -") = some ⟨msg, some e⟩ ∧
    rfc5424Text (ascii "<1>1 2003-02-29T00:00:00Z - - - - -") e =
      ascii "parsing time \"2003-02-29T00:00:00Z\": day out of range [col 25]" :=
  ⟨none, ⟨.timeParse, 25⟩, by decide +kernel, by decide +kernel⟩

example : rfc5424Text (ascii "<1>1 x") ⟨.timestamp, 5⟩ = ascii "expecting a RFC3339MICRO timestamp or a nil value [col 5]" := by
  decide +kernel

/-- C61: the same for RFC 3164; `w` is a `Stamp` or RFC 3339 timestamp. -/
theorem C61_rfc3164_impossible_date_text (o : Rfc3164.Opts) (pri : Nat) (w : Bsd.When) (t : Bytes) (h1 : pri ≤ 191)
    (h2 : w.Text o.rfc3339) (h3 : ¬ w.WF o.rfc3339) :
    ∃ msg e, Rfc3164.parse1 o ([60] ++ dec pri ++ [62] ++ w.render ++ [32] ++ t) = some ⟨msg, some e⟩ ∧
      rfc3164Text ([60] ++ dec pri ++ [62] ++ w.render ++ [32] ++ t) e =
        ascii "parsing time \"" ++ w.render ++ ascii "\": day out of range [col " ++
          dec ([60] ++ dec pri ++ [62] ++ w.render).length ++ ascii "]" := by
  obtain ⟨msg, h⟩ := Bsd.C38_impossible_date o pri w t h1 h2 h3
  have hl : 2 + (dec pri).length + w.render.length = ([60] ++ dec pri ++ [62] ++ w.render).length := by
    simp only [List.length_append, List.length_cons, List.length_nil]; omega
  rw [hl] at h
  refine ⟨msg, _, h, ?_⟩
  have e1 : ([60] ++ dec pri ++ [62] ++ w.render ++ [32] ++ t).take ([60] ++ dec pri ++ [62] ++ w.render).length =
      [60] ++ dec pri ++ 62 :: w.render := by
    rw [List.append_assoc _ [32] t, List.take_left]; simp
  have e2 : ∀ x ∈ [60] ++ dec pri, x ≠ (62 : UInt8) := by
    intro x hx
    rintro rfl
    simp only [List.mem_append] at hx
    rcases hx with hx | hx
    · revert hx; decide
    · exact not_mem_dec (by decide) hx
  unfold rfc3164Text
  simp only [rfc3164Const]
  rw [e1, dropWhile_upto e2]
  rw [show ascii "\": day out of range [col " = ascii "\": day out of range" ++ ascii " [col " by decide +kernel]
  simp only [timeError, col, List.append_assoc]

example : ∃ msg e, Rfc3164.parse1 {} (ascii "<1>Feb 30 00:00:00 h a: b") = some ⟨msg, some e⟩ ∧
    rfc3164Text (ascii "<1>Feb 30 00:00:00 h a: b") e = ascii "parsing time \"Feb 30 00:00:00\": day out of range [col 18]" :=
  ⟨none, ⟨.timeParse, 18⟩, by decide +kernel, by decide +kernel⟩

/-- `text` says `words` -/
def Says (text : Option Bytes) (words : String) : Prop := ∃ t, text = some t ∧ ascii words <:+: t

instance (text : Option Bytes) (words : String) : Decidable (Says text words) :=
  match text with
  | none => .isFalse fun ⟨_, h, _⟩ => by cases h
  | some t => decidable_of_iff (ascii words <:+: t) ⟨fun h => ⟨t, rfl, h⟩, fun ⟨_, h, h'⟩ => by cases h; exact h'⟩

/-- C61: the text of an error names the part of the message that is expected at the column (which part that is, C57 says), with the limits that
the grammar has (C01). -/
theorem C61_rfc5424_names :
    Says (rfc5424Const .prival) "a priority value in the range 1-191 or equal to 0" ∧
    Says (rfc5424Const .pri) "priority value within angle brackets" ∧
    Says (rfc5424Const .version) "a version value in the range 1-999" ∧
    Says (rfc5424Const .timestamp) "a RFC3339MICRO timestamp or a nil value" ∧
    Says (rfc5424Const .hostname) "an hostname (from 1 to max 255 US-ASCII characters) or a nil value" ∧
    Says (rfc5424Const .appname) "an app-name (from 1 to max 48 US-ASCII characters) or a nil value" ∧
    Says (rfc5424Const .procid) "a procid (from 1 to max 128 US-ASCII characters) or a nil value" ∧
    Says (rfc5424Const .msgid) "a msgid (from 1 to max 32 US-ASCII characters) or a nil value" ∧
    Says (rfc5424Const .structuredData) "a structured data section" ∧
    Says (rfc5424Const .sdId) "expecting a structured data element id (from 1 to max 32 US-ASCII characters" ∧
    Says (rfc5424Const .sdIdDup) "duplicate structured data element id" ∧
    Says (rfc5424Const .sdParam) "expecting a structured data parameter" ∧
    Says (rfc5424Const .escape) "to be escaped within param value" ∧
    Says (rfc5424Const .msg) "message in UTF-8" ∧
    Says (rfc5424Const .msgNotCompliant) "message in UTF-8 (starting with or without BOM) or a free-form optional message in any encoding (starting without BOM)" ∧
    Says (rfc5424Const .parse) "parsing error" := by decide +kernel

/-- C61: the same for RFC 3164. -/
theorem C61_rfc3164_names :
    Says (rfc3164Const .prival) "a priority value in the range 1-191 or equal to 0" ∧
    Says (rfc3164Const .pri) "priority value within angle brackets" ∧
    Says (rfc3164Const .timestamp) "a Stamp timestamp" ∧
    Says (rfc3164Const .rfc3339) "a Stamp or a RFC3339 timestamp" ∧
    Says (rfc3164Const .hostname) "an hostname (from 1 to max 255 US-ASCII characters)" ∧
    Says (rfc3164Const .tag) "an alphanumeric tag (max 32 characters)" ∧
    Says (rfc3164Const .contentStart) "starting with a non-alphanumeric character" ∧
    Says (rfc3164Const .content) "a content part composed by visible characters only" := by decide +kernel

/-! ## octet counting -/

/-- C61: what the errors call the tokens; values that are no token have a text, too. -/
theorem C61_token_types :
    (∀ i : Int, tokenTypeString i =
      if i = 0 then ascii "ILLEGAL" else if i = 1 then ascii "EOF" else if i = 2 then ascii "WS" else if i = 3 then ascii "MSGLEN"
      else if i = 4 then ascii "SYSLOGMSG" else ascii "TokenType(" ++ intString i ++ ascii ")") := by
  intro i
  by_cases h0 : i = 0
  · subst h0; decide +kernel
  by_cases h1 : i = 1
  · subst h1; decide +kernel
  by_cases h2 : i = 2
  · subst h2; decide +kernel
  by_cases h3 : i = 3
  · subst h3; decide +kernel
  by_cases h4 : i = 4
  · subst h4; decide +kernel
  rw [if_neg h0, if_neg h1, if_neg h2, if_neg h3, if_neg h4, tokenTypeString, if_pos]
  · rfl
  · have : (tokentypeindex.length : Int) = 6 := by decide
    omega

/-- the tokens that can be found where they are not expected -/
def Unexpected (tok : Token) : Prop :=
  match tok.typ with
  | .EOF => True
  | .WS => tok.lit = [32]
  | .ILLEGAL => tok.lit.length = 1
  | .MSGLEN => True
  | .SYSLOGMSG => False

def ErrorOk : Octet.Error → Prop
  | .message _ => True
  | .notMsgLen tok => Unexpected tok ∧ (tok.typ = .EOF → tok.lit = [])
  | .tooLong _ _ => True
  | .notWS tok => Unexpected tok ∧ (tok.typ = .EOF → tok.lit = [])
  | .notMsg tok _ => Unexpected tok

theorem found_unexpected {x : Bytes} {tok : Token} (h : Found x tok) : Unexpected tok ∧ (tok.typ = .EOF → tok.lit = []) := by
  cases h <;> simp [Unexpected]

theorem emits_errorOk {be : Bool} {max : Int} {x : Bytes} {rs : List Octet.Result} (h : Emits be max x rs) :
    ∀ r ∈ rs, ∀ e, r.err = some e → ErrorOk e := by
  have hm : ∀ m e, (msgResult be m).err = some e → ErrorOk e := by
    intro m e he
    unfold msgResult at he
    split at he
    · simp at he
    · simp only [Option.map_eq_some_iff] at he
      obtain ⟨a, -, rfl⟩ := he
      trivial
  induction h with
  | noLen hf => intro r hr e he; simp at hr; subst hr; simp at he; subst he; exact found_unexpected hf
  | tooLong => intro r hr e he; simp at hr; subst hr; simp at he; subst he; trivial
  | noSpace _ _ hf => intro r hr e he; simp at hr; subst hr; simp at he; subst he; exact found_unexpected hf
  | noMsg _ _ hf => intro r hr e he; simp at hr; subst hr; simp at he; subst he; exact (found_unexpected hf).1
  | noMsgBest => intro r hr e he; simp at hr; subst hr; simp at he; subst he; trivial
  | huge => intro r hr e he; simp at hr; subst hr; simp at he; subst he; simp [ErrorOk, Unexpected]
  | @short x w rest =>
    intro r hr e he
    rw [List.mem_singleton] at hr
    subst hr
    split at he
    · simp only [Option.some.injEq] at he
      subst he
      cases hc : (msgResult be (60 :: rest)).err with
      | none => simp [ErrorOk, Unexpected]
      | some e' => exact hm _ _ hc
    · simp at he; subst he; simp [ErrorOk, Unexpected]
  | wrong _ _ h => intro r hr e he; simp at hr; subst hr; simp at he; subst he; exact hm _ _ h
  | last => intro r hr e he; simp at hr; subst hr; exact hm _ _ he
  | more _ _ _ _ _ ih =>
    intro r hr e he
    rcases List.mem_cons.mp hr with rfl | hr
    · exact hm _ _ he
    · exact ih r hr e he

theorem tokenString_eq (t : Token) : tokenString t = match t.typ with
    | .WS => ascii "WS"
    | .EOF => ascii "EOF"
    | .ILLEGAL => ascii "ILLEGAL(" ++ t.lit ++ ascii ")"
    | .MSGLEN => ascii "MSGLEN(" ++ t.lit ++ ascii ")"
    | .SYSLOGMSG => ascii "SYSLOGMSG(" ++ t.lit ++ ascii ")" := by
  unfold tokenString
  rw [show ascii "ILLEGAL(" = ascii "ILLEGAL" ++ ascii "(" by decide +kernel, show ascii "MSGLEN(" = ascii "MSGLEN" ++ ascii "(" by decide +kernel,
    show ascii "SYSLOGMSG(" = ascii "SYSLOGMSG" ++ ascii "(" by decide +kernel]
  cases ht : t.typ <;> simp only [tokenNumber, C61_token_types] <;> rfl

/-- the first letter of a token's text -/
def tokenLetter : TokenType → UInt8
  | .WS => 87 | .EOF => 69 | .ILLEGAL => 73 | .MSGLEN => 77 | .SYSLOGMSG => 83

theorem tokenString_head (t : Token) : ∃ w, tokenString t = tokenLetter t.typ :: w := by
  rw [tokenString_eq]
  cases t.typ
  · exact ⟨ascii "LLEGAL(" ++ t.lit ++ ascii ")", rfl⟩
  · exact ⟨ascii "OF", rfl⟩
  · exact ⟨ascii "S", rfl⟩
  · exact ⟨ascii "SGLEN(" ++ t.lit ++ ascii ")", rfl⟩
  · exact ⟨ascii "YSLOGMSG(" ++ t.lit ++ ascii ")", rfl⟩

theorem tokenLetter_inj {a b : TokenType} (h : tokenLetter a = tokenLetter b) : a = b := by
  cases a <;> cases b <;> first | rfl | (exfalso; revert h; decide)

theorem typ_of_text {t t' : Token} {r r' : Bytes} (h : tokenString t ++ r = tokenString t' ++ r') : t.typ = t'.typ := by
  obtain ⟨w, hw⟩ := tokenString_head t
  obtain ⟨w', hw'⟩ := tokenString_head t'
  rw [hw, hw'] at h
  simp only [List.cons_append, List.cons.injEq] at h
  exact tokenLetter_inj h.1

theorem token_ext {t t' : Token} (h1 : t.typ = t'.typ) (h2 : t.lit = t'.lit) : t = t' := by
  cases t; cases t'; simp only at h1 h2; rw [h1, h2]

theorem token_of_text {t t' : Token} (h : tokenString t = tokenString t') (ho : Unexpected t ∧ (t.typ = .EOF → t.lit = []))
    (ho' : Unexpected t' ∧ (t'.typ = .EOF → t'.lit = [])) : t = t' := by
  have ht : t.typ = t'.typ := typ_of_text (r := []) (r' := []) (by rw [h])
  refine token_ext ht ?_
  rw [tokenString_eq, tokenString_eq, ← ht] at h
  obtain ⟨o1, o2⟩ := ho
  obtain ⟨o1', o2'⟩ := ho'
  unfold Unexpected at o1 o1'
  rw [← ht] at o1' o2'
  cases hty : t.typ <;> rw [hty] at h o1 o2 o1' o2' <;> simp only at h o1 o1'
  · exact List.append_cancel_left (List.append_cancel_right h)
  · rw [o2 rfl, o2' rfl]
  · rw [o1, o1']
  · exact List.append_cancel_left (List.append_cancel_right h)

theorem intString_inj {a b : Int} (h : intString a = intString b) : a = b := by
  unfold intString at h
  have h45 : ∀ n w, dec n ≠ 45 :: w := fun n w he => not_mem_dec (n := n) (c := 45) (by decide) (by rw [he]; simp)
  split at h <;> split at h
  · simp only [List.cons.injEq, true_and] at h
    have := dec_inj h
    omega
  · exact absurd h.symm (h45 _ _)
  · exact absurd h (h45 _ _)
  · have := dec_inj h
    omega

/-- the first letter of the text, and its last one -/
theorem octetText_ends (x : Bytes) (e : Octet.Error) :
    match e with
    | .message _ => (octetText x e).head? = some 101 ∨ (octetText x e).head? = some 100 ∨ (octetText x e).head? = some 112
    | .notMsgLen _ => (octetText x e).head? = some 102 ∧ (octetText x e).getLast? = some 78
    | .tooLong _ _ => (octetText x e).head? = some 109
    | .notWS _ => (octetText x e).head? = some 102 ∧ (octetText x e).getLast? = some 83
    | .notMsg _ _ => (octetText x e).head? = some 102 ∧ (octetText x e).getLast? = some 115 := by
  have hlast : ∀ (a b : Bytes) (c : UInt8), b.getLast? = some c → (a ++ b).getLast? = some c := by
    intro a b c hb
    rw [List.getLast?_append, hb]; rfl
  have hfirst : ∀ (a b : Bytes) (c : UInt8), a.head? = some c → (a ++ b).head? = some c := by
    intro a b c ha
    rw [List.head?_append, ha]; rfl
  cases e with
  | message e =>
    simp only [octetText]
    obtain ⟨r, hr⟩ := start5424 x e
    rw [← hr]
    have key : ∀ k ∈ kinds5424, (start (rfc5424Const k)).head? = some 101 ∨ (start (rfc5424Const k)).head? = some 100 ∨
        (start (rfc5424Const k)).head? = some 112 := by decide +kernel
    rcases key _ (kinds5424_all e.kind) with h | h | h
    · exact Or.inl (hfirst _ _ _ h)
    · exact Or.inr (Or.inl (hfirst _ _ _ h))
    · exact Or.inr (Or.inr (hfirst _ _ _ h))
  | notMsgLen tok =>
    simp only [octetText]
    refine ⟨?_, hlast _ _ _ (by decide +kernel)⟩
    rw [List.append_assoc, List.append_assoc]
    exact hfirst _ _ _ (by decide +kernel)
  | tooLong n m =>
    simp only [octetText]
    rw [List.append_assoc, List.append_assoc]
    exact hfirst _ _ _ (by decide +kernel)
  | notWS tok =>
    simp only [octetText]
    refine ⟨?_, hlast _ _ _ (by decide +kernel)⟩
    rw [List.append_assoc, List.append_assoc]
    exact hfirst _ _ _ (by decide +kernel)
  | notMsg tok n =>
    simp only [octetText]
    refine ⟨?_, hlast _ _ _ (by decide +kernel)⟩
    simp only [List.append_assoc]
    exact hfirst _ _ _ (by decide +kernel)

theorem octetText_inj (x x' : Bytes) (e e' : Octet.Error) (ho : ErrorOk e) (ho' : ErrorOk e') (h : octetText x e = octetText x' e') :
    e = e' := by
  have h1 := octetText_ends x e
  have h2 := octetText_ends x' e'
  cases e <;> cases e' <;> simp only [h] at h1 h2 <;>
    first
    | (exfalso; rw [h1.1] at h2; simp at h2; done)
    | (exfalso; rw [h2.1] at h1; simp at h1; done)
    | (exfalso; rw [h1] at h2; simp at h2; done)
    | (exfalso; rw [h2] at h1; simp at h1; done)
    | (exfalso; rw [h1.2] at h2; simp at h2; done)
    | skip
  · rw [C61_rfc5424_text_identifies x x' _ _ h]
  · simp only [octetText] at h
    exact congrArg _ (token_of_text (List.append_cancel_left (List.append_cancel_right (List.append_cancel_right h))) ho ho')
  · rename_i n m n' m'
    simp only [octetText] at h
    have e1 : ascii ", max length " = [44] ++ ascii " max length " := by decide +kernel
    have hs : dec n ++ 44 :: (ascii " max length " ++ intString m) = dec n' ++ 44 :: (ascii " max length " ++ intString m') := by
      rw [e1] at h
      simp only [List.append_assoc] at h
      have := List.append_cancel_left h
      simpa using this
    have h44 : ∀ m : Int, (44 : UInt8) ∉ ascii " max length " ++ intString m := by
      intro m hm
      rcases List.mem_append.mp hm with hm | hm
      · revert hm; decide +kernel
      · unfold intString at hm
        split at hm
        · rcases List.mem_cons.mp hm with hm | hm
          · revert hm; decide
          · exact not_mem_dec (by decide) hm
        · exact not_mem_dec (by decide) hm
    obtain ⟨g1, g2⟩ := last_split hs (h44 _) (h44 _)
    rw [dec_inj g1, intString_inj (List.append_cancel_left g2)]
  · simp only [octetText] at h
    exact congrArg _ (token_of_text (List.append_cancel_left (List.append_cancel_right (List.append_cancel_right h))) ho ho')
  · rename_i t n t' n'
    simp only [octetText] at h
    have e1 : ascii " containing " = ascii " containing" ++ [32] := by decide +kernel
    have h := List.append_cancel_right h
    rw [e1] at h
    have hs : ∀ (a : Bytes) (k : Nat), a ++ (ascii " containing" ++ [32]) ++ dec k = (a ++ ascii " containing") ++ 32 :: dec k := by
      intro a k; simp
    rw [hs, hs] at h
    obtain ⟨g1, g2⟩ := last_split h (not_mem_dec (by decide)) (not_mem_dec (by decide))
    have hn := dec_inj g2
    have g3 := List.append_cancel_right (List.append_cancel_right (List.append_cancel_right g1))
    simp only [List.append_assoc] at g3
    have g3 := List.append_cancel_left g3
    have ht := typ_of_text g3
    have hl : t.lit.length = t'.lit.length := by
      have := congrArg List.length g3
      rw [tokenString_eq, tokenString_eq, ← ht] at this
      have ho : Unexpected t := ho
      have ho' : Unexpected t' := ho'
      unfold Unexpected at ho ho'
      rw [← ht] at ho'
      cases hty : t.typ <;> rw [hty] at this ho ho' <;> simp only [List.length_append] at this ho ho' <;> omega
    have hlit : t.lit = t'.lit := (List.append_inj_right' (by simpa [← List.append_assoc] using g3) hl)
    rw [token_ext ht hlit, hn]

/-- C61: the text of an error that an octet counting parser passes to its listener identifies the error: framing errors are told from
each other (with the token and the numbers they name) and from the errors of messages, and these by kind and column. -/
theorem C61_octet_text_identifies (opts opts' : List Opt) (hfit : Fits opts) (hfit' : Fits opts') (bytes bytes' : Bytes) (sched sched' : List Read)
    (hs : Delivers sched bytes) (hs' : Delivers sched' bytes') (rs rs' : List Octet.Result)
    (h : results opts sched = some rs) (h' : results opts' sched' = some rs') (r r' : Octet.Result) (hr : r ∈ rs) (hr' : r' ∈ rs')
    (e e' : Octet.Error) (he : r.err = some e) (he' : r'.err = some e') (x x' : Bytes) (ht : octetText x e = octetText x' e') : e = e' :=
  octetText_inj x x' e e' (emits_errorOk ((C60_every_stream opts hfit bytes sched hs rs).mp h) r hr e he)
    (emits_errorOk ((C60_every_stream opts' hfit' bytes' sched' hs' rs').mp h') r' hr' e' he') ht

example : octetText [] (.notMsgLen ⟨.ILLEGAL, [120]⟩) = ascii "found ILLEGAL(x), expecting a MSGLEN" ∧
    octetText [] (.tooLong 10 9) = ascii "message too long to parse. was size 10, max length 9" ∧
    octetText [] (.notWS ⟨.EOF, []⟩) = ascii "found EOF, expecting a WS" ∧
    octetText [] (.notMsg ⟨.EOF, ascii "<1>1"⟩ 16) = ascii "found EOF after \"<1>1\", expecting a SYSLOGMSG containing 16 octets" := by
  refine ⟨?_, ?_, ?_, ?_⟩ <;> decide +kernel

end Verif.Props
