import Verif.Mini.OctetNew
import Verif.Mini.Fmt

/-!
# `octetcounting/tokens.go`, run symbolically, and the texts of the errors
-/

set_option linter.constructorNameAsVariable false
set_option linter.unusedSimpArgs false

namespace Verif.Mini
open Verif.Gen.Mini
open Verif.Octet (Token TokenType)

variable {E : Type}

/-- `TokenType.String` (octetcounting/tokens.go:40-45) -/
theorem typeString_call {X : Env0 E} (hp : X.prog = prog) (n : Nat) (t : TokenType) (w : W E) :
    call X (n + 1) .octetcounting_TokenType_String [.int .int (typNum t)] w = some (.ok (.str (Texts.tokenTypeString (Texts.tokenNumber t))) w) := by
  rw [call_fn hp prog_octetcounting_TokenType_String]
  cases t <;> rfl

theorem LitRep.toStr {lit : Val} {s : Bytes} (h : LitRep lit s) (w : W E) : (toStrVal lit : M E Val) w = some (.ok (.str s) w) := by
  rcases h with rfl | ⟨rfl, rfl⟩ <;> rfl

/-- `Token.String` (octetcounting/tokens.go:26-33) -/
theorem tokenString_call {X : Env0 E} (hp : X.prog = prog) (n : Nat) {v : Val} {t : Token} (h : TokRep v t) (w : W E) :
    call X (n + 2) .octetcounting_Token_String [v] w = some (.ok (.str (Texts.tokenString t)) w) := by
  rw [call_fn hp prog_octetcounting_Token_String]
  obtain ⟨lit, rfl, hl⟩ := h
  have e := typeString_call hp n t.typ w
  cases ht : t.typ <;> simp [ht, typNum] at e <;> simp [octetcounting_Token_String, ht, typNum, e, hl.toStr, Texts.tokenString]

/-- The text of a verb of a format for an argument: `%s` calls the `String` method of a token or of a token type, `%d` writes a number -/
def verb (X : Env0 E) (n : Nat) (w : W E) (c : UInt8) (v : Val) : Option Bytes :=
  if c = 115 then
    match v with
    | .str s => some s
    | .nil => some []
    | .struct .octetcounting_Token _ => match call X n .octetcounting_Token_String [v] w with
      | some (.ok (.str s) _) => some s
      | _ => none
    | .int .int _ => match call X n .octetcounting_TokenType_String [v] w with
      | some (.ok (.str s) _) => some s
      | _ => none
    | _ => none
  else if c = 100 then
    match v with
    | .int _ i => some (Texts.intString i)
    | _ => none
  else none

/-- `Error()` of `fmt.Errorf(format, args...)` -/
def errText (X : Env0 E) (n : Nat) (w : W E) : Val → Option Bytes
  | .err f args => sprintf (verb X n w) f args
  | _ => none

theorem verb_tok {X : Env0 E} (hp : X.prog = prog) (n : Nat) (w : W E) {v : Val} {t : Token} (h : TokRep v t) : verb X (n + 2) w 115 v = some (Texts.tokenString t) := by
  have e := tokenString_call hp n h w
  obtain ⟨lit, rfl, hl⟩ := h
  simp [verb, e]

theorem verb_typ {X : Env0 E} (hp : X.prog = prog) (n : Nat) (w : W E) (t : TokenType) : verb X (n + 2) w 115 (.int .int (typNum t)) = some (Texts.tokenTypeString (Texts.tokenNumber t)) := by
  have e := typeString_call hp (n + 1) t w
  simp [verb, e]

theorem verb_lit (X : Env0 E) (n : Nat) (w : W E) {v : Val} {s : Bytes} (h : LitRep v s) : verb X n w 115 v = some s := by
  rcases h with rfl | ⟨rfl, rfl⟩ <;> simp [verb]

theorem verb_int (X : Env0 E) (n : Nat) (w : W E) (k : Kind) (i : Int) : verb X n w 100 (.int k i) = some (Texts.intString i) := by
  simp [verb]

theorem errText_eq {X : Env0 E} (hp : X.prog = prog) (n : Nat) (w : W E) (x : Bytes) {v : Val} {e : Octet.Error} (h : ErrRep v (some e)) (hm : ∀ e', e ≠ .message e') :
    errText X (n + 2) w v = some (Texts.octetText x e) := by
  have nat : ∀ k : Nat, Texts.intString k = Spec.dec k := fun k => by simp [Texts.intString, show ¬ ((k : Int) < 0) by omega]
  have t3 : verb X (n + 2) w 115 (.int .int 3) = _ := verb_typ hp n w .MSGLEN
  have t2 : verb X (n + 2) w 115 (.int .int 2) = _ := verb_typ hp n w .WS
  have t4 : verb X (n + 2) w 115 (.int .int 4) = _ := verb_typ hp n w .SYSLOGMSG
  have f1 : ascii "found %s, expecting a %s" = ascii "found " ++ 37 :: 115 :: (ascii ", expecting a " ++ 37 :: 115 :: []) := rfl
  have f2 : ascii "message too long to parse. was size %d, max length %d" = ascii "message too long to parse. was size " ++ 37 :: 100 :: (ascii ", max length " ++ 37 :: 100 :: []) := rfl
  have f3 : ascii "found %s after \"%s\", expecting a %s containing %d octets" = ascii "found " ++ 37 :: 115 :: (ascii " after \"" ++ 37 :: 115 :: (ascii "\", expecting a " ++ 37 :: 115 :: (ascii " containing " ++ 37 :: 100 :: (ascii " octets" ++ [])))) := rfl
  have nil : sprintf (verb X (n + 2) w) [] [] = some [] := rfl
  cases e with
  | message e' => exact absurd rfl (hm e')
  | notMsgLen t =>
    obtain ⟨tok, ht, rfl⟩ := h
    show sprintf (verb X (n + 2) w) _ _ = _
    rw [f1, sprintf_lit _ _ _ _ (by decide), sprintf_verb (verb_tok hp n w ht), sprintf_lit _ _ _ _ (by decide), sprintf_verb t3, nil]
    simp [Texts.octetText]
  | notWS t =>
    obtain ⟨tok, ht, rfl⟩ := h
    show sprintf (verb X (n + 2) w) _ _ = _
    rw [f1, sprintf_lit _ _ _ _ (by decide), sprintf_verb (verb_tok hp n w ht), sprintf_lit _ _ _ _ (by decide), sprintf_verb t2, nil]
    simp [Texts.octetText]
  | tooLong k max =>
    obtain rfl := h
    show sprintf (verb X (n + 2) w) _ _ = _
    rw [f2, sprintf_lit _ _ _ _ (by decide), sprintf_verb (verb_int _ _ _ _ _), sprintf_lit _ _ _ _ (by decide), sprintf_verb (verb_int _ _ _ _ _), nil, nat]
    simp [Texts.octetText]
  | notMsg t k =>
    obtain ⟨tok, lit, ht, hl, rfl⟩ := h
    show sprintf (verb X (n + 2) w) _ _ = _
    rw [f3, sprintf_lit _ _ _ _ (by decide), sprintf_verb (verb_tok hp n w ht), sprintf_lit _ _ _ _ (by decide), sprintf_verb (verb_lit _ _ _ hl),
      sprintf_lit _ _ _ _ (by decide), sprintf_verb t4, sprintf_lit _ _ _ _ (by decide), sprintf_verb (verb_int _ _ _ _ _),
      sprintf_lit _ _ _ _ (by decide), nil, nat]
    simp [Texts.octetText]

end Verif.Mini
