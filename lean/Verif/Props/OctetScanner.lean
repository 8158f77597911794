import Verif.Spec.OctetScanner
import Verif.Props.Platform

/-!
# C115: the exported scanner of octet counting

`octetcounting.NewScanner(r, max)` and `Scan`, called any number of times. `Spec.Scanned`: `Verif/Spec/OctetScanner.lean`.
-/

namespace Verif.Props
open Verif.Spec Verif.Octet

/-- `Scan`, called `k` times: the tokens -/
def scanTimes : Nat → Scanner → List Token
  | 0, _ => []
  | k + 1, s => s.scan.1 :: scanTimes k s.scan.2

/-- the size of the buffer that `NewScanner(r, max)` makes -/
abbrev bufferSize (max : Int) : Nat := bufSize max

namespace Scn

/-- the scanner is at the bytes `x` -/
structure At (size n : Nat) (r : Bool) (x : Bytes) (s : Scanner) : Prop where
  abs : s.abs = ⟨x.map some, n, r⟩
  ok : s.r.Ok
  cap : s.r.cap = size
  len : n < 2 ^ 64

theorem At.msglen {size n : Nat} {r : Bool} {x : Bytes} {s : Scanner} (h : At size n r x s) : s.msglen = n := congrArg PS.msglen h.abs
theorem At.ready {size n : Nat} {r : Bool} {x : Bytes} {s : Scanner} (h : At size n r x s) : s.ready = r := congrArg PS.ready h.abs
theorem At.inp {size n : Nat} {r : Bool} {x : Bytes} {s : Scanner} (h : At size n r x s) : s.r.abs = x.map some := congrArg PS.inp h.abs

theorem front_all (n : Nat) (x : Bytes) : front n (x.map some) = x.take n := by
  have := front_somes n x []
  rw [List.append_nil] at this
  rw [this]
  cases n - x.length <;> simp [front]

/-- a call that does not meet a message too long for the buffer -/
theorem At.plain {size n : Nat} {r : Bool} {x : Bytes} {s : Scanner} (h : At size n r x s) (hc : toInt n ≤ size ∨ x.head? ≠ some 60 ∨ r = false) {tok : Token} {n' : Nat} {r' : Bool} {x' : Bytes}
    (hp : pscan ⟨x.map some, n, r⟩ = (tok, ⟨x'.map some, n', r'⟩)) : s.scan.1 = tok ∧ At size n' r' x' s.scan.2 := by
  have h64 : s.msglen < 2 ^ 64 := by rw [h.msglen]; exact h.len
  obtain ⟨h1, h2, h3⟩ := scan_spec s h.ok (by
    rw [h.msglen, h.cap, h.ready, h.inp]
    refine hc.imp id (Or.imp (fun hx => ?_) id)
    cases x with
    | nil => simp [pread]
    | cons b x => simpa [pread] using hx) h64
  have hl := pscan_msglen s.abs (by show s.msglen < _; exact h64)
  rw [h.abs, hp] at h1 hl
  simp only [Prod.mk.injEq] at h1
  exact ⟨h1.1.symm, h1.2.symm, h2, h3.trans h.cap, hl⟩

theorem step {size n n' : Nat} {r r' : Bool} {x x' : Bytes} {tok : Token} {s : Scanner} (hs : Scans size n r x tok n' r' x') (h : At size n r x s) : s.scan.1 = tok ∧ At size n' r' x' s.scan.2 := by
  cases hs with
  | eof => exact h.plain (Or.inr (Or.inl (by simp))) rfl
  | nul => exact h.plain (Or.inr (Or.inl (by simp))) (by simp [pscan, pread, isNonZeroDigit])
  | length hl =>
    refine h.plain (Or.inr (Or.inl ?_)) (pscan_lenText hl n r)
    obtain ⟨c, t, rfl, hd⟩ := lenText_digit hl
    simp only [List.head?_cons, ne_eq, Option.some.injEq]
    rintro rfl
    exact absurd hd (by decide)
  | space => exact h.plain (Or.inr (Or.inl (by simp))) (by simp [pscan, pread, isNonZeroDigit])
  | @message m rest h60 h63 hsz =>
    refine h.plain (Or.inl (by rw [toInt, if_pos h63]; omega)) ?_
    cases m with
    | nil => simp at h60
    | cons b m =>
      obtain rfl : b = 60 := by simpa using h60
      have hf : front (m.length + 1) (some 60 :: (m ++ x').map some) = 60 :: m := by
        have := front_all (m.length + 1) (60 :: (m ++ x'))
        rw [List.map_cons] at this
        rw [this]; simp
      simp only [List.length_cons] at h63
      have h63' : m.length + 1 < 9223372036854775808 := by omega
      simp [pscan, pread, isNonZeroDigit, ppeek, h63', -List.map_append]
      simp only [hf]
      simp
  | short h60 hlt h63 hsz =>
    refine h.plain (Or.inl (by rw [toInt, if_pos h63]; omega)) ?_
    cases x with
    | nil => simp at h60
    | cons b m =>
      obtain rfl : b = 60 := by simpa using h60
      have hf : front n (some 60 :: m.map some) = 60 :: m := by
        have := front_all n (60 :: m)
        rw [List.map_cons] at this
        rw [this, List.take_of_length_le (by omega)]
      simp only [List.length_cons] at hlt
      have h63' : n < 9223372036854775808 := by omega
      simp [pscan, pread, isNonZeroDigit, ppeek, h63', show 0 < n by omega, hf, hlt]
  | full h60 hsz h63 =>
    have h1 : toInt n = n := by rw [toInt, if_pos h63]
    obtain ⟨g1, g2, g3, g4⟩ := scan_full s h.ok (by rw [h.msglen]; exact h.len) (by rw [h.msglen, h.cap, h1]; omega) (by
      rw [h.inp]
      cases x with
      | nil => simp at h60
      | cons b x => simpa [pread] using h60) h.ready
    rw [h.inp, h.cap, front_all] at g1
    exact ⟨g1, g2.trans h.abs, g3, g4.trans h.cap, h.len⟩
  | negative h60 h63 =>
    have h1 : toInt n ≤ size := by rw [toInt, if_neg (by omega)]; have := h.len; omega
    refine h.plain (Or.inl h1) ?_
    cases x with
    | nil => simp at h60
    | cons b m =>
      obtain rfl : b = 60 := by simpa using h60
      have h63' : ¬ n < 9223372036854775808 := by omega
      simp [pscan, pread, isNonZeroDigit, h63', show 0 < n by omega]
  | @other _ _ b x hd h0 h32 hm =>
    have hc : toInt n ≤ size ∨ (b :: x').head? ≠ some 60 ∨ r = false := by
      by_cases hb : b = 60
      · cases r with
        | false => exact Or.inr (Or.inr rfl)
        | true =>
          have : n = 0 := by
            rcases Nat.eq_zero_or_pos n with h | h
            · exact h
            · exact absurd ⟨hb, h, rfl⟩ hm
          left; rw [this]; simp [toInt]
      · exact Or.inr (Or.inl (by simpa using hb))
    refine h.plain hc ?_
    have hz : isNonZeroDigit b = false := by
      cases hz : isNonZeroDigit b with
      | true => exact absurd (digit_nz.mp hz) hd
      | false => rfl
    have hm' : ¬ (b = 60 ∧ 0 < n ∧ r = true) := hm
    simp [pscan, pread, hz, h0, h32, hm']

theorem scans_exist (size n : Nat) (r : Bool) (x : Bytes) : ∃ tok n' r' x', Scans size n r x tok n' r' x' := by
  cases x with
  | nil => exact ⟨_, _, _, _, .eof⟩
  | cons b x =>
    by_cases hd : Digit b
    · obtain ⟨w, rest, h⟩ := lenText_exists (x := x) hd
      exact ⟨_, _, _, _, .length h⟩
    by_cases h0 : b = 0
    · subst h0; exact ⟨_, _, _, _, .nul⟩
    by_cases h32 : b = 32
    · subst h32; exact ⟨_, _, _, _, .space⟩
    by_cases hm : b = 60 ∧ 0 < n ∧ r = true
    · obtain ⟨rfl, hn, rfl⟩ := hm
      have h60 : (60 :: x : Bytes).head? = some 60 := rfl
      by_cases h63 : n < 2 ^ 63
      · by_cases hsz : n ≤ size
        · by_cases hl : (60 :: x : Bytes).length < n
          · exact ⟨_, _, _, _, .short h60 hl h63 hsz⟩
          · have hlen : ((60 :: x : Bytes).take n).length = n := by rw [List.length_take]; omega
            have hh : ((60 :: x : Bytes).take n).head? = some 60 := by
              cases n with
              | zero => omega
              | succ n => rfl
            have := Scans.message (size := size) (m := (60 :: x : Bytes).take n) (rest := (60 :: x : Bytes).drop n) hh (by omega) (by omega)
            rw [hlen, List.take_append_drop] at this
            exact ⟨_, _, _, _, this⟩
        · exact ⟨_, _, _, _, .full h60 (by omega) h63⟩
      · exact ⟨_, _, _, _, .negative h60 (by omega)⟩
    · exact ⟨_, _, _, _, .other hd h0 h32 hm⟩

theorem scanned {size : Nat} : ∀ {toks : List Token} {n : Nat} {r : Bool} {x : Bytes} {s : Scanner}, Scanned size n r x toks → At size n r x s → scanTimes toks.length s = toks
  | [], _, _, _, _, _, _ => rfl
  | tok :: toks, _, _, _, _, .cons h1 h2, h => by
    obtain ⟨g1, g2⟩ := step h1 h
    rw [List.length_cons, scanTimes, g1, scanned h2 g2]

theorem scanned_exists (size : Nat) : ∀ (k n : Nat) (r : Bool) (x : Bytes), ∃ toks, Scanned size n r x toks ∧ toks.length = k
  | 0, _, _, _ => ⟨[], .nil, rfl⟩
  | k + 1, n, r, x => by
    obtain ⟨tok, n', r', x', h⟩ := scans_exist size n r x
    obtain ⟨toks, h1, h2⟩ := scanned_exists size k n' r' x'
    exact ⟨tok :: toks, .cons h h1, by rw [List.length_cons, h2]⟩

theorem start {sched : List Read} {bytes : Bytes} (hs : Delivers sched bytes) (max : Int) : At (bufSize max) 0 false bytes (newScanner sched max) := by
  refine ⟨?_, ⟨?_, by simp [newScanner, newReader]⟩, ?_, Nat.two_pow_pos 64⟩
  · have := delivers_delivered hs
    simp only [delivered] at this
    simp [newScanner, newReader, Scanner.abs, Reader.abs, this]
  · simp only [newScanner, newReader]; split <;> omega
  · simp only [newScanner, newReader, bufSize]

end Scn

open Scn

/-- **C115**: for every stream, every way of delivering it, every maximum and every number of calls, `Scan` returns the tokens that the specification says, and no others. -/
theorem C115_every_stream (bytes : Bytes) (sched : List Read) (hs : Delivers sched bytes) (max : Int) (k : Nat) (toks : List Token) :
    scanTimes k (newScanner sched max) = toks ↔ toks.length = k ∧ Scanned (bufferSize max) 0 false bytes toks := by
  constructor
  · rintro rfl
    obtain ⟨toks, h1, h2⟩ := scanned_exists (bufferSize max) k 0 false bytes
    have := scanned h1 (start hs max)
    rw [h2] at this
    rw [this]
    exact ⟨h2, h1⟩
  · rintro ⟨rfl, h⟩
    exact scanned h (start hs max)


/-- a scanner in any state -/
def Scn.inState (max : Int) (n : Nat) (r : Bool) (x : Bytes) : Scanner := { newScanner [⟨x, false⟩] max with msglen := n, ready := r }

theorem Scn.inState_at (max : Int) {n : Nat} (hn : n < 2 ^ 64) (r : Bool) (x : Bytes) : At (bufSize max) n r x (inState max n r x) := by
  have h := start (sched := [⟨x, false⟩]) (bytes := x) ⟨by simp, fun a q b h => by
    cases a with
    | nil => simp at h; obtain ⟨rfl, rfl⟩ := h; intro hc; cases hc
    | cons y a => simp at h, fun a e b h hp => by
    have := congrArg List.length h
    simp only [List.length_append, List.length_cons, List.length_nil] at this
    omega⟩ max
  exact ⟨by
    have := h.inp
    show (⟨_, _, _⟩ : PS) = _
    rw [show (inState max n r x).r = (newScanner [⟨x, false⟩] max).r from rfl, this]
    rfl, h.ok, h.cap, hn⟩

/-- **C115**: the specification leaves no choice and no gap. -/
theorem C115_one_outcome (max : Int) (n : Nat) (hn : n < 2 ^ 64) (r : Bool) (x : Bytes) : ∃ tok n' r' x', Scans (bufferSize max) n r x tok n' r' x' ∧
    ∀ tok2 n2 r2 x2, Scans (bufferSize max) n r x tok2 n2 r2 x2 → tok2 = tok ∧ n2 = n' ∧ r2 = r' ∧ x2 = x' := by
  obtain ⟨tok, n', r', x', h⟩ := scans_exist (bufferSize max) n r x
  refine ⟨tok, n', r', x', h, fun tok2 n2 r2 x2 h2 => ?_⟩
  obtain ⟨g1, g2⟩ := step h (inState_at max hn r x)
  obtain ⟨k1, k2⟩ := step h2 (inState_at max hn r x)
  have e := g2.abs.symm.trans k2.abs
  simp only [PS.mk.injEq] at e
  exact ⟨k1.symm.trans g1, e.2.1.symm, e.2.2.symm, (List.map_inj_right (fun _ _ h => Option.some.inj h)).mp e.1.symm⟩

/-- what a call of `Scan` consumes: the text of its token; of an announced length also a NUL that follows it; for the token `EOF` a NUL, or nothing -/
def Consumes (tok : Token) (piece : Bytes) : Prop :=
  match tok.typ with
  | .EOF => piece = [0] ∨ piece = []
  | .MSGLEN => piece = tok.lit ∨ piece = tok.lit ++ [0]
  | _ => piece = tok.lit

/-- **C115** (nothing is lost and nothing comes twice): what is consumed, piece by piece, is the beginning of the stream. -/
theorem C115_consumed (bytes : Bytes) (sched : List Read) (hs : Delivers sched bytes) (max : Int) (k : Nat) :
    ∃ (pieces : List Bytes) (rest : Bytes), bytes = pieces.flatten ++ rest ∧ pieces.length = k ∧
      ∀ (i : Nat) tok piece, (scanTimes k (newScanner sched max))[i]? = some tok → pieces[i]? = some piece → Consumes tok piece := by
  obtain ⟨hl, h⟩ := (C115_every_stream bytes sched hs max k _).mp rfl
  revert h hl
  generalize scanTimes k (newScanner sched max) = toks
  intro hl h
  subst hl
  clear hs
  revert h
  generalize 0 = n
  generalize false = r
  intro h
  induction h with
  | @nil _ _ x => exact ⟨[], x, rfl, rfl, fun i tok piece h => by simp at h⟩
  | @cons _ _ _ _ x x' tok toks h1 h2 ih =>
    obtain ⟨pieces, rest, e1, e2, e3⟩ := ih
    have one : ∃ piece, x = piece ++ x' ∧ Consumes tok piece := by
      cases h1 with
      | eof => exact ⟨[], rfl, Or.inr rfl⟩
      | nul => exact ⟨[0], rfl, Or.inl rfl⟩
      | length hl =>
        cases hl with
        | @plain c w _ _ _ _ => exact ⟨c :: w, by simp, Or.inl rfl⟩
        | @nul c w _ _ _ => exact ⟨c :: w ++ [0], by simp, Or.inr rfl⟩
      | space => exact ⟨[32], rfl, rfl⟩
      | @message m => exact ⟨m, rfl, rfl⟩
      | short => exact ⟨[], rfl, Or.inr rfl⟩
      | full => exact ⟨[], rfl, Or.inr rfl⟩
      | negative => exact ⟨[], rfl, Or.inr rfl⟩
      | @other _ _ b => exact ⟨[b], rfl, rfl⟩
    obtain ⟨piece, h3, h4⟩ := one
    refine ⟨piece :: pieces, rest, by rw [h3, e1]; simp, by simp [e2], fun i t p ht hp => ?_⟩
    cases i with
    | zero =>
      obtain rfl : tok = t := by simpa using ht
      obtain rfl : piece = p := by simpa using hp
      exact h4
    | succ i => exact e3 i t p (by simpa using ht) (by simpa using hp)

theorem Scn.stays {size n : Nat} {r : Bool} {x : Bytes} {tok : Token} {toks : List Token} (h : Scanned size n r x toks) (hself : Scans size n r x tok n r x)
    (huniq : ∀ tok2 n2 r2 x2, Scans size n r x tok2 n2 r2 x2 → tok2 = tok ∧ n2 = n ∧ r2 = r ∧ x2 = x) : ∀ t ∈ toks, t = tok := by
  generalize hx : x = x0 at h
  generalize hn : n = n0 at h
  generalize hr : r = r0 at h
  induction h with
  | nil => intro t ht; cases ht
  | cons h1 h2 ih =>
    subst hx; subst hn; subst hr
    obtain ⟨rfl, rfl, rfl, rfl⟩ := huniq _ _ _ _ h1
    intro t ht
    rcases List.mem_cons.mp ht with rfl | ht
    · rfl
    · exact ih rfl rfl rfl t ht

/-- **C115** (an incomplete message ends the stream for good): when the token `EOF` shows a text, every later call returns the same token. -/
theorem C115_stuck (bytes : Bytes) (sched : List Read) (hs : Delivers sched bytes) (max : Int) (k : Nat) (a b : List Token) (t : Token)
    (h : scanTimes k (newScanner sched max) = a ++ t :: b) (ht : t.typ = .EOF) (hl : t.lit ≠ []) : ∀ u ∈ b, u = t := by
  obtain ⟨-, h'⟩ := (C115_every_stream bytes sched hs max k _).mp h
  clear hs h
  have hn : (0 : Nat) < 2 ^ 64 := Nat.two_pow_pos 64
  revert h' hn
  generalize 0 = n
  generalize false = r
  intro h hn
  induction a generalizing n r bytes with
  | cons c a ih =>
    cases h with
    | @cons _ n' _ _ _ _ _ _ h1 h2 =>
      exact ih (h := h2) (hn := (step h1 (inState_at max hn _ _)).2.len)
  | nil =>
    cases h with
    | cons h1 h2 =>
      have stay : Scans (bufSize max) n r bytes t n r bytes → Scanned (bufSize max) n r bytes b → ∀ u ∈ b, u = t := by
        intro g1 g2
        obtain ⟨tok, n', r', x', -, g3⟩ := C115_one_outcome max n hn r bytes
        obtain ⟨rfl, rfl, rfl, rfl⟩ := g3 _ _ _ _ g1
        exact stays g2 g1 g3
      cases h1 with
      | eof => exact absurd rfl hl
      | nul => exact absurd rfl hl
      | length => cases ht
      | space => cases ht
      | message => cases ht
      | short a1 a2 a3 a4 => exact stay (.short a1 a2 a3 a4) h2
      | full a1 a2 a3 => exact stay (.full a1 a2 a3) h2
      | negative => exact absurd rfl hl
      | other => cases ht

/-- **C115** (frames): the stream of frames that fit the buffer gives length, space and message of each, and `EOF` ever after. -/
theorem C115_frames (ms : List Bytes) (max : Int) (hm : ∀ m ∈ ms, m.head? = some 60 ∧ m.length ≤ bufferSize max) (sched : List Read) (hs : Delivers sched (ms.flatMap octetFrame)) (j : Nat) :
    scanTimes (3 * ms.length + j) (newScanner sched max) =
      ms.flatMap (fun m => [⟨.MSGLEN, dec m.length⟩, ⟨.WS, [32]⟩, ⟨.SYSLOGMSG, m⟩]) ++ List.replicate j ⟨.EOF, []⟩ := by
  rw [C115_every_stream _ sched hs]
  clear hs
  refine ⟨?_, ?_⟩
  · rw [List.length_append, List.length_replicate]
    congr 1
    induction ms with
    | nil => rfl
    | cons m ms ih => simp [ih fun m hm' => hm m (by simp [hm'])]; omega
  · suffices H : ∀ n r, Scanned (bufferSize max) n r (ms.flatMap octetFrame) (ms.flatMap (fun m => [⟨.MSGLEN, dec m.length⟩, ⟨.WS, [32]⟩, ⟨.SYSLOGMSG, m⟩]) ++ List.replicate j ⟨.EOF, []⟩) from H 0 false
    induction ms with
    | nil =>
      intro n r
      simp only [List.flatMap_nil, List.nil_append]
      induction j generalizing r with
      | zero => exact .nil
      | succ j ih => exact .cons .eof (ih false)
    | cons m ms ih =>
      intro n r
      have ⟨h60, hsz⟩ := hm m (by simp)
      have h63 : m.length < 2 ^ 63 := by
        have : bufSize max < 2 ^ 63 := by
          unfold bufSize wrapInt
          split <;> omega
        exact Nat.lt_of_le_of_lt hsz this
      have e : (m :: ms).flatMap octetFrame = dec m.length ++ 32 :: (m ++ ms.flatMap octetFrame) := by simp [octetFrame]
      rw [e, List.flatMap_cons]
      have hv : lenValue (dec m.length) = m.length := lenValue_dec (by omega)
      refine .cons (.length (lenText_dec _ _)) ?_
      rw [hv]
      exact .cons .space (.cons (.message h60 h63 hsz) (ih (fun m hm' => hm m (by simp [hm'])) 0 false))

/-- **C115** (what the parser refuses): between the space and the `<` other characters may stand; each is a token `ILLEGAL`, and then comes the message. -/
theorem C115_other_between (m junk rest : Bytes) (max : Int) (hm : m.head? = some 60) (hsz : m.length ≤ bufferSize max) (hj : ∀ b ∈ junk, ¬ Digit b ∧ b ≠ 0 ∧ b ≠ 32 ∧ b ≠ 60)
    (sched : List Read) (hs : Delivers sched (dec m.length ++ 32 :: (junk ++ m ++ rest))) :
    scanTimes (junk.length + 3) (newScanner sched max) = ⟨.MSGLEN, dec m.length⟩ :: ⟨.WS, [32]⟩ :: (junk.map (fun b => ⟨.ILLEGAL, [b]⟩) ++ [⟨.SYSLOGMSG, m⟩]) := by
  rw [C115_every_stream _ sched hs]
  refine ⟨by simp, ?_⟩
  have h63 : m.length < 2 ^ 63 := by
    have : bufSize max < 2 ^ 63 := by
      unfold bufSize wrapInt
      split <;> omega
    exact Nat.lt_of_le_of_lt hsz this
  refine .cons (.length (lenText_dec _ _)) (.cons .space ?_)
  rw [lenValue_dec (by omega)]
  clear hs
  induction junk with
  | nil => exact .cons (.message hm h63 hsz) .nil
  | cons b junk ih =>
    obtain ⟨h1, h2, h3, h4⟩ := hj b (by simp)
    exact .cons (.other h1 h2 h3 fun h => h4 h.1) (ih fun b hb => hj b (by simp [hb]))

/-! ## Instances -/

example : scanTimes 6 (newScanner [⟨ascii "4 <1>", false⟩, ⟨ascii "x3 ?<2>", false⟩] 100) =
    [⟨.MSGLEN, ascii "4"⟩, ⟨.WS, [32]⟩, ⟨.SYSLOGMSG, ascii "<1>x"⟩, ⟨.MSGLEN, ascii "3"⟩, ⟨.WS, [32]⟩, ⟨.ILLEGAL, ascii "?"⟩] := by decide +kernel

/-- an incomplete message, again and again; a NUL, and the scanner goes on -/
example : scanTimes 4 (newScanner [⟨ascii "9 <1>", false⟩] 100) = [⟨.MSGLEN, ascii "9"⟩, ⟨.WS, [32]⟩, ⟨.EOF, ascii "<1>"⟩, ⟨.EOF, ascii "<1>"⟩] ∧
    scanTimes 4 (newScanner [⟨[0, 51, 32, 60], false⟩] 100) = [⟨.EOF, []⟩, ⟨.MSGLEN, [51]⟩, ⟨.WS, [32]⟩, ⟨.EOF, [60]⟩] := by decide +kernel

/-- the cases that hypotheses speak of -/
example : (∀ m ∈ [ascii "<1>x", ascii "<2>"], m.head? = some 60 ∧ m.length ≤ bufferSize 100) ∧ (∀ b ∈ ascii "?!", ¬ Digit b ∧ b ≠ 0 ∧ b ≠ 32 ∧ b ≠ 60) := by decide +kernel

end Verif.Props
