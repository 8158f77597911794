import Verif.Octet.PlatformSpec
import Verif.Props.OctetStream
import Verif.Props.Options

/-!
# C81: octet counting on platforms with an `int` of 32 bits

The length of a frame is read as a 64 bit number and converted to `int` (octetcounting/parser.go:89, octetcounting/scanner.go:124). With
32 bits the conversion drops the upper half: this is the case on the platforms 386, arm and mips, for which Go programs are often made.
`Spec.EmitsOn`: `Verif/Spec/OctetPlatform.lean`.
-/

namespace Verif.Props
open Verif.Spec Verif.Octet
open Verif.Rfc5424 (parse1 SyslogMessage)

/-- `NewParser(options...).Parse(reader)` where `int` has `bits` bits: the results passed to the listener -/
def resultsOn (bits : Nat) (opts : List Opt) (sched : List Read) : Option (List Result) := ((newParser opts).parseB bits sched).map Prod.fst

/-- the configured maximum is an `int` and 20 below the largest -/
def FitsOn (bits : Nat) (opts : List Opt) : Prop := maxLength opts < 2 ^ (bits - 1) - 20

instance (bits : Nat) (opts : List Opt) : Decidable (FitsOn bits opts) := inferInstanceAs (Decidable (_ < _))

/-- C81: the other theorems about octet counting are about 64 bits. -/
theorem C81_is_64 (opts : List Opt) (sched : List Read) : resultsOn 64 opts sched = results opts sched := by
  rw [resultsOn, results, parseB_64]

theorem idleB_new (opts : List Opt) : IdleB (isBestEffort opts) (isBestEffort opts) (maxLength opts) (newParser opts) :=
  let h := idle_new opts
  ⟨h.hbe, h.hmax, h.ibe, h.ico, h.step⟩

theorem wrap_fits {bits : Nat} (hb : bits = 32 ∨ bits = 64) {max : Int} (h : max < 2 ^ (bits - 1) - 20) :
    max ≤ 0 ∨ max ≤ wrapOn bits (max + 20) := by
  by_cases h0 : max ≤ 0
  · exact Or.inl h0
  right
  rcases hb with rfl | rfl
  · have h : max < 2 ^ 31 - 20 := h
    rw [wrapOn, Int.bmod_def]; split <;> omega
  · have h : max < 2 ^ 63 - 20 := h
    rw [wrapOn, Int.bmod_def]; split <;> omega

/-- C81: for all options, for every stream of bytes and every way it is delivered, on either kind of platform, the listener gets the results
`rs` exactly if the specification says so. -/
theorem C81_every_stream (bits : Nat) (hb : bits = 32 ∨ bits = 64) (opts : List Opt) (hfit : FitsOn bits opts) (bytes : Bytes)
    (sched : List Read) (hs : Delivers sched bytes) (rs : List Result) :
    resultsOn bits opts sched = some rs ↔ EmitsOn bits (isBestEffort opts) (isBestEffort opts) (maxLength opts) bytes rs := by
  obtain ⟨p', h, -⟩ := parseB_idle (idleB_new opts) (wrap_fits hb hfit) sched
  rw [resultsOn, h, delivers_delivered hs, emitsOn_iff]
  exact ⟨fun h => Option.some.inj h, fun h => congrArg some h⟩

/-- C81: the specification leaves no choice and no gap. -/
theorem C81_one_outcome (bits : Nat) (go be : Bool) (max : Int) (bytes : Bytes) :
    ∃ rs, EmitsOn bits go be max bytes rs ∧ ∀ rs', EmitsOn bits go be max bytes rs' → rs' = rs :=
  ⟨_, emitsOn_iff.mpr rfl, fun _ h => (emitsOn_iff.mp h).symm⟩

/-! ## Where the platforms agree -/

theorem asIntOn_small {bits : Nat} (hb : bits = 32 ∨ bits = 64) {n : Nat} (h : n < 2 ^ 31) : asIntOn bits n = n := by
  rcases hb with rfl | rfl
  · rw [asIntOn, Int.bmod_def]; split <;> omega
  · rw [asIntOn, Int.bmod_def]; split <;> omega

theorem asInt_small {n : Nat} (h : n < 2 ^ 31) : asInt n = n := by
  rw [asInt, if_pos (by omega)]

theorem emits_emitsOn {bits : Nat} (hb : bits = 32 ∨ bits = 64) {be : Bool} {max : Int} {x : Bytes} {rs : List Result}
    (h : Emits be max x rs) (hsmall : ∀ n, Announces max x n → n < 2 ^ 31) : EmitsOn bits be be max x rs := by
  have same : ∀ {n : Nat}, n < 2 ^ 31 → asInt n = asIntOn bits n := fun h => by rw [asInt_small h, asIntOn_small hb h]
  have frame : ∀ {x m rest : Bytes}, (∀ n, Announces max x n → n < 2 ^ 31) → FrameAt max x m rest → FrameOn bits max x m rest := by
    rintro x m rest hs ⟨w, h1, h2, h3, h4, h5⟩
    have hn := hs _ (.here h1)
    refine ⟨w, h1, ?_, by rw [asIntOn_small hb hn, h2], ?_, h5⟩
    · intro h0
      have : m = [] := List.length_eq_zero_iff.mp (by omega)
      subst this; simp at h3
    · cases m with
      | nil => simp at h3
      | cons c m => simpa using h3
  have num : ∀ {x w rest : Bytes} {tok : Token}, (∀ n, Announces max x n → n < 2 ^ 31) → LenText x w (32 :: rest) → Found rest tok →
      (if tok.typ = .MSGLEN then lenValue tok.lit else lenValue w) < 2 ^ 31 := by
    intro x w rest tok hs hl hf
    by_cases ht : tok.typ = .MSGLEN
    · rw [if_pos ht]
      cases hf with
      | len h => exact hs _ (.instead hl h)
      | eof => simp at ht
      | nul => simp at ht
      | space => simp at ht
      | other => simp at ht
    · rw [if_neg ht]; exact hs _ (.here hl)
  induction h with
  | noLen hf ht => exact .noLen hf ht
  | tooLong hl ht => exact .tooLong hl (by rw [← same (hsmall _ (.here hl))]; exact ht)
  | noSpace hl hm hf ht => exact .noSpace hl (by rw [← same (hsmall _ (.here hl))]; exact hm) hf ht
  | noMsg hl hm hf hz hn hbe =>
    exact .noMsg hl (by rw [← same (hsmall _ (.here hl))]; exact hm) hf hz hn (by rw [hn] at hbe ⊢; rw [← same (num hsmall hl hf)]; exact hbe)
  | noMsgBest hl hm hf hz hn hbe hlt =>
    exact .noMsgBest hl (by rw [← same (hsmall _ (.here hl))]; exact hm) hf hz hn hbe
      (by rw [hn] at hlt ⊢; rw [← same (num hsmall hl hf)]; exact hlt)
  | huge hl hh hm =>
    have := hsmall _ (.here hl)
    omega
  | short hl hs h63 hm =>
    have hn := hsmall _ (.here hl)
    refine .short hl ?_ (by rw [← same hn]; exact hm)
    rw [asIntOn_small hb hn]; exact Int.ofNat_lt.mpr hs
  | wrong hf hbe he => exact .wrong (frame hsmall hf) hbe he
  | last hf hok hr => exact .last (frame hsmall hf) hok hr
  | more hf hok hr h0 _ ih => exact .more (frame hsmall hf) hok hr h0 (ih fun n hn => hsmall n (.later hf hn))

/-- C81: as long as every length that is read is below `2 ^ 31`, the results on a platform with 32 bits are those on a platform with 64
bits. -/
theorem C81_platforms_agree (opts : List Opt) (hfit : FitsOn 32 opts) (bytes : Bytes) (sched : List Read) (hs : Delivers sched bytes)
    (hsmall : ∀ n, Announces (maxLength opts) bytes n → n < 2 ^ 31) : resultsOn 32 opts sched = results opts sched := by
  have hfit' : Fits opts := by
    have h : maxLength opts < 2 ^ 31 - 20 := hfit
    show maxLength opts < 2 ^ 63 - 20
    omega
  obtain ⟨rs, h, -⟩ := C60_one_outcome (isBestEffort opts) (maxLength opts) bytes
  rw [(C60_every_stream opts hfit' bytes sched hs rs).mpr h]
  exact (C81_every_stream 32 (Or.inl rfl) opts hfit bytes sched hs rs).mpr (emits_emitsOn (Or.inl rfl) h hsmall)

theorem lenText_unique {x w r w' r' : Bytes} (h : LenText x w r) (h' : LenText x w' r') : w = w' ∧ r = r' := by
  have e := pscan_lenText h 0 false
  rw [pscan_lenText h' 0 false] at e
  simp only [Prod.mk.injEq, Token.mk.injEq, PS.mk.injEq] at e
  refine ⟨e.1.2.symm, ?_⟩
  have := e.2.1
  exact ((List.map_inj_right (fun _ _ h => Option.some.inj h)).mp this).symm

theorem lenText_digit {x w r : Bytes} (h : LenText x w r) : ∃ c t, x = c :: t ∧ Digit c := by
  cases h with
  | plain hd => exact ⟨_, _, rfl, hd⟩
  | nul hd => exact ⟨_, _, rfl, hd⟩

theorem lenText_dec (n : Nat) (r : Bytes) : LenText (dec n ++ 32 :: r) (dec n) (32 :: r) := by
  have hd := dec_digits n
  have hn := dec_ne_nil n
  generalize dec n = ds at *
  cases ds with
  | nil => exact absurd rfl hn
  | cons c w =>
    rw [List.cons_append]
    refine .plain (hd c (by simp)) ?_ ?_
    · intro b hb
      have := hd b (by simp [hb])
      simp only [Digitish]; omega
    · rintro b t hbt
      simp only [List.cons.injEq] at hbt
      rw [← hbt.1]; decide

theorem lenValue_dec {n : Nat} (h : n < 2 ^ 64) : lenValue (dec n) = n := by
  rw [← parseUint_value, parseUint_val _ _ (dec_digits _) (by omega), numVal_dec, if_pos (by omega)]
  simp

/-- the lengths in a stream of correct frames -/
theorem announces_frames {max : Int} (ms : List Bytes) (hms : ∀ m ∈ ms, m.head? = some 60 ∧ m.length < 2 ^ 63) (n : Nat)
    (h : Announces max (ms.flatMap octetFrame) n) : ∃ m ∈ ms, n = m.length := by
  induction ms with
  | nil =>
    rw [List.flatMap_nil] at h
    have hno : ∀ {w r : Bytes}, ¬ LenText [] w r := by intro w r h; cases h
    cases h with
    | here h => exact absurd h hno
    | instead h => exact absurd h hno
    | later h => obtain ⟨w, h, -⟩ := h; exact absurd h hno
  | cons m ms ih =>
    obtain ⟨h60, h63⟩ := hms m (by simp)
    have e : (m :: ms).flatMap octetFrame = dec m.length ++ 32 :: (m ++ ms.flatMap octetFrame) := by simp [octetFrame]
    rw [e] at h
    have hl := lenText_dec m.length (m ++ ms.flatMap octetFrame)
    cases h with
    | here h =>
      obtain ⟨rfl, -⟩ := lenText_unique h hl
      exact ⟨m, by simp, lenValue_dec (by omega)⟩
    | instead h h' =>
      exfalso
      obtain ⟨-, he⟩ := lenText_unique h hl
      simp only [List.cons.injEq, true_and] at he
      rw [he] at h'
      cases m with
      | nil => simp at h60
      | cons c m =>
        have hc : c = 60 := by simpa using h60
        subst hc
        obtain ⟨c, t, hx, hd⟩ := lenText_digit h'
        rw [List.cons_append, List.cons.injEq] at hx
        rw [← hx.1] at hd
        exact absurd hd (by decide)
    | @later _ m' rest' _ hf h =>
      obtain ⟨w, h1, h2, h3, -⟩ := hf
      obtain ⟨rfl, he⟩ := lenText_unique h1 hl
      rw [lenValue_dec (by omega)] at h2
      simp only [List.cons.injEq, true_and] at he
      have hr : rest' = ms.flatMap octetFrame := (List.append_inj he h2.symm).2
      rw [hr] at h
      obtain ⟨m2, hm2, hn⟩ := ih (fun m hm => hms m (by simp [hm])) h
      exact ⟨m2, by simp [hm2], hn⟩

/-- C81: so correct frames arrive on a platform with 32 bits, too (compare C39). -/
theorem C81_round_trip (opts : List Opt) (hfit : FitsOn 32 opts) (l : List (Bytes × SyslogMessage)) (hne : l ≠ [])
    (hacc : ∀ x ∈ l, parse1 {} x.1 = some ⟨some x.2, none⟩) (hmax : ∀ x ∈ l, (x.1.length : Int) ≤ maxLength opts)
    (sched : List Read) (hs : Delivers sched ((l.map Prod.fst).flatMap octetFrame)) :
    resultsOn 32 opts sched = some (l.map fun x => ⟨some x.2, none⟩) := by
  have hfit32 : maxLength opts < 2 ^ 31 - 20 := hfit
  rw [C81_platforms_agree opts hfit _ sched hs]
  · exact C39_round_trip opts (show maxLength opts < 2 ^ 63 - 20 by omega) l hne hacc
      (fun x hx => ⟨hmax x hx, by have := hmax x hx; omega⟩) sched hs
  · intro n hn
    obtain ⟨m, hm, rfl⟩ := announces_frames (l.map Prod.fst) (by
      intro m hm
      obtain ⟨x, hx, rfl⟩ := List.mem_map.mp hm
      have := hmax x hx
      exact ⟨accepted_lt (hacc x hx), by omega⟩) n hn
    obtain ⟨x, hx, rfl⟩ := List.mem_map.mp hm
    have := hmax x hx
    omega

/-- C81: the specification for 64 bits is that of C60. -/
theorem C81_spec_64 (opts : List Opt) (hfit : Fits opts) (bytes : Bytes) (rs : List Result) :
    EmitsOn 64 (isBestEffort opts) (isBestEffort opts) (maxLength opts) bytes rs ↔ Emits (isBestEffort opts) (maxLength opts) bytes rs := by
  have hs : Delivers [⟨bytes, true⟩] bytes := by
    refine ⟨by simp, ?_, ?_⟩
    · intro a r b h _ x hx
      have := congrArg List.length h
      simp at this
      have : b = [] := List.length_eq_zero_iff.mp (by omega)
      subst this; simp at hx
    · intro a e b h he
      have := congrArg List.length h
      simp at this; omega
  rw [← C60_every_stream opts hfit bytes _ hs, ← C81_every_stream 64 (Or.inr rfl) opts hfit bytes _ hs, C81_is_64]

/-! ## Where they do not -/

/-- two frames that differ only in the upper half of the length are the same with 32 bits -/
theorem emitsOn_frame {bits : Nat} {max : Int} {m rest : Bytes} {n : Nat} (h64 : n < 2 ^ 64) (h0 : n ≠ 0)
    (hlen : asIntOn bits n = m.length) (h60 : (m ++ rest).head? = some 60) (hmax : (m.length : Int) ≤ max) :
    FrameOn bits max (dec n ++ 32 :: (m ++ rest)) m rest :=
  ⟨dec n, lenText_dec n _, by rw [lenValue_dec h64]; exact h0, by rw [lenValue_dec h64]; exact hlen, h60, hmax⟩

theorem emitsOn_ext {bits : Nat} {go be : Bool} {max : Int} {x y m rest : Bytes} (hx : FrameOn bits max x m rest)
    (hy : FrameOn bits max y m rest) (rs : List Result) : EmitsOn bits go be max x rs ↔ EmitsOn bits go be max y rs := by
  have : ∃ rs0, EmitsOn bits go be max x rs0 ∧ EmitsOn bits go be max y rs0 := by
    by_cases hok : go = true ∨ (msgResult be m).err = none
    · by_cases hr : rest = [] ∨ rest.head? = some 0
      · exact ⟨_, .last hx hok hr, .last hy hok hr⟩
      · obtain ⟨rs, h⟩ := emitsOn_exists bits go be max rest.length rest (Nat.le_refl _)
        exact ⟨_, .more hx hok (fun h => hr (Or.inl h)) (fun h => hr (Or.inr h)) h,
          .more hy hok (fun h => hr (Or.inl h)) (fun h => hr (Or.inr h)) h⟩
    · have hg : go = false := by
        cases go with
        | false => rfl
        | true => exact absurd (Or.inl rfl) hok
      cases he : (msgResult be m).err with
      | none => exact absurd (Or.inr he) hok
      | some e => exact ⟨_, .wrong hx hg he, .wrong hy hg he⟩
  obtain ⟨rs0, h1, h2⟩ := this
  obtain ⟨rx, -, ux⟩ := C81_one_outcome bits go be max x
  obtain ⟨ry, -, uy⟩ := C81_one_outcome bits go be max y
  constructor
  · intro h; rw [ux rs h, ← ux _ h1]; exact h2
  · intro h; rw [uy rs h, ← uy _ h2]; exact h1

/-- C81 (the expectation is false with 32 bits): a frame that announces `2 ^ 32` bytes more than it has (or a multiple of it) passes the
check of the maximum and is taken for a correct frame: the results are those of the stream with the right length. With 64 bits it is
refused as too long. -/
theorem C81_wrong_length (opts : List Opt) (hfit : FitsOn 32 opts) (m rest : Bytes) (h60 : m.head? = some 60)
    (hmax : (m.length : Int) ≤ maxLength opts) (k : Nat) (hk : 1 ≤ k) (hk63 : k * 2 ^ 32 + m.length < 2 ^ 63)
    (sched sched' : List Read) (hs : Delivers sched (dec (k * 2 ^ 32 + m.length) ++ 32 :: (m ++ rest)))
    (hs' : Delivers sched' (octetFrame m ++ rest)) :
    resultsOn 32 opts sched = resultsOn 32 opts sched' ∧
    results opts sched = some [⟨none, some (.tooLong (k * 2 ^ 32 + m.length) (maxLength opts))⟩] := by
  have hfit32 : maxLength opts < 2 ^ 31 - 20 := hfit
  have hfit' : Fits opts := by
    show maxLength opts < 2 ^ 63 - 20
    omega
  have hne : m.length ≠ 0 := by cases m <;> simp at h60 ⊢
  have happ : (m ++ rest).head? = some 60 := by
    cases m with
    | nil => simp at h60
    | cons c m => simpa using h60
  constructor
  · obtain ⟨rs, h, -⟩ := C81_one_outcome 32 (isBestEffort opts) (isBestEffort opts) (maxLength opts) (octetFrame m ++ rest)
    rw [(C81_every_stream 32 (Or.inl rfl) opts hfit _ sched' hs' rs).mpr h]
    rw [C81_every_stream 32 (Or.inl rfl) opts hfit _ sched hs rs]
    have e : octetFrame m ++ rest = dec m.length ++ 32 :: (m ++ rest) := by simp [octetFrame]
    rw [e] at h
    refine (emitsOn_ext (emitsOn_frame (by omega) (by omega) ?_ happ hmax)
      (emitsOn_frame (by omega) (by omega) ?_ happ hmax) rs).mpr h
    · rw [asIntOn, Int.bmod_def]; split <;> omega
    · exact asIntOn_small (Or.inl rfl) (by omega)
  · rw [C60_every_stream opts hfit' _ sched hs]
    have hv : lenValue (dec (k * 2 ^ 32 + m.length)) = k * 2 ^ 32 + m.length := lenValue_dec (by omega)
    have := Emits.tooLong (be := isBestEffort opts) (max := maxLength opts) (lenText_dec (k * 2 ^ 32 + m.length) (m ++ rest))
      (by rw [hv, asInt, if_pos hk63]; omega)
    rw [hv] at this
    exact this

/-! ## C63: best effort switched on later -/

/-- C63: what an octet counting parser made without the option emits after `WithBestEffort()`: the specification with the two modes
apart. -/
theorem C63_octet_late_every_stream (opts : List Opt) (h : isBestEffort opts = false) (hfit : Fits opts) (bytes : Bytes) (sched : List Read)
    (hs : Delivers sched bytes) (rs : List Result) :
    ((newParser opts).withBestEffort.parse sched).map Prod.fst = some rs ↔ EmitsOn 64 true false (maxLength opts) bytes rs := by
  have hi := idleB_new opts
  obtain ⟨p', hp, -⟩ := parseB_idle (bits := 64) (p := (newParser opts).withBestEffort) (go := true) (be := false) (max := maxLength opts)
    ⟨rfl, hi.hmax, by rw [← h]; exact hi.ibe, hi.ico, hi.step⟩ (wrap_fits (Or.inr rfl) hfit) sched
  rw [← parseB_64, hp, delivers_delivered hs, emitsOn_iff]
  exact ⟨fun h => Option.some.inj h, fun h => congrArg some h⟩

/-- C63: it goes on after wrong messages: the listener gets the strict result of every frame. -/
theorem C63_octet_late_goes_on (opts : List Opt) (h : isBestEffort opts = false) (hfit : Fits opts) (ms : List Bytes) (hne : ms ≠ [])
    (hms : ∀ m ∈ ms, m.head? = some 60 ∧ (m.length : Int) ≤ maxLength opts) (sched : List Read) (hs : Delivers sched (ms.flatMap octetFrame)) :
    ((newParser opts).withBestEffort.parse sched).map Prod.fst = some (ms.map (alone false)) := by
  have hfit63 : maxLength opts < 2 ^ 63 - 20 := hfit
  rw [C63_octet_late_every_stream opts h hfit _ sched hs]
  clear hs
  induction ms with
  | nil => exact absurd rfl hne
  | cons m ms ih =>
    obtain ⟨h60, hmax⟩ := hms m (by simp)
    have e : (m :: ms).flatMap octetFrame = dec m.length ++ 32 :: (m ++ ms.flatMap octetFrame) := by simp [octetFrame]
    have hf : FrameOn 64 (maxLength opts) ((m :: ms).flatMap octetFrame) m (ms.flatMap octetFrame) := by
      rw [e]
      have hne : m.length ≠ 0 := by cases m <;> simp at h60 ⊢
      refine emitsOn_frame (by omega) hne ?_ ?_ hmax
      · rw [asIntOn, Int.bmod_def]; split <;> omega
      · cases m with
        | nil => simp at h60
        | cons c m => simpa using h60
    by_cases hn : ms = []
    · subst hn
      exact .last hf (Or.inl rfl) (Or.inl rfl)
    · obtain ⟨c, t, hx, hd⟩ : ∃ c t, ms.flatMap octetFrame = c :: t ∧ Digit c := by
        cases ms with
        | nil => exact absurd rfl hn
        | cons m2 ms =>
          have e : (m2 :: ms).flatMap octetFrame = dec m2.length ++ 32 :: (m2 ++ ms.flatMap octetFrame) := by simp [octetFrame]
          rw [e]; exact lenText_digit (lenText_dec _ _)
      exact .more hf (Or.inl rfl) (by rw [hx]; simp) (by rw [hx]; simp; rintro rfl; exact absurd hd (by decide))
        (ih hn fun m hm => hms m (by simp [hm]))

/-- the text of `C81_wrong_length`: a message of 16 bytes, announced with 4294967312 bytes; and what comes of it on the two platforms -/
example : Delivers (sched1 (dec (1 * 2 ^ 32 + msgA.length) ++ 32 :: (msgA ++ octetFrame msgA))) (dec (1 * 2 ^ 32 + msgA.length) ++ 32 :: (msgA ++ octetFrame msgA)) ∧
    FitsOn 32 [] ∧ msgA.head? = some 60 ∧ (msgA.length : Int) ≤ maxLength [] ∧ dec (1 * 2 ^ 32 + msgA.length) = ascii "4294967312" :=
  ⟨sched1_delivers _, by decide, by decide +kernel, by decide +kernel, by decide +kernel⟩

example : (resultsOn 32 [] (sched1 (ascii "4294967312 <1>1 - - - - - -16 <1>1 - - - - - -"))).map (List.map fun r => (r.msg.isSome, r.err)) =
      some [(true, none), (true, none)] ∧
    (resultsOn 64 [] (sched1 (ascii "4294967312 <1>1 - - - - - -16 <1>1 - - - - - -"))).map (List.map fun r => (r.msg.isSome, r.err)) =
      some [(false, some (.tooLong 4294967312 8192))] := by
  constructor <;> decide +kernel

/-- a length of `2 ^ 32`: an empty message -/
example : (resultsOn 32 [.bestEffort] (sched1 (ascii "4294967296 <1>1 - - - - - -"))).map (List.map fun r => (r.msg.isSome, r.err)) =
      some [(false, some (.message ⟨.pri, 0⟩)), (false, some (.notMsgLen ⟨.ILLEGAL, [60]⟩))] := by
  decide +kernel

end Verif.Props
