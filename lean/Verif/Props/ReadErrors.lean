import Verif.Octet.ReadErr
import Verif.Props.Delivery
import Verif.Props.OctetStream

/-!
# C70: read errors in an octet counting stream

`Read` may fail at any time, and may go on to deliver bytes afterwards. `Spec.Emits`, `Spec.AtLength`: `Verif/Spec/OctetStream.lean`.
-/

namespace Verif.Octet

theorem ev_steady (a : List Read) : ∀ (i : Nat) (c : List Read), Steady i a →
    ∃ j, ev i (a ++ c) = (a.flatMap Read.data).map some ++ ev j c := by
  induction a with
  | nil => intro i c _; exact ⟨i, rfl⟩
  | cons r rs ih =>
    intro i c h
    obtain ⟨he, h⟩ := h
    simp only [List.cons_append, ev, he, Bool.false_eq_true, if_false]
    by_cases hd : r.data = []
    · rw [if_pos hd] at h
      rw [if_neg (by simpa using hd), if_neg (by omega)]
      obtain ⟨j, hj⟩ := ih (i - 1) c h.2
      exact ⟨j, by rw [hj]; simp [hd]⟩
    · rw [if_neg hd] at h
      rw [if_pos hd]
      obtain ⟨j, hj⟩ := ih 100 c h
      exact ⟨j, by rw [hj]; simp⟩

end Verif.Octet

namespace Verif.Props
open Verif.Spec Verif.Octet

/-- The `Read` calls `a` deliver `x` together with the next one, `r`, which is the first to report an error. -/
structure FirstError (a : List Read) (r : Read) (x : Bytes) : Prop where
  data : a.flatMap Read.data ++ r.data = x
  before : ∀ y ∈ a, y.err = false
  progress : ∀ p e q, a = p ++ (e ++ q) → (∀ y ∈ e, y.data = []) → e.length < 100
  error : r.err = true

theorem delivered_error {a : List Read} {r : Read} {x : Bytes} (h : FirstError a r x) (b : List Read) :
    delivered (a ++ r :: b) = trim (x.map some ++ none :: ev 100 b) := by
  obtain ⟨j, hj⟩ := ev_steady a 100 (r :: b) (steady_of a h.before 100 (fun e q => h.progress [] e q) h.progress)
  rw [delivered, hj, ev, if_pos h.error, ← h.data]
  simp

theorem delivered_nul {a : List Read} {r : Read} {x : Bytes} (h : FirstError a r x) (b : List Read) :
    delivered (a ++ ⟨r.data ++ [0], false⟩ :: b) = x.map some ++ some 0 :: trim (ev 100 b) := by
  obtain ⟨j, hj⟩ := ev_steady a 100 (⟨r.data ++ [0], false⟩ :: b) (steady_of a h.before 100 (fun e q => h.progress [] e q) h.progress)
  rw [delivered, hj, ev, if_neg (by simp), if_pos (by simp), ← h.data]
  have := trim_somes (a.flatMap Read.data ++ (r.data ++ [0])) (ev 100 b)
  simp only [List.map_append, List.map_cons, List.map_nil, List.append_assoc, List.cons_append, List.nil_append] at this ⊢
  exact this

/-- C70: a read error ends the stream, unless it comes inside the length of a frame (or right after it): the results are those of the bytes before
it; whether the reader failed or reached its end, which error it was, and what it would have delivered afterwards makes no difference. -/
theorem C70_error_is_end (opts : List Opt) (hfit : Fits opts) (a b : List Read) (r : Read) (x : Bytes) (h : FirstError a r x)
    (hx : ¬ AtLength (isBestEffort opts) (maxLength opts) x) (rs : List Result) :
    results opts (a ++ r :: b) = some rs ↔ Emits (isBestEffort opts) (maxLength opts) x rs := by
  rw [results_eq opts hfit, delivered_error h b, trim_somes, trim]
  obtain ⟨rs', hrs'⟩ := emits_exists (isBestEffort opts) (maxLength opts) x.length x (Nat.le_refl _)
  have key : prun (isBestEffort opts) (maxLength opts) (x.map some ++ if trim (ev 100 b) = [] then [] else none :: trim (ev 100 b)) = rs' := by
    split
    · rw [List.append_nil]; exact emits_iff.mp hrs'
    · exact prun_error_ends hrs' hx _
  rw [key]
  constructor
  · intro he; rw [← Option.some.inj he]; exact hrs'
  · intro he; rw [emits_iff.mp he |>.symm, emits_iff.mp hrs']

/-- C70: inside a length, or right after it, a read error is taken for a NUL byte - which is skipped there -, and reading goes on. -/
theorem C70_error_in_length_skipped (opts : List Opt) (hfit : Fits opts) (a b : List Read) (r : Read) (x : Bytes) (h : FirstError a r x)
    (hx : AtLength (isBestEffort opts) (maxLength opts) x) :
    results opts (a ++ r :: b) = results opts (a ++ ⟨r.data ++ [0], false⟩ :: b) := by
  rw [results_eq opts hfit, results_eq opts hfit, delivered_error h b, delivered_nul h b, trim_somes, trim, ← prun_swallow hx]
  congr 1
  split
  · rename_i h0
    rw [h0, List.append_nil]
    clear h h0
    induction hx with
    | @here c w hc hw =>
      have h1 := pscan_err (c :: w) [] 0 false
      obtain ⟨g1, g2, g3⟩ := h1
      have hp : ∀ w : Bytes, (∀ b ∈ w, Digitish b) → pdigits (w.map some) = (w, []) := by
        intro w hw
        have := pdigits_run (rest := []) hw (by simp)
        simpa using this
      have hq : ∀ w : Bytes, (∀ b ∈ w, Digitish b) → pdigits (w.map some ++ [none]) = (w, []) := by
        intro w hw
        induction w with
        | nil => rfl
        | cons c w ih =>
          have hc := hw c (by simp)
          have h0 : c ≠ 0 := by rintro rfl; simp [Digitish] at hc
          simp only [List.cons_append, List.map_cons, pdigits, if_neg h0, digitish_is.mpr hc, if_true, ih fun b hb => hw b (by simp [hb])]
      have e : pscan ⟨(c :: w).map some ++ [none], 0, false⟩ = pscan ⟨(c :: w).map some, 0, false⟩ := by
        simp only [List.map_cons, List.cons_append, pscan, pread, digit_nz.mpr hc, if_true, hp w hw, hq w hw]
      have e2 : pscan ⟨(c :: w).map some, 0, false⟩ = (⟨.MSGLEN, c :: w⟩, ⟨[], lenValue (c :: w), false⟩) := by
        simp only [List.map_cons, pscan, pread, digit_nz.mpr hc, if_true, hp w hw, parseUint_value]
      rw [prun, prun, e, e2]
      simp only [pscan, pread]
      simp
    | @more x m rest hf hok h1 h2 _ ih =>
      have e := prun_frameAt (be := isBestEffort opts) hf []
      rw [List.append_nil, List.append_nil] at e
      rw [e, prun_frameAt hf, ih]
      have hen : ∀ y : Events, Ends (rest.map some ++ y) ↔ False := by
        intro y
        cases rest with
        | nil => exact absurd rfl h1
        | cons b t => simp only [List.head?_cons, ne_eq, Option.some.injEq] at h2; simp [Ends, h2]
      have hen0 := hen []
      rw [List.append_nil] at hen0
      simp only [hen, hen0]
  · rfl

/-- C70 (the expectation is false): a connection that breaks between two frames leaves no trace: the listener gets the results of the frames
read, as at a proper end of the stream. -/
theorem C70_lost_connection_invisible (opts : List Opt) (hfit : Fits opts) (ms : List Bytes) (hne : ms ≠ [])
    (hms : ∀ m ∈ ms, m.head? = some 60 ∧ (m.length : Int) ≤ maxLength opts ∧ m.length < 2 ^ 63)
    (hok : ∀ m ∈ ms, isBestEffort opts = true ∨ (alone (isBestEffort opts) m).err = none)
    (a b : List Read) (r : Read) (h : FirstError a r (ms.flatMap octetFrame)) :
    results opts (a ++ r :: b) = some (ms.map (alone (isBestEffort opts))) := by
  have frameAt : ∀ (m rest : Bytes), m.head? = some 60 ∧ (m.length : Int) ≤ maxLength opts ∧ m.length < 2 ^ 63 →
      FrameAt (maxLength opts) (octetFrame m ++ rest) m rest := by
    rintro m rest ⟨h1, h2, h3⟩
    refine ⟨dec m.length, ?_, ?_, h1, h3, h2⟩
    · have hd := dec_digits m.length
      have hn := dec_ne_nil m.length
      rw [octetFrame]
      generalize dec m.length = ds at *
      cases ds with
      | nil => exact absurd rfl hn
      | cons c w =>
        have e : (c :: w ++ 32 :: m) ++ rest = c :: (w ++ 32 :: (m ++ rest)) := by simp
        rw [e]
        refine .plain (hd c (by simp)) ?_ ?_
        · intro b hb
          have := hd b (by simp [hb])
          simp only [Digitish]; omega
        · rintro b t hbt
          simp only [List.cons.injEq] at hbt
          rw [← hbt.1]; decide
    · rw [← parseUint_value, parseUint_val _ _ (dec_digits _) (by omega), numVal_dec, if_pos (by omega)]
      simp
  have key : ∀ ms : List Bytes, ms ≠ [] → (∀ m ∈ ms, m.head? = some 60 ∧ (m.length : Int) ≤ maxLength opts ∧ m.length < 2 ^ 63) →
      (∀ m ∈ ms, isBestEffort opts = true ∨ (alone (isBestEffort opts) m).err = none) →
      Emits (isBestEffort opts) (maxLength opts) (ms.flatMap octetFrame) (ms.map (alone (isBestEffort opts))) ∧
      ¬ AtLength (isBestEffort opts) (maxLength opts) (ms.flatMap octetFrame) := by
    intro ms
    induction ms with
    | nil => intro h; exact absurd rfl h
    | cons m ms ih =>
      intro _ hms hok
      have hf := frameAt m (ms.flatMap octetFrame) (hms m (by simp))
      have hnd : ∀ c w, octetFrame m ++ ms.flatMap octetFrame = c :: w → ¬ ∀ b ∈ w, Digitish b := by
        intro c w e hw
        have h32 : (32 : UInt8) ∈ c :: w := by rw [← e]; simp [octetFrame]
        rcases List.mem_cons.mp h32 with h32 | h32
        · have hd := dec_digits m.length
          have hn := dec_ne_nil m.length
          rw [octetFrame] at e
          generalize dec m.length = ds at *
          cases ds with
          | nil => exact absurd rfl hn
          | cons d ds =>
            have hdd := hd d (by simp)
            simp only [List.cons_append, List.cons.injEq] at e
            rw [e.1, ← h32] at hdd
            simp at hdd
        · have := hw 32 h32
          simp [Digitish] at this
      -- a frame is cut in one way only
      have huniq : ∀ m' rest', FrameAt (maxLength opts) (octetFrame m ++ ms.flatMap octetFrame) m' rest' → rest' = ms.flatMap octetFrame := by
        rintro m' rest' ⟨w', k1, k2, -⟩
        obtain ⟨w, j1, j2, -⟩ := hf
        have e1 := pscan_lenText k1 0 false
        have e2 := pscan_lenText j1 0 false
        rw [e1] at e2
        simp only [Prod.mk.injEq, Token.mk.injEq, true_and, PS.mk.injEq, and_true] at e2
        obtain ⟨e3, e4, -⟩ := e2
        have e5 : 32 :: (m' ++ rest') = 32 :: (m ++ ms.flatMap octetFrame) := by
          have e4' : (32 :: (m' ++ rest')).map some = (32 :: (m ++ ms.flatMap octetFrame)).map some := e4
          exact (List.map_inj_right (fun _ _ h => Option.some.inj h)).mp e4'
        simp only [List.cons.injEq, true_and] at e5
        have : m'.length = m.length := by rw [← k2, ← j2, e3]
        exact (List.append_inj e5 this).2
      rw [List.flatMap_cons, List.map_cons]
      cases hms' : ms with
      | nil =>
        subst hms'
        refine ⟨.last hf (hok m (by simp)) (Or.inl rfl), ?_⟩
        intro hat
        generalize hX : octetFrame m ++ List.flatMap octetFrame [] = X at *
        cases hat with
        | here _ hw => exact hnd _ _ rfl hw
        | more hf' _ hr _ _ => exact hr (huniq _ _ hf')
      | cons m2 ms2 =>
        have ih' := ih (by rw [hms']; simp) (fun x hx => hms x (by simp [hx])) (fun x hx => hok x (by simp [hx]))
        rw [← hms']
        have hr1 : ms.flatMap octetFrame ≠ [] := by rw [hms']; simp [octetFrame]
        have hr2 : (ms.flatMap octetFrame).head? ≠ some 0 := by
          rw [hms', List.flatMap_cons, octetFrame]
          have hd := dec_digits m2.length
          have hn := dec_ne_nil m2.length
          generalize dec m2.length = ds at *
          cases ds with
          | nil => exact absurd rfl hn
          | cons d ds =>
            have := hd d (by simp)
            simp only [List.cons_append, List.head?_cons, ne_eq, Option.some.injEq]
            rintro rfl
            simp at this
        refine ⟨.more hf (hok m (by simp)) hr1 hr2 ih'.1, ?_⟩
        intro hat
        generalize hX : octetFrame m ++ ms.flatMap octetFrame = X at *
        cases hat with
        | here _ hw => exact hnd _ _ rfl hw
        | more hf' _ _ _ hat' =>
          rw [huniq _ _ hf'] at hat'
          exact ih'.2 hat'
  obtain ⟨h1, h2⟩ := key ms hne hms hok
  exact (C70_error_is_end opts hfit a b r _ h h2 _).mpr h1

/-! ## examples -/

/-- the connection breaks between two frames; the reader would deliver a third -/
example : results [] ([⟨octetFrame msgA, false⟩, ⟨octetFrame msgB, true⟩, ⟨octetFrame msgA, false⟩]) = some [alone false msgA, alone false msgB] := by
  refine C70_lost_connection_invisible [] (by decide) [msgA, msgB] (by simp) ?_ ?_ [⟨octetFrame msgA, false⟩] _ ⟨octetFrame msgB, true⟩ ⟨by simp, by simp, ?_, rfl⟩
  · intro m hm; simp at hm; rcases hm with rfl | rfl <;> decide +kernel
  · intro m hm; right; simp at hm; rcases hm with rfl | rfl <;> decide +kernel
  · intro p e q h _
    have := congrArg List.length h
    simp at this; omega

/-- an error after the length: what follows is parsed as if nothing had happened -/
example : results [] [⟨ascii "16", true⟩, ⟨32 :: msgA, false⟩] = some [alone false msgA] := by
  decide +kernel

/-- the hypothesis of `C70_error_in_length_skipped` -/
example : FirstError [⟨octetFrame msgA, false⟩] ⟨ascii "2", true⟩ (octetFrame msgA ++ ascii "2") ∧ AtLength false 8192 (octetFrame msgA ++ ascii "2") := by
  refine ⟨⟨by simp, by simp, ?_, rfl⟩, ?_⟩
  · intro p e q h _
    have := congrArg List.length h
    simp at this; omega
  · refine .more (m := msgA) (rest := ascii "2") ⟨ascii "16", ?_, by decide +kernel, by decide, by decide, by decide⟩ (Or.inr (by decide +kernel)) (by decide) (by decide) (.here (by decide) (by simp))
    have e : octetFrame msgA ++ ascii "2" = 49 :: (ascii "6" ++ 32 :: (msgA ++ ascii "2")) := by decide +kernel
    rw [e]
    refine .plain (by decide) (by decide) ?_
    rintro b t h; simp only [List.cons.injEq] at h; rw [← h.1]; decide

end Verif.Props
