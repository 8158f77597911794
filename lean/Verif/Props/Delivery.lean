import Verif.Octet.Timed
import Verif.NonTransparent.Open
import Verif.Props.Octet
import Verif.Props.NonTransparent

/-!
# C68, C69: when results are delivered

`C68`: the octet counting parser hands over a message as soon as its bytes are there. `C69`: the non-transparent parser does not.
-/

namespace Verif.Props
open Verif.Spec Verif.Octet
open Verif.Rfc5424 (parse1 SyslogMessage)

/-- `NewParser(opts...).Parse(r)`: the results in order, each with the `Read` calls of `r` that had not been made when the listener got it -/
def timedResults (opts : List Opt) (sched : List Read) : Option (List (Result × List Read)) :=
  ((newParser opts).parseTimed sched).map Prod.fst

/-- C68: the results are those of `results`; only the times are added. -/
theorem C68_same_results (opts : List Opt) (sched : List Read) :
    (timedResults opts sched).map (List.map Prod.fst) = results opts sched := by
  simp only [timedResults, results, Parser.parseTimed, Parser.parse, ← runTimed_erase, Option.map_map]
  rfl

theorem steady_of (a : List Read) (h0 : ∀ r ∈ a, r.err = false) :
    ∀ k, (∀ e b, a = e ++ b → (∀ x ∈ e, x.data = []) → e.length < k) →
      (∀ p e b, a = p ++ (e ++ b) → (∀ x ∈ e, x.data = []) → e.length < 100) → Steady k a := by
  induction a with
  | nil => intro k _ _; exact trivial
  | cons r rs ih =>
    intro k hk hp
    have ih' := ih (fun x hx => h0 x (by simp [hx]))
    have hp' : ∀ p e b, rs = p ++ (e ++ b) → (∀ x ∈ e, x.data = []) → e.length < 100 := by
      intro p e b he hx
      exact hp (r :: p) e b (by rw [he]; rfl) hx
    refine ⟨h0 r (by simp), ?_⟩
    by_cases hd : r.data = []
    · rw [if_pos hd]
      have h1 := hk [r] rs rfl (by simpa using hd)
      refine ⟨by simpa using h1, ih' _ ?_ hp'⟩
      intro e b he hx
      have := hk (r :: e) b (by rw [he]; rfl) (by simpa [hd] using hx)
      simp only [List.length_cons] at this
      omega
    · rw [if_neg hd]
      exact ih' 100 (fun e b he hx => hp' [] e b he hx) hp'

/-- C68: if the first `Read` calls `a` deliver exactly the frames of the messages `ms` (in any pieces), the listener has got the results of all
of them before any further `Read` call is made, whatever `b` the reader would go on with: an error, other bytes, or blocking. Only the
last of the messages may be one that strict parsing refuses. -/
theorem C68_prompt (opts : List Opt) (hfit : Fits opts) (ms : List Bytes) (a b : List Read)
    (hms : ∀ m ∈ ms, m.head? = some 60 ∧ (m.length : Int) ≤ maxLength opts ∧ m.length < 2 ^ 63)
    (hok : ∀ m ∈ ms.dropLast, isBestEffort opts = true ∨ (alone (isBestEffort opts) m).err = none)
    (hdata : a.flatMap Read.data = ms.flatMap octetFrame) (herr : ∀ r ∈ a, r.err = false)
    (hprog : ∀ p e q, a = p ++ (e ++ q) → (∀ x ∈ e, x.data = []) → e.length < 100) :
    ∃ first rest, timedResults opts (a ++ b) = some (first ++ rest) ∧
      first.map Prod.fst = ms.map (alone (isBestEffort opts)) ∧ ∀ x ∈ first, b <:+ x.2 := by
  have hT : ∃ rs p', (newParser opts).parseTimed (a ++ b) = some (rs, p') := by
    have h1 := C68_same_results opts (a ++ b)
    rw [results_eq opts hfit] at h1
    simp only [timedResults] at h1
    cases h : (newParser opts).parseTimed (a ++ b) with
    | none => rw [h] at h1; simp at h1
    | some q => exact ⟨q.1, q.2, rfl⟩
  obtain ⟨rs, p', hrun⟩ := hT
  simp only [timedResults, hrun, Option.map_some]
  cases ms with
  | nil => exact ⟨[], rs, rfl, rfl, by simp⟩
  | cons m ms =>
    have hidle := idle_new opts
    simp only [Parser.parseTimed] at hrun
    have hinv : TInv (isBestEffort opts) (maxLength opts)
        { newParser opts with s := newScanner (a ++ b) (newParser opts).maxMessageLength } := by
      refine ⟨hidle.hbe, hidle.hmax, hidle.ibe, hidle.ico, hidle.step, ?_⟩
      exact bufSize_ge hfit
    have hahead : Ahead (octetFrame m ++ ms.flatMap octetFrame) b
        (newScanner (a ++ b) (newParser opts).maxMessageLength).r := by
      refine ⟨a, rfl, ?_, rfl, steady_of a herr 100 (fun e q => hprog [] e q) hprog, ?_, by simp [newScanner, newReader]⟩
      · rw [hdata]; rfl
      · simp only [newScanner, newReader]; split <;> omega
    have hat := atFrame_start hinv (hms m (by simp)).2.2 hahead
    obtain ⟨first, rest, h1, h2, h3⟩ := frames_timed ms m _ _ rs p' hat
      (fun x hx => ⟨(hms x hx).1, (hms x hx).2.2, (hms x hx).2.1⟩) hok hrun
    exact ⟨first, rest, by rw [h1], h2, h3⟩

/-- C68 on an example: two messages in three reads, then a reader that would block (here: reports an error): both come before it. -/
example : ∃ first rest, timedResults [] ([⟨(octetFrame msgA).take 5, false⟩, ⟨(octetFrame msgA).drop 5 ++ (octetFrame msgB).take 9, false⟩,
      ⟨(octetFrame msgB).drop 9, false⟩] ++ [⟨[], true⟩]) = some (first ++ rest) ∧
    first.map Prod.fst = [alone false msgA, alone false msgB] ∧ ∀ x ∈ first, [⟨[], true⟩] <:+ x.2 := by
  refine C68_prompt [] (by decide) [msgA, msgB] _ _ ?_ ?_ ?_ ?_ ?_
  · intro m hm
    simp at hm
    rcases hm with rfl | rfl <;> decide +kernel
  · intro m hm
    simp at hm
    subst hm
    right; decide +kernel
  · decide +kernel
  · decide +kernel
  · intro p e q h hx
    have := congrArg List.length h
    simp at this
    omega

/-! ## C69 -/

namespace NT
open Verif.NonTransparent

/-- What the listener of `NewParser(opts...)` has got from `Parse` when the reader has delivered these bytes and the stream is still open. -/
def sofar (d : Driver) (opts : List NonTransparent.Opt) (bytes : Bytes) : Option (List NonTransparent.Result) :=
  (feed d (chunks (newParser opts).trailer bytes).1 1 (newParser opts)).map fun x => x.2.2.out

end NT

open NT (trailerByte)

/-- every stream has results -/
theorem NT.results_total (d : NonTransparent.Driver) (opts : List NonTransparent.Opt) (bytes : Bytes) (e : NonTransparent.ReadErr) :
    ∃ rs, NT.results d opts bytes e = some rs := by
  by_cases h : bytes.head? = some 60
  · obtain ⟨⟨ms, rest, h1, h2, h3⟩, h4⟩ := C49_number_and_order d opts bytes e h
    exact ⟨_, h4 ms rest h1 h2 h3⟩
  · by_cases ht : trailerByte opts ∈ bytes
    · -- cut after the last trailer
      have key : ∀ bytes : Bytes, trailerByte opts ∈ bytes → ∃ body rest, bytes = body ++ trailerByte opts :: rest ∧ trailerByte opts ∉ rest := by
        intro bytes
        induction bytes with
        | nil => simp
        | cons b bs ih =>
          intro hm
          by_cases hbs : trailerByte opts ∈ bs
          · obtain ⟨body, rest, h1, h2⟩ := ih hbs
            exact ⟨b :: body, rest, by rw [h1]; rfl, h2⟩
          · rcases List.mem_cons.mp hm with hb | hb
            · exact ⟨[], bs, by rw [hb]; rfl, hbs⟩
            · exact absurd hb hbs
      obtain ⟨body, rest, rfl, hr⟩ := key bytes ht
      have h60 : (body ++ [trailerByte opts]).head? ≠ some 60 := by
        cases body with
        | nil => simpa using h
        | cons b body => simpa using h
      rcases C51_silent_drop d opts body rest e h60 hr with h1 | ⟨-, h1⟩
      · exact ⟨_, h1⟩
      · exact ⟨_, h1⟩
    · have := NT.results_eq d opts [] bytes e (by simp) ht
      exact ⟨_, this⟩

/-- C69: what the listener has got while the stream is open comes first in what it gets in the end, whatever follows and however the stream ends. -/
theorem C69_prefix (d : NonTransparent.Driver) (opts : List NonTransparent.Opt) (now later : Bytes) (e : NonTransparent.ReadErr) :
    ∃ rs rest, NT.sofar d opts now = some rs ∧ NT.results d opts (now ++ later) e = some (rs ++ rest) := by
  obtain ⟨rs, hrs⟩ := NT.results_total d opts (now ++ later) e
  simp only [NT.results] at hrs
  cases hp : (NonTransparent.newParser opts).parse d (now ++ later) e with
  | none => rw [hp] at hrs; simp at hrs
  | some m' =>
    obtain ⟨cs, go, m1, h1, rest, h2⟩ := NonTransparent.feed_parse hp
    refine ⟨m1.out, rest, by simp only [NT.sofar, h1]; rfl, ?_⟩
    simp only [NT.results, hp, Option.map_some, h2]

/-- C69: while the stream is open, the last complete message is held back: of `n + 1` messages, each with its trailer, the listener has got `n`,
and this does not change with the bytes of the next line, however many, until its trailer comes. -/
theorem C69_last_message_held_back (d : NonTransparent.Driver) (opts : List NonTransparent.Opt) (ms : List Bytes) (m rest : Bytes)
    (h : ∀ x ∈ ms ++ [m], Framable (trailerByte opts) x) (hrest : trailerByte opts ∉ rest) :
    NT.sofar d opts (framed (trailerByte opts) (ms ++ [m]) ++ rest) = some (ms.map (NT.alone (NT.isBestEffort opts))) := by
  obtain ⟨hi, h1, h2, h3, h4⟩ := NT.new_inv opts
  have ht : trailerByte opts ≠ 60 := fun hh => (NonTransparent.lt_ne hi) hh.symm
  simp only [NT.sofar, hi.tr]
  generalize NT.isBestEffort opts = be at *
  generalize NonTransparent.newParser opts = p at *
  generalize trailerByte opts = t at *
  obtain ⟨gs, g1, g2⟩ := NT.groups_of_frames ht (ms ++ [m]) h
  have hbytes : framed t (ms ++ [m]) = gs.flatten.flatten := by
    rw [NT.flatten_flatten, g2, framed, List.flatMap_def]
  have hlines : ∀ l ∈ gs.flatten, NonTransparent.IsLine t l := by
    intro l hl
    obtain ⟨g, hg', hl⟩ := List.mem_flatten.mp hl
    exact (g1 g hg').lines l hl
  rw [hbytes, NonTransparent.chunks_lines t gs.flatten rest hlines hrest]
  obtain ⟨cs, m1, a1, a2, a3, a4, -⟩ := NonTransparent.feed_groups d gs g1 1 (Or.inl rfl) p hi
  rw [a1, Option.map_some]
  have hmap : (gs.map fun g => NonTransparent.pmsg be (NonTransparent.strip t g.flatten)) = (ms ++ [m]).map (NT.alone be) := by
    have : (gs.map fun g => NonTransparent.pmsg be (NonTransparent.strip t g.flatten)) =
        (gs.map List.flatten).map fun w => NonTransparent.pmsg be (NonTransparent.strip t w) := by simp
    rw [this, g2, List.map_map]
    apply List.map_congr_left
    intro m _
    simp only [Function.comp, NT.strip_frame]
    rfl
  have hc : m1.candidate = m ++ [t] := by rw [a4, g2]; simp
  rw [hc, hmap, h1, h4] at a3
  simp only [NonTransparent.pend, List.append_eq_nil_iff, List.cons_ne_self, and_false, if_false, NT.strip_frame, if_true, List.nil_append,
    List.map_append, List.map_cons, List.map_nil] at a3
  have a3' : m1.out ++ [NT.alone be m] = ms.map (NT.alone be) ++ [NT.alone be m] := a3
  rw [List.append_cancel_right a3']

/-- C69: so a peer that sends one message and waits is never answered: nothing is delivered as long as the stream stays open. -/
theorem C69_single_message_not_delivered (d : NonTransparent.Driver) (opts : List NonTransparent.Opt) (m : Bytes)
    (h : Framable (trailerByte opts) m) : NT.sofar d opts (m ++ [trailerByte opts]) = some [] := by
  have := C69_last_message_held_back d opts [] m [] (by simpa using h) (by simp)
  simpa [framed] using this

/-- C69 on an example, by computation: two messages and the beginning of a third -/
example : (NT.sofar ⟨true, true, false⟩ [] (ascii "<1>1 - - - - - - a\nb\n<2>1 - - - - - -\n<3>1 - - ")).map
    (List.map fun r => r.msg.bind (·.priority)) = some [some 1] := by decide +kernel
example : Framable 10 (ascii "<1>1 - - - - - - a\nb") := NT.framable_lf.1

end Verif.Props
