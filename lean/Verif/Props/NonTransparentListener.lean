import Verif.NonTransparent.ListenerRun
import Verif.Props.NonTransparentCalls

/-!
# C83: listeners that call the non-transparent parser

`Parse` calls the listener for every result; the listener may call `Parse` and `WithBestEffort` of the same parser.
`HearsL d L p bytes e out`: with the listener `L`, `p.Parse(reader)` ends (the reader gives `bytes` and then the error `e`) and the listener
has got the results `out`, those of nested calls among them.
-/

namespace Verif.Props
open Verif.Spec Verif.NonTransparent
open Verif.Rfc5424 (parse1 SyslogMessage)

namespace NT

/-- the listener that makes one call, when it gets its `k`-th result -/
def once (k : Nat) (a : NonTransparent.Do) : Listener := fun got => if got.length = k then [a] else []

theorem map_groups (be : Bool) (t : UInt8) (gs : List (List Bytes)) (ms : List Bytes) (h : gs.map List.flatten = ms.map (· ++ [t])) :
    (gs.map fun g => pmsg be (strip t g.flatten)) = ms.map (alone be) := by
  have : (gs.map fun g => pmsg be (strip t g.flatten)) = (gs.map List.flatten).map fun w => pmsg be (strip t w) := by simp
  rw [this, h, List.map_map]
  apply List.map_congr_left
  intro m _
  simp only [Function.comp, strip_frame]
  rfl

theorem trailer_ne (opts : List Opt) : NT.trailerByte opts ≠ 60 := by
  obtain ⟨hi, -⟩ := new_inv opts
  rcases hi.typ with ⟨-, h⟩ | ⟨-, h⟩ <;> rw [h] <;> decide

theorem bytes_groups {t : UInt8} (gs : List (List Bytes)) (ms : List Bytes) (h : gs.map List.flatten = ms.map (· ++ [t])) :
    framed t ms = gs.flatten.flatten := by
  rw [flatten_flatten, h, framed, List.flatMap_def]

/-- a listener that makes one call is quiet but for that -/
theorem quiet_before (d : Driver) (k : Nat) (a : NonTransparent.Do) (n : Nat) : Quiet (emitN d (once k a) (n + 1)) 0 k := by
  intro r m _ h
  rw [emitN, once, if_neg (by simp; omega)]
  rfl

theorem quiet_after (d : Driver) (k : Nat) (a : NonTransparent.Do) (n hi : Nat) : Quiet (emitN d (once k a) (n + 1)) k hi := by
  intro r m h _
  rw [emitN, once, if_neg (by simp; omega)]
  rfl

end NT

/-- C83: a listener that only listens gets what `NT.results` says. -/
theorem C83_only_listening (d : Driver) (opts : List Opt) (bytes : Bytes) (e : ReadErr) (out : List Result) :
    (newParser opts).HearsL d (fun _ => []) bytes e out ↔ NT.results d opts bytes e = some out := by
  have hem : ∀ n, emitN d (fun _ => []) (n + 1) = emit0 := by
    intro n; funext r m; rfl
  have ho := (NT.new_inv opts).2.2.2.2
  have he : { newParser opts with out := [] } = newParser opts := by
    cases h : newParser opts; rw [h] at ho; cases ho; rfl
  constructor
  · rintro ⟨n, m', h1, h2⟩
    have h1 := parseL_le (emitN_le d _ (Nat.le_succ n)) h1
    rw [he, hem, parseL_emit0] at h1
    rw [NT.results, h1, Option.map_some, h2]
  · intro h
    rw [NT.results] at h
    cases hp : (newParser opts).parse d bytes e with
    | none => rw [hp] at h; simp at h
    | some m' =>
      rw [hp, Option.map_some] at h
      refine ⟨1, m', ?_, Option.some.inj h⟩
      rw [he, hem, parseL_emit0, hp]

/-- C83: if the listener calls `Parse` with another reader while it handles the message `m`, nothing is lost, but `m` comes a second time
(without a further trailer at its end), before the messages of the second stream; then the first stream goes on. -/
theorem C83_nested_parse_repeats (d : Driver) (opts : List Opt) (before : List Bytes) (m : Bytes) (after ms : List Bytes) (e e₂ : ReadErr)
    (h₁ : ∀ x ∈ before ++ m :: after, Framable (NT.trailerByte opts) x) (h₂ : ∀ x ∈ ms, Framable (NT.trailerByte opts) x) (out : List Result) :
    (newParser opts).HearsL d (NT.once (before.length + 1) (.parse (framed (NT.trailerByte opts) ms) e₂))
        (framed (NT.trailerByte opts) (before ++ m :: after)) e out ↔
      out = (before ++ [m, without (NT.trailerByte opts) m] ++ ms ++ after).map (NT.alone (NT.isBestEffort opts)) := by
  have key : (newParser opts).HearsL d (NT.once (before.length + 1) (.parse (framed (NT.trailerByte opts) ms) e₂))
      (framed (NT.trailerByte opts) (before ++ m :: after)) e
      ((before ++ [m, without (NT.trailerByte opts) m] ++ ms ++ after).map (NT.alone (NT.isBestEffort opts))) := by
    have ht := NT.trailer_ne opts
    obtain ⟨hi, c1, c2, c3, c4⟩ := NT.new_inv opts
    generalize hbe : NT.isBestEffort opts = be at *
    generalize htb : NT.trailerByte opts = t at *
    have he : { newParser opts with out := [] } = newParser opts := by
      cases h : newParser opts; rw [h] at c4; cases c4; rfl
    obtain ⟨gs, g1, g2⟩ := NT.groups_of_frames ht (before ++ [m]) (fun x hx => h₁ x (by
      simp only [List.mem_append, List.mem_cons, List.not_mem_nil, or_false] at hx ⊢; rcases hx with h | h <;> simp [h]))
    obtain ⟨ga, a1, a2⟩ := NT.groups_of_frames ht after (fun x hx => h₁ x (by simp [hx]))
    obtain ⟨gn, n1, n2⟩ := NT.groups_of_frames ht ms h₂
    have hlen : gs.length = before.length + 1 := by
      have := congrArg List.length g2
      simpa using this
    have hne : gs ≠ [] := by rintro rfl; simp at hlen
    obtain ⟨M, i1, i2, i3, i4, hgo⟩ := parseL_once d e gs ga g1 a1 hne (newParser opts) hi c1 c4 (Or.inl c2)
    rw [g2] at i4
    simp only [List.map_append, List.map_cons, List.map_nil, List.getLast?_append, List.getLast?_singleton, Option.some_or,
      Option.getD_some, NT.strip_frame] at i4
    rw [NT.map_groups be t gs _ g2] at i3
    simp only [List.map_append, List.map_cons, List.map_nil, List.dropLast_concat] at i3
    have hmne : m ≠ [] := by
      rintro rfl
      have := (h₁ [] (by simp)).lt
      simp at this
    -- the nested call
    have hInv : Inv be t { M with out := M.out ++ [NT.alone be m] } := ⟨i1.tr, i1.typ, i1.ibe, i1.ico⟩
    obtain ⟨M2, b1, b2, b3, b4, b5⟩ := parse_groups d e₂ gn [] n1 (by simp) { M with out := M.out ++ [NT.alone be m] } hInv
    have htl : tailRes be d e₂ [] M.readError M.lastChunk = [] := tailRes_clean i2
    have hpend : pend be t M.candidate = [NT.alone be (without t m)] := by
      rw [i4, pend, if_neg hmne]; rfl
    simp only [i3, htl, hpend, List.append_nil, NT.map_groups be t gn _ n2] at b3
    rw [List.append_nil, ← NT.bytes_groups gn ms n2] at b1
    have hcl2 : Clean M2 := by
      simp only [ne_eq, not_true_eq_false, if_false] at b5
      by_cases c : d.errOnEmpty = true
      · rw [if_pos c] at b5
        exact Or.inr (congrArg Prod.snd b5)
      · rw [if_neg c] at b5
        have e1 : M2.readError = M.readError := congrArg Prod.fst b5
        have e2 : M2.lastChunk = M.lastChunk := congrArg Prod.snd b5
        rcases i2 with h | h
        · exact Or.inl (e1.trans h)
        · exact Or.inr (e2.trans h)
    have hl2 : before.length + 1 ≤ M2.out.length := by rw [b3]; simp
    have hemit : emitN d (NT.once (before.length + 1) (.parse (framed t ms) e₂)) (1 + 1)
        (pmsg be (strip t ((gs.map List.flatten).getLast?.getD []))) M = some M2 := by
      have hw : strip t ((gs.map List.flatten).getLast?.getD []) = m := by
        rw [g2]
        simp only [List.map_append, List.map_cons, List.map_nil, List.getLast?_append, List.getLast?_singleton, Option.some_or,
          Option.getD_some, NT.strip_frame]
      rw [hw]
      rw [emitN, NT.once, if_pos (by rw [i3]; simp), performN]
      have := parse_q (NT.quiet_after d (before.length + 1) (.parse (framed t ms) e₂) 0 (M2.out.length + 1)) (by
        show before.length + 1 ≤ (M.out ++ [NT.alone be m]).length
        rw [i3]; simp) b1 (by omega)
      show (match Machine.parseL _ d { M with out := M.out ++ [NT.alone be m] } (framed t ms) e₂ with
        | none => none
        | some m => performN d _ [] m) = some M2
      erw [this]
      rfl
    obtain ⟨m', r1, r2⟩ := hgo _ M2 (by rw [hlen]; exact NT.quiet_before _ _ _ _) (by rw [hlen]; exact NT.quiet_after _ _ _ _) hemit b2 hcl2 (by omega)
    refine ⟨2, m', ?_, ?_⟩
    · rw [he, NT.bytes_groups (gs ++ ga) (before ++ m :: after) (by rw [List.map_append, g2, a2]; simp)]
      exact r1
    · rw [r2, b3, NT.map_groups be t ga _ a2]
      simp
  exact ⟨fun h => hearsL_unique h key, fun h => h ▸ key⟩

/-- C83: the option `WithBestEffort` applied by the listener has no effect. -/
theorem C83_best_effort (d : Driver) (opts : List Opt) (ms : List Bytes) (k : Nat) (hk : 0 < k) (e : ReadErr)
    (h : ∀ x ∈ ms, Framable (NT.trailerByte opts) x) (out : List Result) :
    (newParser opts).HearsL d (NT.once k .withBestEffort) (framed (NT.trailerByte opts) ms) e out ↔
      out = ms.map (NT.alone (NT.isBestEffort opts)) := by
  have key : (newParser opts).HearsL d (NT.once k .withBestEffort) (framed (NT.trailerByte opts) ms) e
      (ms.map (NT.alone (NT.isBestEffort opts))) := by
    have ht := NT.trailer_ne opts
    obtain ⟨hi, c1, c2, c3, c4⟩ := NT.new_inv opts
    generalize hbe : NT.isBestEffort opts = be at *
    generalize htb : NT.trailerByte opts = t at *
    have he : { newParser opts with out := [] } = newParser opts := by
      cases h : newParser opts; rw [h] at c4; cases c4; rfl
    by_cases hkl : k ≤ ms.length
    · obtain ⟨gs, g1, g2⟩ := NT.groups_of_frames ht (ms.take k) (fun x hx => h x (List.mem_of_mem_take hx))
      obtain ⟨ga, a1, a2⟩ := NT.groups_of_frames ht (ms.drop k) (fun x hx => h x (List.mem_of_mem_drop hx))
      have hlen : gs.length = k := by
        have := congrArg List.length g2
        simp at this; omega
      have hne : gs ≠ [] := by rintro rfl; simp at hlen; omega
      obtain ⟨M, i1, i2, i3, i4, hgo⟩ := parseL_once d e gs ga g1 a1 hne (newParser opts) hi c1 c4 (Or.inl c2)
      have hmap := NT.map_groups be t gs _ g2
      have hlast : M.out ++ [pmsg be (strip t ((gs.map List.flatten).getLast?.getD []))] = (ms.take k).map (NT.alone be) := by
        rw [i3, ← hmap]
        obtain ⟨g, gl, hgl⟩ : ∃ g gl, gs = gl ++ [g] := ⟨gs.getLast hne, gs.dropLast, (List.dropLast_concat_getLast hne).symm⟩
        rw [hgl]
        simp
      generalize pmsg be (strip t ((gs.map List.flatten).getLast?.getD [])) = r at *
      have hl : M.out.length + 1 = k := by
        have := congrArg List.length hlast
        simp at this; omega
      obtain ⟨m', r1, r2⟩ := hgo (emitN d (NT.once k .withBestEffort) (0 + 1)) { M with out := M.out ++ [r], bestEffort := true }
        (by rw [hlen]; exact NT.quiet_before _ _ _ _) (by rw [hlen]; exact NT.quiet_after _ _ _ _)
        (by rw [emitN, NT.once, if_pos (by simp; omega)]; rfl) ⟨i1.tr, i1.typ, i1.ibe, i1.ico⟩ i2 (by simp; omega)
      refine ⟨1, m', ?_, ?_⟩
      · rw [he, NT.bytes_groups (gs ++ ga) ms (by rw [List.map_append, g2, a2, ← List.map_append, List.take_append_drop])]
        exact r1
      · rw [r2]
        show M.out ++ [r] ++ _ = _
        rw [hlast, NT.map_groups be t ga _ a2, ← List.map_append, List.take_append_drop]
    · obtain ⟨gs, g1, g2⟩ := NT.groups_of_frames ht ms h
      obtain ⟨M2, b1, b2, b3, -⟩ := parse_groups d e gs [] g1 (by simp) (newParser opts) hi
      have hout : M2.out = ms.map (NT.alone be) := by
        rw [b3, c1, c4, c2, c3, NT.map_groups be t gs _ g2]
        cases d with | mk a b c => cases c <;> simp [pend, tailRes]
      refine ⟨1, M2, ?_, hout⟩
      rw [he, NT.bytes_groups gs ms g2]
      rw [List.append_nil] at b1
      exact parse_q (NT.quiet_before d k .withBestEffort 0) (Nat.zero_le _) b1 (by rw [hout]; simp; omega)
  exact ⟨fun h => hearsL_unique h key, fun h => h ▸ key⟩

/-! ## Concrete cases -/

theorem NT.framable2 : ∀ x ∈ [] ++ ascii "<2>1 - - - - - -" :: [ascii "<1>1 - - - - - - a\nb"], Framable (NT.trailerByte []) x := by
  intro x hx
  simp only [List.nil_append, List.mem_cons, List.not_mem_nil, or_false] at hx
  rcases hx with rfl | rfl
  · exact NT.framable_lf.2.1
  · exact NT.framable_lf.1

/-- a nested `Parse` at the first of two messages: that message comes twice -/
example (d : Driver) (e : ReadErr) : ∃ rs, (newParser []).HearsL d (NT.once 1 (.parse (framed 10 [ascii "<x\n"]) e))
      (framed 10 [ascii "<2>1 - - - - - -", ascii "<1>1 - - - - - - a\nb"]) e rs ∧
    rs.map (fun r => (r.msg.bind fun m => m.priority, r.err.isSome)) =
      [(some 2, false), (some 2, false), (none, true), (some 1, false)] :=
  ⟨_, (C83_nested_parse_repeats d [] [] _ _ [ascii "<x\n"] e e NT.framable2 (by
    intro x hx
    rw [List.mem_singleton.mp hx]
    exact NT.framable_lf.2.2) _).mpr rfl, by decide +kernel⟩

/-- a listener that calls `Parse` at every result: there is no end (no list of results is possible, also not by computation up to depth 5) -/
example : (({ newParser [] with out := [] }).parseL (emitN ⟨true, true, false⟩ (fun _ => [.parse (ascii "<2>1 - - - - - -\n") .unexpectedEOF]) 5)
    ⟨true, true, false⟩ (ascii "<2>1 - - - - - -\n")).isNone = true := by decide +kernel

end Verif.Props
