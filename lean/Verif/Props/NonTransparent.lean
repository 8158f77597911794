import Verif.NonTransparent.Run
import Verif.Spec.NonTransparent

/-!
# C48-C54: the non-transparent framing parser

`results d opts bytes e` is what the listener of `NewParser(opts...)` gets from `Parse` on a stream of these bytes; `d` ranges over
everything that the repository does not determine about the external read loop, `e` is the error with which the stream ends
(`io.ErrUnexpectedEOF` or an error of the reader). Specification: `Verif/Spec/NonTransparent.lean`.
-/

namespace Verif.Props
namespace NT
open Verif.Spec Verif.NonTransparent
open Verif.Rfc5424 (parse1 SyslogMessage)

/-- `NewParser(opts...).Parse(r)` -/
def results (d : Driver) (opts : List Opt) (bytes : Bytes) (e : ReadErr := .unexpectedEOF) : Option (List Result) :=
  ((newParser opts).parse d bytes e).map Machine.out

/-- two calls of `Parse` on the same parser: everything the listener got -/
def results2 (d : Driver) (opts : List Opt) (bytes₁ bytes₂ : Bytes) (e₁ e₂ : ReadErr := .unexpectedEOF) : Option (List Result) :=
  ((newParser opts).parse d bytes₁ e₁).bind fun p => (p.parse d bytes₂ e₂).map Machine.out

/-- the option is there -/
def isBestEffort (opts : List Opt) : Bool := opts.any (fun o => match o with | .bestEffort => true | _ => false)

/-- the trailer byte that the options ask for: the last known one, LF without any -/
def trailerByte (opts : List Opt) : UInt8 :=
  ((opts.filterMap (fun o => match o with | .trailer t => if t = LF then some 10 else if t = NUL then some 0 else none | _ => none)).getLast?).getD 10

/-- parsing a message alone, in the mode of the parser: `NewMachine(...).Parse(m)` as a listener would get it -/
def alone (be : Bool) (m : Bytes) : Result :=
  match parse1 { bestEffort := be } m with
  | none => {}
  | some r => ⟨r.msg, r.err.map .message⟩

/-- parsing an unterminated rest alone: the same message, and the error of the reader if the message has none -/
def aloneUnterminated (be : Bool) (e : ReadErr) (m : Bytes) : Result :=
  ⟨(alone be m).msg, some ((alone be m).err.getD (.reading e))⟩

/-! ## options -/

theorem value_iff (t : TrailerType) : (t.value = some 10 ∧ t = LF) ∨ (t.value = some 0 ∧ t = NUL) ∨ (t.value = none ∧ t ≠ LF ∧ t ≠ NUL) := by
  by_cases h0 : t = LF
  · subst h0; left; decide
  · by_cases h1 : t = NUL
    · subst h1; right; left; decide
    · right; right
      refine ⟨?_, h0, h1⟩
      have : t < LF ∨ t > NUL := by
        have h0' : ¬ @Eq Int t 0 := h0
        have h1' : ¬ @Eq Int t 1 := h1
        show @LT.lt Int _ t 0 ∨ @LT.lt Int _ 1 t
        omega
      simp only [TrailerType.value, if_pos this]

theorem opts_inv (opts : List Opt) (m : Machine) (t0 : UInt8)
    (h : (m.trailertyp = LF ∧ t0 = 10) ∨ (m.trailertyp = NUL ∧ t0 = 0)) :
    let m' := opts.foldl applyOpt m
    let t := ((opts.filterMap (fun o => match o with | .trailer t => if t = LF then some 10 else if t = NUL then some 0 else none | _ => none)).getLast?).getD t0
    ((m'.trailertyp = LF ∧ t = 10) ∨ (m'.trailertyp = NUL ∧ t = 0)) ∧ m'.bestEffort = (m.bestEffort || isBestEffort opts) ∧
      m'.candidate = m.candidate ∧ m'.readError = m.readError ∧ m'.lastChunk = m.lastChunk ∧ m'.out = m.out := by
  induction opts generalizing m t0 with
  | nil => simpa [isBestEffort] using h
  | cons o os ih =>
    simp only [List.foldl_cons]
    cases o with
    | bestEffort =>
      have := ih (applyOpt m .bestEffort) t0 h
      simpa [applyOpt, isBestEffort] using this
    | maxMessageLength n =>
      have := ih (applyOpt m (.maxMessageLength n)) t0 h
      simpa [applyOpt, isBestEffort] using this
    | trailer t =>
      rcases value_iff t with ⟨hv, rfl⟩ | ⟨hv, rfl⟩ | ⟨hv, h1, h2⟩
      · have := ih (applyOpt m (.trailer LF)) 10 (by simp [applyOpt, hv])
        simp only [applyOpt, hv] at this ⊢
        simp only [List.filterMap_cons, if_true, List.getLast?_cons, Option.getD_some]
        simpa [isBestEffort] using this
      · have := ih (applyOpt m (.trailer NUL)) 0 (by simp [applyOpt, hv])
        simp only [applyOpt, hv] at this ⊢
        simp only [List.filterMap_cons, if_true, List.getLast?_cons, Option.getD_some, show NUL ≠ LF by decide, if_false]
        simpa [isBestEffort] using this
      · have := ih (applyOpt m (.trailer t)) t0 (by simpa [applyOpt, hv] using h)
        simp only [applyOpt, hv] at this ⊢
        simp only [List.filterMap_cons, h1, h2, if_false]
        simpa [isBestEffort] using this

theorem new_inv (opts : List Opt) : Inv (isBestEffort opts) (trailerByte opts) (newParser opts) ∧
    (newParser opts).candidate = [] ∧ (newParser opts).readError = none ∧ (newParser opts).lastChunk = [] ∧ (newParser opts).out = [] := by
  obtain ⟨h1, h2, h3, h4, h5, h6⟩ := opts_inv opts {} 10 (Or.inl ⟨rfl, rfl⟩)
  refine ⟨⟨?_, h1, ?_, rfl⟩, h3, h4, h5, h6⟩
  · rcases h1 with ⟨a, b⟩ | ⟨a, b⟩
    · simp only [newParser, a]; exact b.symm
    · simp only [newParser, a]; exact b.symm
  · simpa [newParser, Rfc5424.newMachine] using h2

/-! ## frames and groups of lines -/

theorem group_of_frame {t : UInt8} (ht : t ≠ 60) {m : Bytes} (h : Framable t m) :
    ∃ g, IsGroup t g ∧ g.flatten = m ++ [t] := by
  obtain ⟨h1, h2, h3⟩ := chunks_spec t (m ++ [t])
  generalize hL : (chunks t (m ++ [t])).1 = L at *
  generalize (chunks t (m ++ [t])).2 = last at *
  have hlast : last = [] := by
    rcases List.eq_nil_or_concat last with rfl | ⟨q, x, rfl⟩
    · rfl
    · rw [List.concat_eq_append, ← List.append_assoc] at h1
      have := (List.append_inj' h1 rfl).2
      simp at this
      simp [this] at h3
  subst hlast
  rw [List.append_nil] at h1
  have hne : ∀ l ∈ L, l ≠ [] := by
    intro l hl; obtain ⟨b, rfl, -⟩ := h2 l hl; simp
  refine ⟨L, ⟨h2, ?_⟩, h1.symm⟩
  cases L with
  | nil => simp at h1
  | cons l ls =>
    refine ⟨l, ls, rfl, ?_, ?_⟩
    · have hh : (m ++ [t]).head? = some 60 := by
        have := h.lt
        cases m with
        | nil => simp at this
        | cons a b => simpa using this
      rw [h1, List.flatten_cons] at hh
      have := hne l (by simp)
      cases l with
      | nil => exact absurd rfl this
      | cons a b => simpa using hh
    · intro x hx hx60
      obtain ⟨a, b, rfl⟩ := List.append_of_mem hx
      obtain ⟨q, rfl⟩ : ∃ q, x = 60 :: q := by
        cases x with
        | nil => simp at hx60
        | cons c q => simp at hx60; exact ⟨q, by rw [hx60]⟩
      -- the line before ends with the trailer
      obtain ⟨pre, y, hy⟩ : ∃ pre y, l :: a = pre ++ [y] := by
        rcases List.eq_nil_or_concat (l :: a) with h | ⟨pre, y, h⟩
        · cases h
        · exact ⟨pre, y, by rw [h, List.concat_eq_append]⟩
      have hmem : y ∈ l :: (a ++ (60 :: q) :: b) := by
        have : y ∈ l :: a := by rw [hy]; simp
        rw [← List.cons_append]; exact List.mem_append_left _ this
      obtain ⟨by_, rfl, -⟩ := h2 y hmem
      have e : m ++ [t] = (pre.flatten ++ by_) ++ t :: 60 :: (q ++ b.flatten) := by
        rw [h1, ← List.cons_append, hy]; simp
      obtain ⟨bq, hbq, -⟩ := h2 (60 :: q) (by simp)
      -- drop the final trailer
      have hqne : q ≠ [] := by
        rintro rfl
        cases bq with
        | nil => simp at hbq; exact ht hbq.symm
        | cons c r => simp at hbq
      have hsp : q ++ b.flatten = (q ++ b.flatten).dropLast ++ [t] := by
        rcases List.eq_nil_or_concat (q ++ b.flatten) with h | ⟨z, y, h⟩
        · simp [hqne] at h
        · rw [h, List.concat_eq_append] at e ⊢
          have e2 : m ++ [t] = ((pre.flatten ++ by_) ++ t :: 60 :: z) ++ [y] := by rw [e]; simp
          have := (List.append_inj' e2 rfl).2
          simp at this
          simp [this]
      rw [hsp] at e
      have e' : m ++ [t] = ((pre.flatten ++ by_) ++ t :: 60 :: (q ++ b.flatten).dropLast) ++ [t] := by rw [e]; simp
      exact h.inside _ _ (List.append_inj_left' e' rfl)

theorem groups_of_frames {t : UInt8} (ht : t ≠ 60) (ms : List Bytes) (h : ∀ m ∈ ms, Framable t m) :
    ∃ gs : List (List Bytes), (∀ g ∈ gs, IsGroup t g) ∧ gs.map List.flatten = ms.map (· ++ [t]) := by
  induction ms with
  | nil => exact ⟨[], by simp, rfl⟩
  | cons m ms ih =>
    obtain ⟨g, g1, g2⟩ := group_of_frame ht (h m (by simp))
    obtain ⟨gs, a1, a2⟩ := ih (fun x hx => h x (by simp [hx]))
    refine ⟨g :: gs, ?_, by simp [g2, a2]⟩
    intro x hx
    rcases List.mem_cons.mp hx with rfl | hx
    · exact g1
    · exact a1 x hx

theorem flatten_flatten (gs : List (List Bytes)) : gs.flatten.flatten = (gs.map List.flatten).flatten := by
  induction gs with
  | nil => rfl
  | cons g gs ih => simp [ih]

theorem strip_frame (t : UInt8) (m : Bytes) : strip t (m ++ [t]) = m := by simp [strip]

/-- what a group is, in bytes -/
theorem frame_of_group {t : UInt8} (ht : t ≠ 60) {g : List Bytes} (h : IsGroup t g) : ∃ m, Framable t m ∧ g.flatten = m ++ [t] := by
  obtain ⟨l, ls, rfl, h60, hls⟩ := h.first
  obtain ⟨body, rfl, hb⟩ := h.lines l (by simp)
  obtain ⟨q, rfl⟩ : ∃ q, body = 60 :: q := by
    cases body with
    | nil => simp at h60; exact absurd h60 ht
    | cons c q => simp at h60; exact ⟨q, by rw [h60]⟩
  have hlines : ∀ x ∈ ls, IsLine t x := fun x hx => h.lines x (by simp [hx])
  clear h h60
  -- by induction on the continuation lines, from the left
  suffices H : ∀ (m : Bytes), Framable t m → ∀ ls : List Bytes, (∀ x ∈ ls, IsLine t x) → (∀ x ∈ ls, x.head? ≠ some 60) →
      ∃ m', Framable t m' ∧ (m ++ [t]) ++ ls.flatten = m' ++ [t] by
    have hm : Framable t (60 :: q) := by
      refine ⟨rfl, ?_⟩
      intro a b e
      apply hb; rw [e]; simp
    obtain ⟨m', h1, h2⟩ := H _ hm ls hlines hls
    exact ⟨m', h1, by rw [List.flatten_cons]; exact h2⟩
  intro m hm ls
  induction ls generalizing m with
  | nil => intro _ _; exact ⟨m, hm, by simp⟩
  | cons x xs ih =>
    intro h1 h2
    obtain ⟨body, rfl, hb'⟩ := h1 x (by simp)
    have hx60 := h2 (body ++ [t]) (by simp)
    have hm2 : Framable t (m ++ [t] ++ body) := by
      refine ⟨?_, ?_⟩
      · have := hm.lt
        cases m with
        | nil => simp at this
        | cons a b => simpa using this
      · intro a b e
        rw [List.append_assoc] at e
        -- where is the trailer of `a ++ t :: 60 :: b`
        rcases List.append_eq_append_iff.mp e with ⟨c, hc1, hc2⟩ | ⟨c, hc1, hc2⟩
        · -- a = m ++ c
          cases c with
          | nil =>
            simp at hc2
            rw [hc2] at hx60
            simp at hx60
          | cons y c =>
            simp at hc2
            have : t ∈ body := by rw [hc2.2]; simp
            exact hb' this
        · -- m = a ++ c
          cases c with
          | nil =>
            simp at hc2
            rw [← hc2] at hx60
            simp at hx60
          | cons y c =>
            simp at hc2
            obtain ⟨rfl, hc2⟩ := hc2
            cases c with
            | nil => simp at hc2; exact ht hc2.1.symm
            | cons z c =>
              simp at hc2
              exact hm.inside a c (by rw [hc1, ← hc2.1])
    obtain ⟨m', a1, a2⟩ := ih _ hm2 (fun y hy => h1 y (by simp [hy])) (fun y hy => h2 y (by simp [hy]))
    exact ⟨m', a1, by rw [← a2]; simp⟩

/-- lines, the first of which starts with `<`, in groups -/
theorem lines_groups {t : UInt8} (ls : List Bytes) (hl : ∀ l ∈ ls, IsLine t l) :
    ∃ pre gs, ls = pre ++ List.flatten gs ∧ (∀ x ∈ pre, x.head? ≠ some 60) ∧ ∀ g ∈ gs, IsGroup t g := by
  induction ls with
  | nil => exact ⟨[], [], rfl, by simp, by simp⟩
  | cons l ls ih =>
    obtain ⟨pre, gs, rfl, h2, h3⟩ := ih (fun x hx => hl x (by simp [hx]))
    by_cases h60 : l.head? = some 60
    · refine ⟨[], (l :: pre) :: gs, by simp, by simp, ?_⟩
      intro g hg
      rcases List.mem_cons.mp hg with rfl | hg
      · exact ⟨fun x hx => hl x (by rcases List.mem_cons.mp hx with rfl | hx <;> simp [*]), l, pre, rfl, h60, h2⟩
      · exact h3 g hg
    · exact ⟨l :: pre, gs, rfl, fun x hx => (List.mem_cons.mp hx).elim (fun e => e ▸ h60) (h2 x), h3⟩

/-! ## C49, C48, C50 -/

/-- A call of `Parse` on a fresh parser, for every stream cut into framed messages and an unterminated rest. -/
theorem results_eq (d : Driver) (opts : List Opt) (ms : List Bytes) (rest : Bytes) (e : ReadErr)
    (h : ∀ m ∈ ms, Framable (trailerByte opts) m) (hrest : trailerByte opts ∉ rest) :
    results d opts (framed (trailerByte opts) ms ++ rest) e =
      some (ms.map (alone (isBestEffort opts)) ++ if rest = [] then [] else [aloneUnterminated (isBestEffort opts) e rest]) := by
  obtain ⟨hi, h1, h2, h3, h4⟩ := new_inv opts
  have ht : trailerByte opts ≠ 60 := fun hh => (lt_ne hi) hh.symm
  obtain ⟨gs, g1, g2⟩ := groups_of_frames ht ms h
  obtain ⟨m', a1, a2, a3, -⟩ := parse_groups d e gs rest g1 hrest (newParser opts) hi
  have hbytes : framed (trailerByte opts) ms = gs.flatten.flatten := by
    rw [flatten_flatten, g2, framed, List.flatMap_def]
  have hmap : (gs.map fun g => pmsg (isBestEffort opts) (strip (trailerByte opts) g.flatten)) = ms.map (alone (isBestEffort opts)) := by
    have : (gs.map fun g => pmsg (isBestEffort opts) (strip (trailerByte opts) g.flatten)) =
        (gs.map List.flatten).map fun w => pmsg (isBestEffort opts) (strip (trailerByte opts) w) := by simp
    rw [this, g2, List.map_map]
    apply List.map_congr_left
    intro m _
    simp only [Function.comp, strip_frame]
    rfl
  rw [results, hbytes, a1, Option.map_some, a3, h1, h2, h3, h4, hmap]
  by_cases hr : rest = []
  · subst hr
    cases d with | mk a b c => cases c <;> simp [pend, tailRes]
  · simp only [pend, tailRes, hr, if_false, if_true, ne_eq, not_false_eq_true, List.nil_append]
    rfl

/-- every stream starting with `<` can be cut that way -/
theorem stream_cut (opts : List Opt) (bytes : Bytes) (h : bytes.head? = some 60) :
    ∃ ms rest, bytes = framed (trailerByte opts) ms ++ rest ∧ (∀ m ∈ ms, Framable (trailerByte opts) m) ∧ trailerByte opts ∉ rest := by
  obtain ⟨hi, -⟩ := new_inv opts
  have ht : trailerByte opts ≠ 60 := fun hh => (lt_ne hi) hh.symm
  generalize trailerByte opts = t at *
  obtain ⟨c1, c2, c3⟩ := chunks_spec t bytes
  obtain ⟨pre, gs, e1, e2, e3⟩ := lines_groups _ c2
  have hpre : pre = [] := by
    cases pre with
    | nil => rfl
    | cons l pre =>
      have hl := c2 l (by rw [e1]; simp)
      obtain ⟨b, rfl, -⟩ := hl
      have := e2 (b ++ [t]) (by simp)
      rw [c1, e1] at h
      exfalso; apply this
      cases b <;> simpa using h
  subst hpre
  have key : ∀ gs : List (List Bytes), (∀ g ∈ gs, IsGroup t g) → ∃ ms, (∀ m ∈ ms, Framable t m) ∧ gs.flatten.flatten = framed t ms := by
    intro gs
    induction gs with
    | nil => intro _; exact ⟨[], by simp, rfl⟩
    | cons g gs ih =>
      intro hg
      obtain ⟨m, m1, m2⟩ := frame_of_group ht (hg g (by simp))
      obtain ⟨ms, a1, a2⟩ := ih (fun x hx => hg x (by simp [hx]))
      refine ⟨m :: ms, fun x hx => (List.mem_cons.mp hx).elim (fun e => e ▸ m1) (a1 x), ?_⟩
      simp only [List.flatten_cons, List.flatten_append, m2, a2, framed, List.flatMap_cons]
  obtain ⟨ms, m1, m2⟩ := key gs e3
  refine ⟨ms, (chunks t bytes).2, ?_, m1, c3⟩
  rw [← m2]
  rw [List.nil_append] at e1
  rw [← e1]; exact c1

end NT
open NT Verif.Spec Verif.NonTransparent
open Verif.Rfc5424 (parse1 SyslogMessage)

/-- C48: any list of messages that the framing can carry is read back: one result per message, in order, each the
result of parsing that message alone. -/
theorem C48_nontransparent_round_trip (d : Driver) (opts : List Opt) (ms : List Bytes) (e : ReadErr)
    (h : ∀ m ∈ ms, Framable (trailerByte opts) m) :
    NT.results d opts (framed (trailerByte opts) ms) e = some (ms.map (NT.alone (NT.isBestEffort opts))) := by
  have := NT.results_eq d opts ms [] e h (by simp)
  simpa using this

/-- C48: in particular every message accepted by the strict parser comes back, if its text has no trailer followed by `<` -/
theorem C48_accepted_messages_come_back (d : Driver) (opts : List Opt) (ms : List (Bytes × SyslogMessage)) (e : ReadErr)
    (h : ∀ m ∈ ms, parse1 { bestEffort := NT.isBestEffort opts } m.1 = some ⟨some m.2, none⟩ ∧ Framable (trailerByte opts) m.1) :
    NT.results d opts (framed (trailerByte opts) (ms.map Prod.fst)) e = some (ms.map fun m => ⟨some m.2, none⟩) := by
  rw [C48_nontransparent_round_trip d opts _ e (by
    intro m hm
    obtain ⟨x, hx, rfl⟩ := List.mem_map.mp hm
    exact (h x hx).2), List.map_map]
  congr 1
  apply List.map_congr_left
  intro m hm
  simp only [Function.comp, NT.alone, (h m hm).1, Option.map_none]

/-- C49: what a fresh parser emits on every stream starting with `<`. The stream splits, in one way or another, into framed
messages and an unterminated rest; for each such splitting the results are those of the messages, in order, and then that of the
rest, if there is one. -/
theorem C49_number_and_order (d : Driver) (opts : List Opt) (bytes : Bytes) (e : ReadErr) (h : bytes.head? = some 60) :
    (∃ ms rest, bytes = framed (trailerByte opts) ms ++ rest ∧ (∀ m ∈ ms, Framable (trailerByte opts) m) ∧ trailerByte opts ∉ rest) ∧
    ∀ ms rest, bytes = framed (trailerByte opts) ms ++ rest → (∀ m ∈ ms, Framable (trailerByte opts) m) → trailerByte opts ∉ rest →
      NT.results d opts bytes e = some (ms.map (NT.alone (NT.isBestEffort opts)) ++
        if rest = [] then [] else [NT.aloneUnterminated (NT.isBestEffort opts) e rest]) := by
  refine ⟨NT.stream_cut opts bytes h, ?_⟩
  intro ms rest hb hm hr
  rw [hb]; exact NT.results_eq d opts ms rest e hm hr

/-- C50: an unterminated rest is parsed on its own and reported last, always with an error: its own, or that of the reader. -/
theorem C50_unterminated_rest (d : Driver) (opts : List Opt) (ms : List Bytes) (rest : Bytes) (e : ReadErr)
    (h : ∀ m ∈ ms, Framable (trailerByte opts) m) (hrest : trailerByte opts ∉ rest) (hne : rest ≠ []) :
    ∃ err, NT.results d opts (framed (trailerByte opts) ms ++ rest) e =
        some (ms.map (NT.alone (NT.isBestEffort opts)) ++ [⟨(NT.alone (NT.isBestEffort opts) rest).msg, some err⟩]) ∧
      ((NT.alone (NT.isBestEffort opts) rest).err = some err ∨
        (NT.alone (NT.isBestEffort opts) rest).err = none ∧ err = .reading e) := by
  rw [NT.results_eq d opts ms rest e h hrest]
  simp only [hne, if_false, NT.aloneUnterminated]
  cases hh : (NT.alone (NT.isBestEffort opts) rest).err with
  | none => exact ⟨_, rfl, Or.inr ⟨rfl, rfl⟩⟩
  | some x => exact ⟨x, rfl, Or.inl rfl⟩

/-- C51: if the stream has a trailer and does not start with `<`, no terminated message is ever reported: the listener gets nothing, or
only the unterminated rest of the stream. -/
theorem C51_silent_drop (d : Driver) (opts : List Opt) (body rest : Bytes) (e : ReadErr)
    (h60 : (body ++ [trailerByte opts]).head? ≠ some 60) (hrest : trailerByte opts ∉ rest) :
    NT.results d opts (body ++ trailerByte opts :: rest) e = some [] ∨
      rest ≠ [] ∧ NT.results d opts (body ++ trailerByte opts :: rest) e =
        some [NT.aloneUnterminated (NT.isBestEffort opts) e rest] := by
  obtain ⟨hi, h1, h2, h3, h4⟩ := NT.new_inv opts
  generalize hbe : NT.isBestEffort opts = be at *
  simp only [NT.results]
  generalize hm : newParser opts = m at *
  generalize trailerByte opts = t at *
  obtain ⟨c1, c2, c3⟩ := chunks_spec t (body ++ [t])
  generalize (chunks t (body ++ [t])).1 = L at *
  generalize hlast : (chunks t (body ++ [t])).2 = last at *
  have hl0 : last = [] := by
    rcases List.eq_nil_or_concat last with rfl | ⟨q, x, rfl⟩
    · rfl
    · rw [List.concat_eq_append, ← List.append_assoc] at c1
      have := (List.append_inj' c1 rfl).2
      simp at this
      simp [this] at c3
  rw [hl0, List.append_nil] at c1
  cases L with
  | nil => simp at c1
  | cons l ls =>
    have hl60 : l.head? ≠ some 60 := by
      obtain ⟨b, rfl, -⟩ := c2 l (by simp)
      rw [c1] at h60
      cases b <;> simpa using h60
    obtain ⟨m', a1, a2⟩ := parse_bad d e l ls rest c2 hl60 hrest m hi ⟨h1, h2⟩
    have hb : body ++ t :: rest = (l :: ls).flatten ++ rest := by rw [← c1]; simp
    rw [hb, a1, Option.map_some, a2, h4]
    by_cases hs : d.stopOnFail = true ∨ rest = []
    · left; simp [hs]
    · right
      rw [if_neg hs]
      exact ⟨fun hh => hs (Or.inr hh), rfl⟩

/-- C52: a second call of `Parse` on the same parser does not start afresh: it first emits the last message of the first stream again
(without a further trailing trailer byte, should it end with one), and then the messages of the second stream. -/
theorem C52_reuse_repeats_last_message (d : Driver) (opts : List Opt) (ms₁ ms₂ : List Bytes) (m : Bytes) (e₁ e₂ : ReadErr)
    (h₁ : ∀ x ∈ ms₁ ++ [m], Framable (trailerByte opts) x) (h₂ : ∀ x ∈ ms₂, Framable (trailerByte opts) x) :
    NT.results2 d opts (framed (trailerByte opts) (ms₁ ++ [m])) (framed (trailerByte opts) ms₂) e₁ e₂ =
      some ((ms₁ ++ [m]).map (NT.alone (NT.isBestEffort opts)) ++
        (NT.alone (NT.isBestEffort opts) (if m.getLast? = some (trailerByte opts) then m.dropLast else m) ::
          ms₂.map (NT.alone (NT.isBestEffort opts)))) := by
  obtain ⟨hi, h1, h2, h3, h4⟩ := NT.new_inv opts
  have ht : trailerByte opts ≠ 60 := fun hh => (lt_ne hi) hh.symm
  simp only [NT.results2]
  generalize hbe : NT.isBestEffort opts = be at *
  generalize hm : newParser opts = p at *
  generalize trailerByte opts = t at *
  have hmap : ∀ (gs : List (List Bytes)) (ms : List Bytes), gs.map List.flatten = ms.map (· ++ [t]) →
      (gs.map fun g => pmsg be (strip t g.flatten)) = ms.map (NT.alone be) := by
    intro gs ms g2
    have : (gs.map fun g => pmsg be (strip t g.flatten)) = (gs.map List.flatten).map fun w => pmsg be (strip t w) := by simp
    rw [this, g2, List.map_map]
    apply List.map_congr_left
    intro m _
    simp only [Function.comp, NT.strip_frame]
    rfl
  have hbytes : ∀ (gs : List (List Bytes)) (ms : List Bytes), gs.map List.flatten = ms.map (· ++ [t]) →
      framed t ms = gs.flatten.flatten ++ [] := by
    intro gs ms g2
    rw [NT.flatten_flatten, g2, framed, List.flatMap_def, List.append_nil]
  obtain ⟨gs, g1, g2⟩ := NT.groups_of_frames ht (ms₁ ++ [m]) h₁
  obtain ⟨m1, a1, a2, a3, a4, a5⟩ := parse_groups d e₁ gs [] g1 (by simp) p hi
  obtain ⟨gs', g1', g2'⟩ := NT.groups_of_frames ht ms₂ h₂
  obtain ⟨m2, b1, b2, b3, -⟩ := parse_groups d e₂ gs' [] g1' (by simp) m1 a2
  rw [hbytes gs _ g2, a1, Option.bind_some, hbytes gs' _ g2', b1, Option.map_some, b3]
  have hcand : m1.candidate = m := by
    rw [a4, g2]
    simp [strip]
  have hmne : m ≠ [] := by
    rintro rfl
    have := (h₁ [] (by simp)).lt
    simp at this
  have hlc : m1.lastChunk = [] := by
    simp only [ne_eq, not_true_eq_false, if_false] at a5
    cases hd : d.errOnEmpty <;> simp only [hd, Bool.false_eq_true, if_true, if_false, Prod.mk.injEq] at a5
    · rw [a5.2, h3]
    · exact a5.2
  have htail : tailRes be d e₂ [] m1.readError m1.lastChunk = [] := by
    simp only [tailRes, hlc, ne_eq, not_true_eq_false, if_false]
    cases d.errOnEmpty <;> cases m1.readError <;> simp
  have htail0 : tailRes be d e₁ [] p.readError p.lastChunk = [] := by
    simp only [tailRes, h2, ne_eq, not_true_eq_false, if_false]
    cases d.errOnEmpty <;> simp
  rw [a3, htail, htail0, hcand, hmap gs _ g2, hmap gs' _ g2', h1, h4]
  simp only [pend, hmne, if_false, if_true, List.nil_append, List.append_nil]
  rfl

/-! ## C53, C54 -/

theorem NT.caseOf_iff (s w : Bytes) (hw : ∀ c ∈ w, ¬ (97 ≤ c.toNat ∧ c.toNat ≤ 122)) : toUpper s = w ↔ CaseOf s w := by
  induction s generalizing w with
  | nil => cases w <;> simp [toUpper, CaseOf]
  | cons b s ih =>
    cases w with
    | nil => simp [toUpper, CaseOf]
    | cons c w =>
      have hc := hw c (by simp)
      have ih' := ih w (fun x hx => hw x (by simp [hx]))
      simp only [toUpper, List.map_cons, List.cons.injEq, CaseOf]
      simp only [toUpper] at ih'
      rw [ih']
      apply and_congr_left
      intro _
      have key : ∀ b c : UInt8, ¬ (97 ≤ c.toNat ∧ c.toNat ≤ 122) →
          ((if 97 ≤ b.toNat ∧ b.toNat ≤ 122 then b - 32 else b) = c ↔ (b = c ∨ (65 ≤ c.toNat ∧ c.toNat ≤ 90 ∧ b.toNat = c.toNat + 32))) := by
        intro b c hc
        by_cases hb : 97 ≤ b.toNat ∧ b.toNat ≤ 122
        · rw [if_pos hb, ← UInt8.toNat_inj, ← UInt8.toNat_inj, UInt8.toNat_sub_of_le _ _ (by rw [UInt8.le_iff_toNat_le]; simp; omega)]
          simp
          omega
        · rw [if_neg hb]
          constructor
          · exact Or.inl
          · rintro (h | h)
            · exact h
            · omega
      exact key b c hc

/-- C53: `TrailerTypeFromString`, `UnmarshalText` and `UnmarshalTOML` accept exactly the names LF and NUL, bare or in single or
double quotes, ignoring the case of ASCII letters. -/
theorem C53_trailer_names (s : Bytes) :
    ((trailerTypeFromString s).2 = true ∧ (trailerTypeFromString s).1 = LF ↔
      CaseOf s (ascii "LF") ∨ CaseOf s (ascii "'LF'") ∨ CaseOf s (ascii "\"LF\"")) ∧
    ((trailerTypeFromString s).2 = true ∧ (trailerTypeFromString s).1 = NUL ↔
      CaseOf s (ascii "NUL") ∨ CaseOf s (ascii "'NUL'") ∨ CaseOf s (ascii "\"NUL\"")) ∧
    ((trailerTypeFromString s).2 = true → (trailerTypeFromString s).1 = LF ∨ (trailerTypeFromString s).1 = NUL) ∧
    ∀ t, unmarshalText t s = trailerTypeFromString s := by
  rw [← NT.caseOf_iff _ _ (by decide), ← NT.caseOf_iff _ _ (by decide), ← NT.caseOf_iff _ _ (by decide),
    ← NT.caseOf_iff _ _ (by decide), ← NT.caseOf_iff _ _ (by decide), ← NT.caseOf_iff _ _ (by decide)]
  refine ⟨?_, ?_, ?_, fun _ => rfl⟩
  all_goals simp only [trailerTypeFromString]
  all_goals generalize toUpper s = u
  all_goals repeat' split
  all_goals simp_all
  all_goals decide

/-- C53: `MarshalText` and `UnmarshalText` are inverse on the two trailers, and every other value is refused. -/
theorem C53_text_round_trip (t : TrailerType) :
    ((t = LF ∨ t = NUL) ↔ ∃ s, t.marshalText = some s) ∧ (∀ s, t.marshalText = some s → ∀ u, unmarshalText u s = (t, true)) ∧
    (t.marshalText = none ↔ t.value = none) := by
  by_cases h0 : t = LF
  · subst h0
    refine ⟨⟨fun _ => ⟨ascii "LF", rfl⟩, fun _ => Or.inl rfl⟩, ?_, by decide⟩
    intro s hs u
    have : s = ascii "LF" := Option.some.inj (hs.symm.trans (rfl : TrailerType.marshalText LF = some (ascii "LF")))
    subst this; rfl
  by_cases h1 : t = NUL
  · subst h1
    refine ⟨⟨fun _ => ⟨ascii "NUL", rfl⟩, fun _ => Or.inr rfl⟩, ?_, by decide⟩
    intro s hs u
    have : s = ascii "NUL" := Option.some.inj (hs.symm.trans (rfl : TrailerType.marshalText NUL = some (ascii "NUL")))
    subst this; rfl
  have hlt : t < LF ∨ t > NUL := by
    have h0' : ¬ @Eq Int t 0 := h0
    have h1' : ¬ @Eq Int t 1 := h1
    show @LT.lt Int _ t 0 ∨ @LT.lt Int _ 1 t
    omega
  have hm : t.marshalText = none := by simp [TrailerType.marshalText, TrailerType.string, hlt]
  have hv : t.value = none := by simp [TrailerType.value, hlt]
  rw [hm, hv]
  simp [h0, h1]

/-- C53: a text that is refused still overwrites the value, with -1, which is no trailer. -/
theorem C53_refused_text_overwrites (t : TrailerType) (s : Bytes) (h : (unmarshalText t s).2 = false) :
    (unmarshalText t s).1 = -1 ∧ TrailerType.value (-1) = none := by
  refine ⟨?_, by decide⟩
  simp only [unmarshalText, trailerTypeFromString] at h ⊢
  generalize toUpper s = u at *
  repeat' split at h
  all_goals simp_all

/-- C54: an option with an unknown trailer has no effect, wherever it stands -/
theorem C54_unknown_trailer_ignored (pre post : List Opt) (t : TrailerType) (h : t ≠ LF ∧ t ≠ NUL) :
    newParser (pre ++ .trailer t :: post) = newParser (pre ++ post) := by
  have hv : t.value = none := by
    rcases NT.value_iff t with ⟨-, h'⟩ | ⟨-, h'⟩ | ⟨h', -⟩
    · exact absurd h' h.1
    · exact absurd h' h.2
    · exact h'
  simp only [newParser, List.foldl_append, List.foldl_cons, applyOpt, hv]

/-- C54: the trailer on which the reader cuts the stream is always the one of the automaton, and both are the last
known trailer among the options, or LF. -/
theorem C54_trailers_agree (opts : List Opt) :
    (newParser opts).trailertyp.value = some (newParser opts).trailer ∧ (newParser opts).trailer = trailerByte opts := by
  obtain ⟨hi, -⟩ := NT.new_inv opts
  refine ⟨?_, hi.tr⟩
  rw [hi.tr]
  rcases hi.typ with ⟨a, b⟩ | ⟨a, b⟩ <;> rw [a, b] <;> rfl

/-! ## Concrete cases -/

/-- the hypotheses of C48-C50 and C52 are met by messages with the trailer inside -/
theorem NT.framable_lf : Framable 10 (ascii "<1>1 - - - - - - a\nb") ∧ Framable 10 (ascii "<2>1 - - - - - -") ∧ Framable 10 (ascii "<x\n") := by
  have key : ∀ m : Bytes, m.head? = some 60 → (m.zip m.tail).all (fun p => p.1 != 10 || p.2 != 60) = true → Framable 10 m := by
    intro m h1 h2
    refine ⟨h1, ?_⟩
    rintro a b rfl
    have : ((10 : UInt8), (60 : UInt8)) ∈ (a ++ 10 :: 60 :: b).zip (a ++ 10 :: 60 :: b).tail := by
      clear h1 h2
      induction a with
      | nil => simp
      | cons c a ih =>
        rw [List.cons_append, List.tail_cons]
        cases ha : a ++ 10 :: 60 :: b with
        | nil => simp at ha
        | cons x y =>
          rw [ha, List.tail_cons] at ih
          rw [List.zip_cons_cons]
          exact List.mem_cons_of_mem _ ih
    have := List.all_eq_true.mp h2 _ this
    simp at this
  exact ⟨key _ (by decide) (by decide), key _ (by decide) (by decide), key _ (by decide) (by decide)⟩

/-- C48, C50 by computation: two messages (one with a line feed inside) and an unterminated third -/
example : (NT.results ⟨true, true, false⟩ [] (ascii "<1>1 - - - - - - a\nb\n<2>1 - - - - - -\n<3>1 - - - - - -")).map
    (List.map fun r => (r.msg.bind (·.priority), r.msg.bind (·.message), decide (r.err = some (.reading .unexpectedEOF)))) =
    some [(some 1, some (ascii "a\nb"), false), (some 2, none, false), (some 3, none, true)] := by
  decide +kernel

/-- C51 by computation: a valid second line is lost -/
example : NT.results ⟨true, true, false⟩ [] (ascii "x\n<2>1 - - - - - -\n") = some [] := by decide +kernel
example : NT.results ⟨false, true, false⟩ [] (ascii "x\n<2>1 - - - - - -\n") = some [] := by decide +kernel

/-- C52 by computation: the first message is emitted three times -/
example : (NT.results2 ⟨true, true, false⟩ [] (ascii "<1>1 - - - - - -\n") (ascii "<2>1 - - - - - -\n")).map
    (List.map fun r => (r.msg.bind fun m => m.priority)) = some [some 1, some 1, some 2] := by decide +kernel

/-- C52: so a reused parser does not behave like a fresh one -/
theorem C52_reuse_is_not_fresh (d : Driver) : ¬ ∀ b₁ b₂ r₁ r₂, NT.results d [] b₁ = some r₁ → NT.results d [] b₂ = some r₂ →
    NT.results2 d [] b₁ b₂ = some (r₁ ++ r₂) := by
  intro h
  obtain ⟨-, h2, -⟩ := NT.framable_lf
  have ht : trailerByte [] = 10 := rfl
  have hfr : ∀ x ∈ ([] : List Bytes) ++ [ascii "<2>1 - - - - - -"], Framable (trailerByte []) x := by
    intro x hx; simp at hx; rw [hx, ht]; exact h2
  have e1 := C48_nontransparent_round_trip d [] ([] ++ [ascii "<2>1 - - - - - -"]) .unexpectedEOF hfr
  have e2 := C52_reuse_repeats_last_message d [] [] [] (ascii "<2>1 - - - - - -") .unexpectedEOF .unexpectedEOF hfr (by simp)
  have e3 := C48_nontransparent_round_trip d [] [] .unexpectedEOF (by simp)
  have := h _ _ _ _ e1 e3
  rw [e2] at this
  have := congrArg (Option.map List.length) this
  simp at this

/-- C53, C54 on concrete values -/
example : trailerTypeFromString (ascii "'nUl'") = (NUL, true) ∧ trailerTypeFromString (ascii "LF\"") = (-1, false) := by decide
example : trailerByte [.trailer NUL, .trailer 7, .bestEffort] = 0 := by decide

end Verif.Props
