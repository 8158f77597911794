import Verif.Props.Builder
import Verif.Props.Octet
import Verif.Props.NonTransparent

/-!
# C62: from the builder through either framing to the listener

Specification: `Sent` below; framing texts and readers in `Verif.Spec.Octet` and `Verif.Spec.NonTransparent`.
-/

namespace Verif.Props
open Verif.Spec Verif.Builder
open NT (trailerByte)
open Verif.Rfc5424 (parse1 SyslogMessage)

/-- `m` is a valid message assembled with the setters, with US-ASCII parameter values, and `text` is what `String` returns for it -/
def Sent (m : SyslogMessage) (text : Bytes) : Prop :=
  (∃ calls g g', runCalls calls ({}, g) = some (m, g')) ∧ m.valid = true ∧ AsciiValues m ∧
    ∃ outer inner, IterationOrder m outer inner ∧ stringWith outer inner m = some text

theorem Sent.parses {m : SyslogMessage} {text : Bytes} (h : Sent m text) (be : Bool) : parse1 ⟨be, false⟩ text = some ⟨some m, none⟩ := by
  obtain ⟨⟨calls, g, g', h1⟩, h2, h3, outer, inner, h4, h5⟩ := h
  obtain ⟨t, e1, e2⟩ := C27_round_trip calls g m g' h1 h2 h3 outer inner h4 be
  rw [h5, Option.some.injEq] at e1
  rw [e1]; exact e2

/-- C62: messages that were built, printed and framed with their lengths come back unchanged, in order, however the network cuts the
stream, in strict and in best effort mode. -/
theorem C62_octet_counting (opts : List Octet.Opt) (hfit : Fits opts) (l : List (SyslogMessage × Bytes)) (hne : l ≠ []) (hs : ∀ x ∈ l, Sent x.1 x.2)
    (hmax : ∀ x ∈ l, (x.2.length : Int) ≤ maxLength opts ∧ x.2.length < 2 ^ 63)
    (sched : List Octet.Read) (hd : Delivers sched ((l.map Prod.snd).flatMap octetFrame)) :
    results opts sched = some (l.map fun x => ⟨some x.1, none⟩) := by
  have := C39_round_trip opts hfit (l.map Prod.swap) (by simpa using hne)
    (by
      intro x hx
      obtain ⟨y, hy, rfl⟩ := List.mem_map.mp hx
      exact (hs y hy).parses false)
    (by
      intro x hx
      obtain ⟨y, hy, rfl⟩ := List.mem_map.mp hx
      exact hmax y hy) sched (by simpa [List.map_map, Function.comp_def] using hd)
  simpa [List.map_map, Function.comp_def] using this

/-! ## which texts non-transparent framing can carry -/

theorem noFalse_nil (t : UInt8) : NoFalseStart t [] := by intro a b h; simp at h

theorem noFalse_cons {t c : UInt8} {x : Bytes} : NoFalseStart t (c :: x) ↔ ¬ (c = t ∧ x.head? = some 60) ∧ NoFalseStart t x := by
  constructor
  · intro h
    refine ⟨?_, fun a b e => h (c :: a) b (by rw [e]; rfl)⟩
    rintro ⟨rfl, hx⟩
    cases x with
    | nil => simp at hx
    | cons y x => simp at hx; exact h [] x (by rw [hx]; rfl)
  · rintro ⟨h1, h2⟩ a b e
    cases a with
    | nil =>
      simp only [List.nil_append, List.cons.injEq] at e
      exact h1 ⟨e.1, by rw [e.2]; rfl⟩
    | cons d a =>
      simp only [List.cons_append, List.cons.injEq] at e
      exact h2 a b e.2

theorem noFalse_skip {t : UInt8} {a b : Bytes} (h : ∀ c ∈ a, c ≠ t) : NoFalseStart t (a ++ b) ↔ NoFalseStart t b := by
  induction a with
  | nil => rfl
  | cons c a ih =>
    rw [List.cons_append, noFalse_cons, ih fun d hd => h d (by simp [hd])]
    exact and_iff_right fun hh => h c (by simp) hh.1

theorem noFalse_sep {t c : UInt8} {v b : Bytes} (h1 : c ≠ 60) (h2 : c ≠ t) :
    NoFalseStart t (v ++ c :: b) ↔ NoFalseStart t v ∧ NoFalseStart t b := by
  induction v with
  | nil =>
    rw [List.nil_append, noFalse_cons]
    constructor
    · exact fun h => ⟨noFalse_nil t, h.2⟩
    · exact fun h => ⟨fun hh => h2 hh.1, h.2⟩
  | cons d v ih =>
    rw [List.cons_append, noFalse_cons, noFalse_cons, ih, and_assoc]
    have : (v ++ c :: b).head? = some 60 ↔ v.head? = some 60 := by
      cases v with
      | nil => simp [h1]
      | cons e v => simp
    rw [this]

theorem head_escape (v : Bytes) : (escape v).head? = some 60 ↔ v.head? = some 60 := by
  cases v with
  | nil => rfl
  | cons b l =>
    rw [escape]
    split
    · rename_i h
      simp only [List.head?_cons, Option.some.injEq]
      constructor
      · intro hh; exact absurd hh (by decide)
      · rintro rfl; exact absurd h (by decide)
    · rfl

theorem noFalse_escape {t : UInt8} (ht : t = 0 ∨ t = 10) (v : Bytes) : NoFalseStart t (escape v) ↔ NoFalseStart t v := by
  induction v with
  | nil => rfl
  | cons b l ih =>
    rw [escape]
    split
    · rename_i h
      rw [noFalse_cons, noFalse_cons, noFalse_cons, ih, head_escape]
      constructor
      · exact fun hh => hh.2
      · refine fun hh => ⟨?_, hh⟩
        rintro ⟨h92, -⟩
        rcases ht with rfl | rfl <;> revert h92 <;> decide
    · rw [noFalse_cons, noFalse_cons, ih, head_escape]

theorem stamp_visible {s : Stamp} (h : s.WF) : ∀ b ∈ s.render, 33 ≤ b.toNat := by
  have hd : ∀ n, n ≤ 9 → 33 ≤ (digit n).toNat := by
    intro n hn
    rw [digit, UInt8.toNat_ofNat', Nat.mod_eq_of_lt (by omega)]; omega
  have h2 : ∀ n, n ≤ 99 → ∀ b ∈ d2 n, 33 ≤ b.toNat := by
    intro n hn b hb
    simp only [d2, List.mem_cons, List.not_mem_nil, or_false] at hb
    rcases hb with rfl | rfl <;> exact hd _ (by omega)
  obtain ⟨a1, -, a3, -, a5, a6, a7, a8, -, a10, a11⟩ := h
  intro b hb
  simp only [Stamp.render, d4, List.mem_append, List.mem_cons] at hb
  rcases hb with (hb | hb) | rfl | hb | rfl | hb | rfl | hb | rfl | hb | rfl | hb | hb | hb
  · exact h2 _ (by omega) b hb
  · exact h2 _ (by omega) b hb
  · decide
  · exact h2 _ (by omega) b hb
  · decide
  · exact h2 _ (by omega) b hb
  · decide
  · exact h2 _ (by omega) b hb
  · decide
  · exact h2 _ (by omega) b hb
  · decide
  · exact h2 _ (by omega) b hb
  · unfold fracRender at hb
    split at hb
    · simp at hb
    · rename_i ds hds
      rcases List.mem_cons.mp hb with rfl | hb
      · decide
      · obtain ⟨d, hd', rfl⟩ := List.mem_map.mp hb
        exact hd d (a10 d hd')
  · revert hb a11
    cases s.zone with
    | utc => intro _ hb; simp [Zone.render] at hb; rw [hb]; decide
    | num neg hh mm =>
      rintro ⟨z1, z2⟩ hb
      simp only [Zone.render, List.mem_cons, List.mem_append] at hb
      rcases hb with rfl | hb | rfl | hb
      · cases neg <;> decide
      · exact h2 _ (by omega) b hb
      · decide
      · exact h2 _ (by omega) b hb

theorem field_visible {n : Nat} {f : Option Bytes} (h : FieldWF n f) : ∀ b ∈ fieldText f, 33 ≤ b.toNat := by
  intro b hb
  cases f with
  | none => simp [fieldText] at hb; rw [hb]; decide
  | some w => exact ((h.1.2.2) b hb).1

theorem dec_visible {n : Nat} : ∀ b ∈ dec n, 33 ≤ b.toNat := by
  intro b hb
  have := dec_digits n b hb
  omega

theorem visible_ne {t : UInt8} (ht : t = 0 ∨ t = 10) {b : UInt8} (h : 33 ≤ b.toNat) : b ≠ t := by
  rintro rfl
  rcases ht with rfl | rfl <;> revert h <;> decide

theorem noFalse_params {t : UInt8} (ht : t = 0 ∨ t = 10) (ps : List Param) (hw : ∀ q ∈ ps, q.WF) (r : Bytes) :
    NoFalseStart t (ps.flatMap Param.render ++ r) ↔ (∀ q ∈ ps, NoFalseStart t q.value) ∧ NoFalseStart t r := by
  induction ps with
  | nil => simp
  | cons q ps ih =>
    have e : (q :: ps).flatMap Param.render ++ r = (32 :: q.name ++ [61, 34]) ++ (escape q.value ++ 34 :: (ps.flatMap Param.render ++ r)) := by
      simp [Param.render]
    rw [e, noFalse_skip, noFalse_sep (by decide), ih fun x hx => hw x (by simp [hx]), noFalse_escape ht]
    · simp only [List.mem_cons, forall_eq_or_imp, and_assoc]
    · rcases ht with rfl | rfl <;> decide
    · intro c hc
      have : c = 32 ∨ c ∈ q.name ∨ c = 61 ∨ c = 34 := by simpa using hc
      rcases this with rfl | hc | rfl | rfl
      · rcases ht with rfl | rfl <;> decide
      · exact visible_ne ht ((hw q (by simp)).1.2.2 c hc).1.1
      · rcases ht with rfl | rfl <;> decide
      · rcases ht with rfl | rfl <;> decide

theorem noFalse_elems {t : UInt8} (ht : t = 0 ∨ t = 10) (es : List Elem) (hw : ∀ e ∈ es, e.WF) (r : Bytes) :
    NoFalseStart t (es.flatMap Elem.render ++ r) ↔ (∀ e ∈ es, ∀ q ∈ e.params, NoFalseStart t q.value) ∧ NoFalseStart t r := by
  induction es with
  | nil => simp
  | cons e es ih =>
    have h' : (e :: es).flatMap Elem.render ++ r =
        (91 :: e.id) ++ (e.params.flatMap Param.render ++ ([93] ++ (es.flatMap Elem.render ++ r))) := by
      simp [Elem.render]
    rw [h', noFalse_skip, noFalse_params ht _ (hw e (by simp)).2, noFalse_skip, ih fun x hx => hw x (by simp [hx])]
    · simp only [List.mem_cons, forall_eq_or_imp, and_assoc]
    · intro c hc
      simp only [List.mem_singleton] at hc; subst hc
      rcases ht with rfl | rfl <;> decide
    · intro c hc
      rcases List.mem_cons.mp hc with rfl | hc
      · rcases ht with rfl | rfl <;> decide
      · exact visible_ne ht ((hw e (by simp)).1.2.2 c hc).1.1

/-- C62: exactly these messages can be carried: neither a parameter value nor the message text contains the trailer followed by `<`. -/
theorem C62_framable_iff (t : UInt8) (ht : t = 0 ∨ t = 10) (p : Parts) (h : p.WF) :
    Framable t p.render ↔ (∀ e ∈ p.sd, ∀ q ∈ e.params, NoFalseStart t q.value) ∧ ∀ w, p.msg = some w → NoFalseStart t w := by
  have hm : NoFalseStart t (msgText p.msg) ↔ ∀ w, p.msg = some w → NoFalseStart t w := by
    cases p.msg with
    | none => exact ⟨fun _ w hw => by simp at hw, fun _ => noFalse_nil t⟩
    | some w =>
      rw [msgText, noFalse_cons]
      constructor
      · intro hh w' hw'; rw [Option.some.injEq] at hw'; exact hw' ▸ hh.2
      · refine fun hh => ⟨?_, hh w rfl⟩
        rintro ⟨h32, -⟩
        rcases ht with rfl | rfl <;> revert h32 <;> decide
  have hh : NoFalseStart t p.render ↔ NoFalseStart t (sdText p.sd ++ msgText p.msg) := by
    rw [Parts.render_eq, noFalse_skip]
    intro c hc
    simp only [Parts.head, List.mem_append, List.mem_cons, List.not_mem_nil, or_false] at hc
    have lit : ∀ x : UInt8, x = 60 ∨ x = 62 ∨ x = 32 → x ≠ t := by
      rintro x (rfl | rfl | rfl) <;> rcases ht with rfl | rfl <;> decide
    rcases hc with hc | hc | hc | hc | hc | hc | hc | hc | hc | hc | hc | hc | hc | hc | hc
    · exact lit c (Or.inl hc)
    · exact visible_ne ht (dec_visible c hc)
    · exact lit c (Or.inr (Or.inl hc))
    · exact visible_ne ht (dec_visible c hc)
    · exact lit c (Or.inr (Or.inr hc))
    · revert hc
      cases hts : p.timestamp with
      | none => intro hc; simp [tsText] at hc; rw [hc]; rcases ht with rfl | rfl <;> decide
      | some s => exact fun hc => visible_ne ht (stamp_visible (h.timestamp s hts).1 c hc)
    · exact lit c (Or.inr (Or.inr hc))
    · exact visible_ne ht (field_visible h.hostname c hc)
    · exact lit c (Or.inr (Or.inr hc))
    · exact visible_ne ht (field_visible h.appname c hc)
    · exact lit c (Or.inr (Or.inr hc))
    · exact visible_ne ht (field_visible h.procID c hc)
    · exact lit c (Or.inr (Or.inr hc))
    · exact visible_ne ht (field_visible h.msgID c hc)
    · exact lit c (Or.inr (Or.inr hc))
  have hsd : NoFalseStart t (sdText p.sd ++ msgText p.msg) ↔
      (∀ e ∈ p.sd, ∀ q ∈ e.params, NoFalseStart t q.value) ∧ NoFalseStart t (msgText p.msg) := by
    cases hp : p.sd with
    | nil =>
      rw [sdText, noFalse_skip]
      · simp
      · intro c hc; simp at hc; rw [hc]; rcases ht with rfl | rfl <;> decide
    | cons e es =>
      have := noFalse_elems ht (e :: es) (hp ▸ h.sd) (msgText p.msg)
      exact this
  rw [← hm, ← hsd, ← hh]
  exact ⟨fun x => x.inside, fun x => ⟨rfl, x⟩⟩

theorem trailer_cases (opts : List NonTransparent.Opt) : trailerByte opts = 0 ∨ trailerByte opts = 10 := by
  obtain ⟨hi, -⟩ := NT.new_inv opts
  rcases hi.typ with ⟨-, b⟩ | ⟨-, b⟩
  · exact Or.inr b
  · exact Or.inl b

/-- no parameter value and not the message text contains the trailer followed by `<` -/
def Carriable (t : UInt8) (m : SyslogMessage) : Prop :=
  (∀ id name v, param m id name = some v → NoFalseStart t v) ∧ ∀ w, m.message = some w → NoFalseStart t w

theorem Sent.framable {m : SyslogMessage} {text : Bytes} (h : Sent m text) {t : UInt8} (ht : t = 0 ∨ t = 10) :
    Framable t text ↔ Carriable t m := by
  obtain ⟨⟨calls, g, g', h1⟩, h2, h3, outer, inner, h4, h5⟩ := h
  obtain ⟨m2, g2, h1', hb⟩ := runCalls_built calls {} g built_empty
  rw [h1, Option.some.injEq, Prod.mk.injEq] at h1'
  obtain ⟨rfl, rfl⟩ := h1'
  obtain ⟨p, e1, e2, e3, e4, e5⟩ := string_built hb h2 h4.1 h4.inner_perm
  rw [h5, Option.some.injEq] at e2
  rw [e2, C62_framable_iff t ht p e1, e4, Carriable]
  refine and_congr ?_ Iff.rfl
  rw [e5]
  constructor
  · intro hh id name v hv
    unfold param at hv
    rw [← element_getD] at hv
    obtain ⟨ps, q1, q2⟩ := Option.bind_eq_some_iff.mp hv
    have := hh _ (List.mem_map_of_mem (SMap.mem_of_find q1)) _ (List.mem_map_of_mem (SMap.mem_of_find q2))
    simp only at this
    rwa [mangle_stable_of (stable_ascii (h3 id name v (by unfold param; rw [← element_getD]; exact hv)))] at this
  · intro hh e he q hq
    obtain ⟨e', he', rfl⟩ := List.mem_map.mp he
    obtain ⟨q', hq', rfl⟩ := List.mem_map.mp hq
    have hsd := hb.getD
    have hp : param m e'.1 q'.1 = some q'.2 := by
      unfold param
      rw [← element_getD, SMap.find_of_mem hsd.1 he']
      exact SMap.find_of_mem (hsd.2 _ he').2.1 hq'
    simp only
    rw [mangle_stable_of (stable_ascii (h3 _ _ _ hp))]
    exact hh _ _ _ hp

/-- C62: the same for non-transparent framing, for the messages it can carry. -/
theorem C62_nontransparent (d : NonTransparent.Driver) (opts : List NonTransparent.Opt) (l : List (SyslogMessage × Bytes)) (e : NonTransparent.ReadErr)
    (hs : ∀ x ∈ l, Sent x.1 x.2) (hc : ∀ x ∈ l, Carriable (trailerByte opts) x.1) :
    NT.results d opts (framed (trailerByte opts) (l.map Prod.snd)) e = some (l.map fun x => ⟨some x.1, none⟩) := by
  have := C48_accepted_messages_come_back d opts (l.map Prod.swap) e (by
    intro x hx
    obtain ⟨y, hy, rfl⟩ := List.mem_map.mp hx
    exact ⟨(hs y hy).parses _, ((hs y hy).framable (trailer_cases opts)).mpr (hc y hy)⟩)
  simpa [List.map_map, Function.comp_def] using this

/-- C62: a message outside this class does not come back: sending it gives exactly one result if and only if it is carriable, and
otherwise it gives two results or more. -/
theorem C62_nontransparent_boundary (d : NonTransparent.Driver) (opts : List NonTransparent.Opt) (m : SyslogMessage) (text : Bytes)
    (e : NonTransparent.ReadErr) (hs : Sent m text) :
    ((∃ r, NT.results d opts (framed (trailerByte opts) [text]) e = some [r]) ↔ Carriable (trailerByte opts) m) ∧
    (¬ Carriable (trailerByte opts) m →
      ∃ r1 r2 rs, NT.results d opts (framed (trailerByte opts) [text]) e = some (r1 :: r2 :: rs)) := by
  have h60 : text.head? = some 60 := by
    obtain ⟨⟨calls, g, g', h1⟩, h2, h3, outer, inner, h4, h5⟩ := hs
    obtain ⟨m2, g2, h1', hb⟩ := runCalls_built calls {} g built_empty
    rw [h1, Option.some.injEq, Prod.mk.injEq] at h1'
    obtain ⟨rfl, rfl⟩ := h1'
    obtain ⟨p, -, e2, -⟩ := string_built hb h2 h4.1 h4.inner_perm
    rw [h5, Option.some.injEq] at e2
    rw [e2]; rfl
  have hb : (framed (trailerByte opts) [text]).head? = some 60 := by
    cases text with
    | nil => simp at h60
    | cons c w => simpa [framed] using h60
  obtain ⟨⟨ms, rest, c1, c2, c3⟩, hall⟩ := C49_number_and_order d opts _ e hb
  have hres := hall ms rest c1 c2 c3
  have hrest : rest = [] := by
    rcases List.eq_nil_or_concat rest with rfl | ⟨q, x, rfl⟩
    · rfl
    · exfalso
      have := congrArg List.getLast? c1
      simp only [framed, List.flatMap_cons, List.flatMap_nil, List.append_nil, List.concat_eq_append, List.getLast?_append,
        List.getLast?_singleton, Option.some_or, Option.some.injEq] at this
      exact c3 (by simp [this])
  subst hrest
  rw [if_pos rfl, List.append_nil] at hres
  have hone : ∀ x, ms = [x] → Carriable (trailerByte opts) m := by
    intro x hx
    subst hx
    have : text = x := by simpa [framed] using c1
    rw [← hs.framable (trailer_cases opts), this]
    exact c2 x (by simp)
  refine ⟨⟨?_, ?_⟩, ?_⟩
  · rintro ⟨r, hr⟩
    rw [hr, Option.some.injEq] at hres
    have hl := congrArg List.length hres
    rw [List.length_map] at hl
    cases ms with
    | nil => simp at hl
    | cons x ms =>
      cases ms with
      | cons y ms => simp at hl
      | nil => exact hone x rfl
  · intro hc
    exact ⟨_, C62_nontransparent d opts [(m, text)] e (by simpa using hs) (by simpa using hc)⟩
  · intro hc
    cases ms with
    | nil => simp [framed] at c1
    | cons x ms =>
      cases ms with
      | nil => exact absurd (hone x rfl) hc
      | cons y ms => exact ⟨_, _, _, hres⟩

/-- C62: so a receiver of carriable messages gets the same results with either framing. -/
theorem C62_framings_agree (o1 : List Octet.Opt) (hfit : Fits o1) (d : NonTransparent.Driver) (o2 : List NonTransparent.Opt) (l : List (SyslogMessage × Bytes))
    (hne : l ≠ []) (e : NonTransparent.ReadErr) (hs : ∀ x ∈ l, Sent x.1 x.2) (hc : ∀ x ∈ l, Carriable (trailerByte o2) x.1)
    (hmax : ∀ x ∈ l, (x.2.length : Int) ≤ maxLength o1 ∧ x.2.length < 2 ^ 63)
    (sched : List Octet.Read) (hd : Delivers sched ((l.map Prod.snd).flatMap octetFrame)) :
    (results o1 sched).map (List.map Octet.Result.msg) =
      (NT.results d o2 (framed (trailerByte o2) (l.map Prod.snd)) e).map (List.map NonTransparent.Result.msg) := by
  rw [C62_octet_counting o1 hfit l hne hs hmax sched hd, C62_nontransparent d o2 l e hs hc]
  simp [Function.comp_def]

/-! ## a concrete case -/

def sentCalls : List Call := [.priority 165, .version 1, .hostname (ascii "h"), .parameter (ascii "a") (ascii "x") (ascii "1\n2"), .message (ascii "hi\n")]

def sentMsg : SyslogMessage :=
  { priority := some 165, facility := some 20, severity := some 5, version := 1, hostname := some (ascii "h"),
    structuredData := some [(ascii "a", [(ascii "x", ascii "1\n2")])], message := some (ascii "hi\n") }

theorem sent_example : Sent sentMsg (ascii "<165>1 - h - - - [a x=\"1\n2\"] hi\n") := by
  refine ⟨⟨sentCalls, {}, ⟨ascii "a", ascii "x"⟩, by decide +kernel⟩, by decide +kernel, ?_, [ascii "a"], fun _ => [ascii "x"], ⟨?_, ?_⟩, by decide +kernel⟩
  · intro id name v hv
    simp only [param, element, sentMsg, Option.bind_some, SMap.find] at hv
    split at hv
    · simp only [Option.bind_some, SMap.find] at hv
      split at hv
      · rw [← Option.some.inj hv]; decide +kernel
      · simp at hv
    · simp at hv
  · exact List.Perm.refl _
  · intro id ps h
    simp only [element, sentMsg, Option.bind_some, SMap.find] at h
    split at h
    · rw [← Option.some.inj h]; exact List.Perm.refl _
    · simp at h

instance decNoFalse (t : UInt8) : (m : Bytes) → Decidable (NoFalseStart t m)
  | [] => .isTrue (noFalse_nil t)
  | c :: x =>
    have := decNoFalse t x
    decidable_of_iff' _ noFalse_cons

example : Carriable 10 sentMsg := (sent_example.framable (Or.inr rfl)).mp ⟨by decide +kernel, by decide +kernel⟩

/-- a message text with a line feed before `<` is a valid message that framing with line feeds cannot carry, and framing with NUL can -/
example : ¬ Carriable 10 { sentMsg with message := some (ascii "a\n<b") } ∧ Carriable 0 { sentMsg with message := some (ascii "a\n<b") } := by
  refine ⟨fun h => absurd (h.2 _ rfl) (by decide +kernel), ?_, ?_⟩
  · intro id name v hv
    simp only [param, element, sentMsg, Option.bind_some, SMap.find] at hv
    split at hv
    · simp only [Option.bind_some, SMap.find] at hv
      split at hv
      · rw [← Option.some.inj hv]; decide +kernel
      · simp at hv
    · simp at hv
  · intro w hw
    rw [← Option.some.inj hw]; decide +kernel

end Verif.Props
