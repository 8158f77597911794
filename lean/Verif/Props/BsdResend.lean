import Verif.Props.Rfc3164
import Verif.Spec.BsdResend

/-!
# C99: what an RFC 3164 message tells about its text, and sending it on
-/

namespace Verif.Props.Bsd
open Verif.Spec Verif.Spec.Bsd Verif.Rfc3164

/-! ## The last part -/

theorem follows_cut {a b x y : Bytes} (h : a ++ (ascii "]: " ++ x) = b ++ (ascii "]: " ++ y)) (hl : y.length < x.length) :
    ∃ c, x = c ++ (ascii "]: " ++ y) := by
  have h1 : a ++ 93 :: 58 :: 32 :: x = b ++ 93 :: 58 :: 32 :: y := h
  have hlen := congrArg List.length h1
  simp only [List.length_append, List.length_cons] at hlen
  rcases List.append_eq_append_iff.mp h1 with ⟨w, hb, hw⟩ | ⟨w, ha, hw⟩
  · -- b = a ++ w
    match w with
    | [] => simp at hw; rw [hw] at hl; omega
    | [_] => simp at hw
    | [_, _] => simp at hw
    | _ :: _ :: _ :: c => simp at hw; exact ⟨c, hw.2.2.2⟩
  · rw [ha] at hlen; simp only [List.length_append] at hlen; omega

/-- the last part has no last part -/
theorem LastPart.not_follows {s x : Bytes} (h : LastPart s x) (y : Bytes) : ¬ Follows x y := by
  rintro ⟨⟨a, hx⟩, hc⟩
  rcases h with ⟨⟨⟨b, hs⟩, -⟩, hmin⟩ | ⟨hno, rfl⟩
  · have := hmin y ⟨⟨b ++ (ascii "]: " ++ a), by rw [hs, hx]; simp⟩, hc⟩
    rw [hx] at this
    simp only [List.length_append, show (ascii "]: ").length = 3 from rfl] at this
    omega
  · exact hno y ⟨⟨a, hx⟩, hc⟩

theorem LastPart.of_follows {s x : Bytes} (h : Follows s x) (hx : ∀ y, ¬ Follows x y) : LastPart s x := by
  refine Or.inl ⟨h, fun y hy => ?_⟩
  apply Nat.le_of_not_lt
  intro hl
  obtain ⟨⟨a, ha⟩, -⟩ := h
  obtain ⟨⟨b, hb⟩, hc⟩ := hy
  obtain ⟨c, hc'⟩ := follows_cut (ha ▸ hb ▸ rfl : a ++ (ascii "]: " ++ x) = b ++ (ascii "]: " ++ y)) hl
  exact hx y ⟨⟨c, hc'⟩, hc⟩

theorem LastPart.self {s : Bytes} (h : ∀ y, ¬ Follows s y) : LastPart s s := Or.inr ⟨h, rfl⟩

theorem LastPart.unique {s x y : Bytes} (h : LastPart s x) (h' : LastPart s y) : x = y := by
  rcases h with ⟨⟨⟨a, ha⟩, hc⟩, hm⟩ | ⟨hn, rfl⟩
  · rcases h' with ⟨⟨⟨b, hb⟩, hc'⟩, hm'⟩ | ⟨hn', -⟩
    · have h1 := hm y ⟨⟨b, hb⟩, hc'⟩
      have h2 := hm' x ⟨⟨a, ha⟩, hc⟩
      have e : (a ++ ascii "]: ") ++ x = (b ++ ascii "]: ") ++ y := by rw [List.append_assoc, List.append_assoc, ← ha, ← hb]
      exact (List.append_inj' e (by omega)).2
    · exact absurd ⟨⟨a, ha⟩, hc⟩ (hn' x)
  · rcases h' with ⟨hf, -⟩ | ⟨-, rfl⟩
    · exact absurd hf (hn y)
    · rfl

/-- a part that is not empty -/
theorem starts_of {w : Bytes} (h : w ≠ []) (hc : Clean w) : ∃ c r, w = c :: r ∧ ¬ Control c := by
  cases w with
  | nil => exact absurd rfl h
  | cons c r => exact ⟨c, r, rfl, hc c (by simp)⟩

theorem Follows.append {s x v : Bytes} (h : Follows s x) : Follows (s ++ v) (x ++ v) := by
  obtain ⟨⟨a, ha⟩, c, r, hx, hc⟩ := h
  exact ⟨⟨a, by rw [ha]; simp⟩, c, r ++ v, by rw [hx]; rfl, hc⟩

theorem notFollows_of_no_bracket {s : Bytes} (h : ∀ b ∈ s, b ≠ 93) (y : Bytes) : ¬ Follows s y := by
  rintro ⟨⟨a, rfl⟩, -⟩
  exact h 93 (by simp [ascii]) rfl

/-- the text of `u]v`: without `]`, or the pid and `]v`, or `]v` -/
theorem text_cases {u v pid text : Bytes} (hv : ∀ b ∈ v, b ≠ 93) (hp : LastPart u pid) (ht : LastPart (u ++ 93 :: v) text) (hc : Clean text) :
    (∀ b ∈ text, b ≠ 93) ∨ text = pid ++ 93 :: v ∨ text = 93 :: v := by
  by_cases hb : ∀ b ∈ text, b ≠ 93
  · exact Or.inl hb
  · refine Or.inr ?_
    have hnf := LastPart.not_follows ht
    rcases ht with ⟨⟨⟨a, ha⟩, -⟩, hm⟩ | ⟨hno, rfl⟩
    · have e : u ++ 93 :: v = (a ++ ascii "]: ") ++ text := by rw [ha]; simp
      rcases List.append_eq_append_iff.mp e with ⟨w, h1, h2⟩ | ⟨w, h1, h2⟩
      · cases w with
        | nil => exact Or.inr h2.symm
        | cons c w =>
          simp only [List.cons_append, List.cons.injEq] at h2
          exfalso; apply hb
          intro b hbt; exact hv b (by rw [h2.2]; simp [hbt])
      · by_cases hw : w = []
        · subst hw; exact Or.inr h2
        · left
          have hf : Follows u w := ⟨⟨a, by rw [h1]; simp⟩, starts_of hw (fun b hb' => hc b (by rw [h2]; simp [hb']))⟩
          have : LastPart u w := LastPart.of_follows hf (fun y hy => hnf (y ++ 93 :: v) (by rw [h2]; exact Follows.append hy))
          rw [h2, LastPart.unique this hp]
    · left
      have : LastPart u u := LastPart.self (fun y hy => hno _ (Follows.append (v := 93 :: v) hy))
      rw [LastPart.unique this hp]

/-- `pid]: ` is followed by nothing, or by what `pid` ends in -/
theorem lastPart_bare {pid : Bytes} (hp : ∀ y, ¬ Follows pid y) (hne : pid ≠ []) :
    LastPart (pid ++ ascii "]: ") pid ↔ pid = ascii "]: " := by
  constructor
  · rintro (⟨⟨⟨a, ha⟩, -⟩, -⟩ | ⟨-, h⟩)
    · have hlen := congrArg List.length ha
      simp only [List.length_append, show (ascii "]: ").length = 3 from rfl] at hlen
      have ha0 : a = [] := List.eq_nil_of_length_eq_zero (by omega)
      subst ha0
      replace ha : pid ++ [93, 58, 32] = 93 :: 58 :: 32 :: pid := ha
      match pid with
      | [] => exact absurd rfl hne
      | [_] => simp at ha
      | [_, _] => simp at ha
      | a :: b :: c :: w =>
        simp only [List.cons_append, List.cons.injEq] at ha
        obtain ⟨rfl, rfl, rfl, hw⟩ := ha
        cases w with
        | nil => rfl
        | cons d w =>
          simp only [List.cons_append, List.cons.injEq] at hw
          exact absurd ⟨⟨[], rfl⟩, d, w, rfl, by rw [hw.1]; decide⟩ (hp (d :: w))
    · have hlen := congrArg List.length h
      simp only [List.length_append, show (ascii "]: ").length = 3 from rfl] at hlen
      omega
  · rintro rfl
    exact LastPart.of_follows ⟨⟨[], rfl⟩, 93, [58, 32], rfl, by decide⟩ hp

theorem lastPart_exists (s : Bytes) : ∃ x, LastPart s x := by
  have key : ∀ n s, s.length ≤ n → ∃ x, LastPart s x := by
    intro n
    induction n with
    | zero =>
      intro s hs
      have : s = [] := List.eq_nil_of_length_eq_zero (by omega)
      subst this
      exact ⟨[], LastPart.self (notFollows_of_no_bracket (by simp))⟩
    | succ n ih =>
      intro s hs
      by_cases h : ∃ y, Follows s y
      · obtain ⟨y, hy⟩ := h
        obtain ⟨⟨a, ha⟩, hc⟩ := hy
        have hl : y.length ≤ n := by
          have := congrArg List.length ha
          simp only [List.length_append, show (ascii "]: ").length = 3 from rfl] at this
          omega
        obtain ⟨x, hx⟩ := ih y hl
        refine ⟨x, ?_⟩
        rcases hx with ⟨hf, hm⟩ | ⟨hn, rfl⟩
        · refine LastPart.of_follows ?_ (LastPart.not_follows (Or.inl ⟨hf, hm⟩))
          obtain ⟨⟨b, hb⟩, hc'⟩ := hf
          exact ⟨⟨a ++ (ascii "]: " ++ b), by rw [ha, hb]; simp⟩, hc'⟩
        · exact LastPart.of_follows ⟨⟨a, ha⟩, hc⟩ hn
      · exact ⟨s, LastPart.self (fun y hy => h ⟨y, hy⟩)⟩
  exact key _ s (Nat.le_refl _)

theorem LastPart.length_le {s x : Bytes} (h : LastPart s x) : x.length ≤ s.length := by
  rcases h with ⟨⟨⟨a, ha⟩, -⟩, -⟩ | ⟨-, rfl⟩
  · rw [ha]; simp only [List.length_append]; omega
  · exact Nat.le_refl _

/-- how `tag[pid]: text` is read -/
theorem reads_both {tag pid text : Bytes} (ht : TagWF tag) (hp : ∀ y, ¬ Follows pid y) (hpne : pid ≠ []) (hne : text ≠ []) (hc : Clean text)
    (hx : ∀ y, ¬ Follows text y) (hcases : (∀ b ∈ text, b ≠ 93) ∨ ∃ v, (∀ b ∈ v, b ≠ 93) ∧ (text = pid ++ 93 :: v ∨ text = 93 :: v)) :
    ∃ pid', Reads (tag ++ ascii "[" ++ pid ++ ascii "]: " ++ text) tag pid' text ∧
      (pid' = pid ↔ ∀ v, text = 93 :: v → (∀ b ∈ v, b ≠ 93) → pid = ascii "]: ") := by
  have hf : Follows (pid ++ (ascii "]: " ++ text)) text := ⟨⟨pid, rfl⟩, starts_of hne hc⟩
  have htext : LastPart (pid ++ (ascii "]: " ++ text)) text := LastPart.of_follows hf hx
  rcases hcases with h0 | ⟨v, hv, h1 | h1⟩
  · refine ⟨pid, ?_, ⟨fun _ v hv => absurd (hv ▸ h0 93) (by simp), fun _ => rfl⟩⟩
    have : Reads (tag ++ 91 :: (pid ++ 93 :: (58 :: 32 :: text))) tag pid text := by
      refine .closed ht ?_ (LastPart.self hp) htext hc
      intro b hb
      simp only [List.mem_cons] at hb
      rcases hb with rfl | rfl | hb
      · decide
      · decide
      · exact h0 b hb
    simpa [ascii] using this
  · refine ⟨pid, ?_, ⟨fun _ w hw hnb => ?_, fun _ => rfl⟩⟩
    · have : Reads (tag ++ 91 :: ((pid ++ (ascii "]: " ++ pid)) ++ 93 :: v)) tag pid text := by
        refine .closed ht hv (LastPart.of_follows ⟨⟨pid, rfl⟩, starts_of hpne ?_⟩ hp) ?_ hc
        · intro b hb; exact hc b (by rw [h1]; simp [hb])
        · rw [h1] at htext ⊢; simpa using htext
      rw [h1]; rw [h1] at this; simpa [ascii] using this
    · exfalso
      rw [h1] at hw
      cases pid with
      | nil => exact hpne rfl
      | cons c pid =>
        simp only [List.cons_append, List.cons.injEq] at hw
        exact hnb 93 (by rw [← hw.2]; simp) rfl
  · obtain ⟨pid', hl⟩ := lastPart_exists (pid ++ ascii "]: ")
    refine ⟨pid', ?_, ?_⟩
    · have : Reads (tag ++ 91 :: ((pid ++ ascii "]: ") ++ 93 :: v)) tag pid' text := by
        refine .closed ht hv hl ?_ hc
        rw [h1] at htext ⊢; simpa using htext
      rw [h1]; rw [h1] at this; simpa [ascii] using this
    · constructor
      · intro e w _ _
        rw [e] at hl
        exact (lastPart_bare hp hpne).mp hl
      · intro h
        exact LastPart.unique hl ((lastPart_bare hp hpne).mpr (h v h1 hv))

/-! ## What is given -/

theorem given_eq_some {w x : Bytes} : given w = some x ↔ w = x ∧ x ≠ [] ∧ x ≠ ascii "-" := by
  unfold given
  split
  · rename_i h
    constructor
    · intro h'; cases h'
    · rintro ⟨rfl, h1, h2⟩; rcases h with h | h
      · exact absurd h h1
      · exact absurd h h2
  · rename_i h
    simp only [not_or] at h
    constructor
    · intro h'; cases h'; exact ⟨rfl, h⟩
    · rintro ⟨rfl, -⟩; rfl

theorem given_eq_none {w : Bytes} : given w = none ↔ w = [] ∨ w = ascii "-" := by
  unfold given
  split <;> simp_all

/-- the text of a message is not empty, clean and without a last part -/
theorem Reads.text {msg tag pid text : Bytes} (h : Reads msg tag pid text) : text ≠ [] ∧ Clean text := by
  cases h with
  | plain h hc _ => exact ⟨h, hc⟩
  | colon ht h hc => exact ⟨h, hc⟩
  | @colonBare tag r ht hc hr =>
    refine ⟨by simp, ?_⟩
    intro b hb
    simp only [List.mem_append, List.mem_cons] at hb
    rcases hb with hb | rfl | hb
    · have := (ht.2.2 b hb).1
      unfold Printable at this; unfold Control; omega
    · decide
    · exact hc b hb
  | @openBare tag ht =>
    refine ⟨by simp, ?_⟩
    intro b hb
    simp only [List.mem_append, List.mem_singleton] at hb
    rcases hb with hb | rfl
    · have := (ht.2.2 b hb).1
      unfold Printable at this; unfold Control; omega
    · decide
  | opened ht h hc hs => exact ⟨h, hc⟩
  | closed ht hv hp htext hc =>
    refine ⟨?_, hc⟩
    rcases htext with ⟨⟨-, c, r, h, -⟩, -⟩ | ⟨-, h⟩
    · rw [h]; simp
    · rw [h]; simp

theorem Reads.tag {msg tag pid text : Bytes} (h : Reads msg tag pid text) : (tag = [] ∧ pid = []) ∨ TagWF tag := by
  cases h with
  | plain h hc _ => exact Or.inl ⟨rfl, rfl⟩
  | colon ht h hc => exact Or.inr ht
  | colonBare ht hc hr => exact Or.inr ht
  | openBare ht => exact Or.inr ht
  | opened ht h hc hs => exact Or.inr ht
  | closed ht hv hp htext hc => exact Or.inr ht

theorem alone_iff {text tag pid text' : Bytes} (hc : Clean text) (hne : text ≠ []) (h : Reads text tag pid text') :
    (given tag = none ∧ given pid = none ∧ text' = text) ↔ SafeAlone text := by
  constructor
  · rintro ⟨h1, h2, h3⟩
    have hlen := congrArg List.length h3
    cases h with
    | plain _ _ hn => exact Or.inl hn
    | colon ht _ _ => simp at hlen; omega
    | @colonBare tag r ht _ hr =>
      rcases given_eq_none.mp h1 with rfl | rfl
      · exact absurd rfl ht.1
      · exact Or.inr (Or.inr ⟨r, rfl, hr⟩)
    | openBare ht =>
      rcases given_eq_none.mp h1 with rfl | rfl
      · exact absurd rfl ht.1
      · exact Or.inr (Or.inl rfl)
    | opened ht _ _ _ => simp at hlen; omega
    | closed ht hv hp htext _ =>
      have := LastPart.length_le htext
      simp only [List.length_append, List.length_cons] at hlen this
      omega
  · have hdash : TagWF (ascii "-") := by
      refine ⟨by decide, by decide, ?_⟩
      intro b hb
      have : b = 45 := by simpa [ascii] using hb
      subst this; exact ⟨by decide, by decide, by decide⟩
    rintro (hn | rfl | ⟨r, rfl, hr⟩)
    · obtain ⟨rfl, rfl, rfl⟩ := reads_unique h (.plain hne hc hn)
      exact ⟨rfl, rfl, rfl⟩
    · obtain ⟨rfl, rfl, rfl⟩ := reads_unique h (Reads.openBare hdash)
      exact ⟨rfl, rfl, rfl⟩
    · have hr' : Clean r := fun b hb => hc b (by simp [hb])
      obtain ⟨rfl, rfl, rfl⟩ := reads_unique h (Reads.colonBare hdash hr' hr)
      exact ⟨rfl, rfl, rfl⟩

theorem tag_getD {tag : Bytes} (h : TagWF tag) : (given tag).getD (ascii "-") = tag := by
  cases hg : given tag with
  | none =>
    rcases given_eq_none.mp hg with rfl | rfl
    · exact absurd rfl h.1
    · rfl
  | some x => exact (given_eq_some.mp hg).1.symm

/-- how the MSG of a relay is read: always, and as it was exactly under two conditions -/
theorem reads_body {msg tag pid text : Bytes} (h : Reads msg tag pid text) :
    ∃ tag' pid' text', Reads (bodyText (given tag) (given pid) text) tag' pid' text' ∧
      ((given tag' = given tag ∧ given pid' = given pid ∧ text' = text) ↔
        ((given tag = none → given pid = none → SafeAlone text) ∧
         ∀ p v, given pid = some p → text = 93 :: v → (∀ b ∈ v, b ≠ 93) → p = ascii "]: ")) := by
  obtain ⟨hne, hc⟩ := Reads.text h
  cases hp : given pid with
  | none =>
    cases ht : given tag with
    | none =>
      obtain ⟨tag', pid', text', hr⟩ := reads_clean hne hc
      refine ⟨tag', pid', text', hr, ?_⟩
      rw [alone_iff hc hne hr]
      simp
    | some t =>
      obtain ⟨rfl, h1, h2⟩ := given_eq_some.mp ht
      have hw : TagWF tag := by
        rcases Reads.tag h with ⟨h3, -⟩ | h3
        · exact absurd h3 h1
        · exact h3
      refine ⟨tag, [], text, ?_, ?_⟩
      · have := Reads.colon hw hne hc
        simpa [bodyText, ascii] using this
      · simp [ht, show given [] = none from rfl]
  | some p =>
    obtain ⟨rfl, h1, h2⟩ := given_eq_some.mp hp
    have hbody : bodyText (given tag) (some pid) text = tag ++ ascii "[" ++ pid ++ ascii "]: " ++ text := by
      have hw : TagWF tag := by
        rcases Reads.tag h with ⟨-, h3⟩ | h3
        · exact absurd h3 h1
        · exact h3
      have := tag_getD hw
      cases hg : given tag with
      | none => rw [hg] at this; simp only [bodyText]; rw [this]
      | some t => rw [hg] at this; simp only [bodyText]; rw [this]
    cases h with
    | plain _ _ _ => exact absurd rfl h1
    | colon _ _ _ => exact absurd rfl h1
    | colonBare _ _ _ => exact absurd rfl h1
    | openBare _ => exact absurd rfl h1
    | opened _ _ _ _ => exact absurd rfl h1
    | @closed tag u v pid text ht hv hpid htext _ =>
      have hcases : (∀ b ∈ text, b ≠ 93) ∨ ∃ v, (∀ b ∈ v, b ≠ 93) ∧ (text = pid ++ 93 :: v ∨ text = 93 :: v) := by
        rcases text_cases hv hpid htext hc with h3 | h3
        · exact Or.inl h3
        · exact Or.inr ⟨v, hv, h3⟩
      obtain ⟨pid', hr, hiff⟩ := reads_both ht (LastPart.not_follows hpid) h1 hne hc (LastPart.not_follows htext) hcases
      refine ⟨tag, pid', text, by rw [hbody]; exact hr, ?_⟩
      have e : given pid' = some pid ↔ pid' = pid := by
        rw [given_eq_some]
        exact ⟨fun h => h.1, fun h => ⟨h, h1, h2⟩⟩
      rw [e, hiff]
      simp only [true_and, and_true]
      constructor
      · intro h3
        refine ⟨fun _ h4 => (by simp at h4), ?_⟩
        intro p w hpw hw hnb
        cases hpw
        exact h3 w hw hnb
      · rintro ⟨-, h3⟩ w hw hnb
        exact h3 pid w rfl hw hnb

open GoTime in
theorem real_of_daysIn {mo d h mi sc : Nat} {y : Int} (hd : d ≤ daysIn mo y) : (⟨mo, d, h, mi, sc⟩ : BStamp).Real := by
  have hr := daysIn_range mo y
  unfold daysIn at hd
  simp only [BStamp.Real]
  by_cases h2 : mo = 2
  · subst h2; simp at hd ⊢; split at hd <;> omega
  · simp only [h2, if_false] at hd ⊢
    split at hd <;> split <;> simp_all <;> omega

open GoTime in
/-- the clock of a returned message can be written and read again -/
theorem stamp_again (o : Opts) (p : Bsd.Parts) (s : BStamp) (h : p.WF o.rfc3339) (hs : p.time = .bsd s) (hl : o.loc = none)
    (hz : o.timezone = none) :
    ∃ t, whenTime o p.time = t ∧ When.WF o.rfc3339 (.bsd ⟨t.month, t.day, t.hour, t.min, t.sec⟩) ∧
      whenTime o (.bsd ⟨t.month, t.day, t.hour, t.min, t.sec⟩) = t := by
  have hw := h.time
  rw [hs] at hw
  obtain ⟨⟨e1, e2, e3, e4, e5, e6, e7⟩, hreal⟩ := hw
  have again : ∀ (q : Bsd.Parts) (s' : BStamp), q.WF o.rfc3339 → q.time = .bsd s' → s'.day ≤ daysIn s'.month o.yyyy →
      whenTime o (.bsd s') = ⟨o.yyyy, s'.month, s'.day, s'.hour, s'.min, s'.sec, 0, 0⟩ := by
    intro q s' hq hqs hd
    obtain ⟨m, h1, h2⟩ := C36_year o q s' hq hqs hl hz hd
    rw [accepts o hq] at h1
    cases h1
    rw [hqs] at h2
    simpa [Bsd.Parts.toMessage] using h2
  have mk : ∀ s' : BStamp, s'.WF → s'.day ≤ daysIn s'.month o.yyyy →
      When.WF o.rfc3339 (.bsd s') ∧ whenTime o (.bsd s') = ⟨o.yyyy, s'.month, s'.day, s'.hour, s'.min, s'.sec, 0, 0⟩ := by
    intro s' hwf hd
    have hw' : When.WF o.rfc3339 (.bsd s') := ⟨hwf, real_of_daysIn hd⟩
    exact ⟨hw', again { p with time := .bsd s' } s' ⟨h.pri, hw', h.host, h.msg⟩ rfl hd⟩
  by_cases hd : s.day ≤ daysIn s.month o.yyyy
  · obtain ⟨h1, h2⟩ := mk s ⟨e1, e2, e3, e4, e5, e6, e7⟩ hd
    rw [hs]
    exact ⟨_, h2, h1, h2⟩
  · obtain ⟨-, -, m, h1, h2⟩ := C36_year_feb29 o p s h hs hl hz hd
    rw [accepts o h] at h1
    cases h1
    have h3 : whenTime o p.time = ⟨o.yyyy, 3, 1, s.hour, s.min, s.sec, 0, 0⟩ := by simpa [Bsd.Parts.toMessage] using h2
    obtain ⟨h4, h5⟩ := mk ⟨3, 1, s.hour, s.min, s.sec⟩ ⟨by simp, by simp, by simp, by simp, e5, e6, e7⟩ (by simp [daysIn])
    exact ⟨_, h3, h4, h5⟩

open GoTime in
/-- with all the days there are, different stamps are different times -/
theorem whenTime_inj (o : Opts) (hl : o.loc = none) (hz : o.timezone = none) (hy : isLeap o.yyyy = true) {p q : Bsd.Parts} {s s' : BStamp}
    (hp : p.WF o.rfc3339) (hq : q.WF o.rfc3339) (hs : p.time = .bsd s) (hs' : q.time = .bsd s') :
    whenTime o p.time = whenTime o q.time ↔ p.time = q.time := by
  have val : ∀ (r : Bsd.Parts) (x : BStamp), r.WF o.rfc3339 → r.time = .bsd x →
      whenTime o r.time = ⟨o.yyyy, x.month, x.day, x.hour, x.min, x.sec, 0, 0⟩ := by
    intro r x hr hx
    have hw := hr.time
    rw [hx] at hw
    have hd : x.day ≤ daysIn x.month o.yyyy := by
      have h1 := (Bs.real_iff x hw.1).mpr hw.2
      unfold daysIn at h1 ⊢
      rw [hy]
      rw [show isLeap 0 = true from by decide] at h1
      exact h1
    obtain ⟨m, h1, h2⟩ := C36_year o r x hr hx hl hz hd
    rw [accepts o hr] at h1
    cases h1
    simpa [Bsd.Parts.toMessage] using h2
  rw [val p s hp hs, val q s' hq hs', hs, hs']
  obtain ⟨a, b, c, d, e⟩ := s
  obtain ⟨a', b', c', d', e'⟩ := s'
  simp

/-- C99: what a message tells about its text, whatever the options: two accepted texts give the same message exactly if they have the same
priority, host and text, timestamps that stand for the same time, and tags and pids that are the same or both absent (empty or `-`). -/
theorem C99_same_message_all (o : Opts) (p q : Bsd.Parts) (hp : p.WF o.rfc3339) (hq : q.WF o.rfc3339) :
    ∃ m m', parse1 o p.render = some ⟨some m, none⟩ ∧ parse1 o q.render = some ⟨some m', none⟩ ∧
      (m = m' ↔ p.pri = q.pri ∧ m.timestamp = m'.timestamp ∧ p.host = q.host ∧ p.text = q.text ∧
        (p.tag = q.tag ∨ (p.tag = [] ∨ p.tag = ascii "-") ∧ (q.tag = [] ∨ q.tag = ascii "-")) ∧
        (p.pid = q.pid ∨ (p.pid = [] ∨ p.pid = ascii "-") ∧ (q.pid = [] ∨ q.pid = ascii "-"))) := by
  refine ⟨_, _, accepts o hp, accepts o hq, ?_⟩
  have hg : ∀ a b : Bytes, given a = given b ↔ (a = b ∨ (a = [] ∨ a = ascii "-") ∧ (b = [] ∨ b = ascii "-")) := by
    intro a b
    constructor
    · intro h
      cases ha : given a with
      | none => rw [ha] at h; exact Or.inr ⟨given_eq_none.mp ha, given_eq_none.mp h.symm⟩
      | some x =>
        rw [ha] at h
        exact Or.inl ((given_eq_some.mp ha).1.trans (given_eq_some.mp h.symm).1.symm)
    · rintro (rfl | ⟨h1, h2⟩)
      · rfl
      · rw [given_eq_none.mpr h1, given_eq_none.mpr h2]
  have hh : given p.host = given q.host ↔ p.host = q.host := by
    rw [hg]
    constructor
    · rintro (h | ⟨h1 | h1, h2 | h2⟩)
      · exact h
      · exact absurd h1 hp.host.1
      · exact absurd h1 hp.host.1
      · exact absurd h2 hq.host.1
      · rw [h1, h2]
    · exact Or.inl
  have hu : UInt8.ofNat p.pri = UInt8.ofNat q.pri ↔ p.pri = q.pri := by
    constructor
    · intro h
      have := congrArg UInt8.toNat h
      have h1 := hp.pri
      have h2 := hq.pri
      simp [UInt8.toNat_ofNat'] at this
      omega
    · rintro h; rw [h]
  constructor
  · intro h
    have f1 := congrArg Base.priority h
    have f2 := congrArg Base.timestamp h
    have f3 := congrArg Base.hostname h
    have f4 := congrArg Base.message h
    have f5 := congrArg Base.appname h
    have f6 := congrArg Base.procID h
    simp only [Bsd.Parts.toMessage, Option.some.injEq] at f1 f2 f3 f4 f5 f6
    exact ⟨hu.mp f1, by simp only [Bsd.Parts.toMessage, Option.some.injEq]; exact f2, hh.mp f3, f4, (hg _ _).mp f5, (hg _ _).mp f6⟩
  · rintro ⟨h1, h2, h3, h4, h5, h6⟩
    simp only [Bsd.Parts.toMessage, Option.some.injEq] at h2
    simp only [Bsd.Parts.toMessage]
    rw [h1, h2, h3, h4, (hg _ _).mpr h5, (hg _ _).mpr h6]

/-- C99: what a message tells about its text. With the default options (or another leap year) two accepted texts give the same message exactly
if they have the same priority, timestamp, host and text, and tags and pids that are the same or both absent (empty or `-`). -/
theorem C99_same_message (o : Opts) (hi : o.rfc3339 = false) (hl : o.loc = none) (hz : o.timezone = none) (hy : GoTime.isLeap o.yyyy = true)
    (p q : Bsd.Parts) (hp : p.WF o.rfc3339) (hq : q.WF o.rfc3339) :
    ∃ m m', parse1 o p.render = some ⟨some m, none⟩ ∧ parse1 o q.render = some ⟨some m', none⟩ ∧
      (m = m' ↔ p.pri = q.pri ∧ p.time = q.time ∧ p.host = q.host ∧ p.text = q.text ∧
        (p.tag = q.tag ∨ (p.tag = [] ∨ p.tag = ascii "-") ∧ (q.tag = [] ∨ q.tag = ascii "-")) ∧
        (p.pid = q.pid ∨ (p.pid = [] ∨ p.pid = ascii "-") ∧ (q.pid = [] ∨ q.pid = ascii "-"))) := by
  obtain ⟨m, m', h1, h2, h3⟩ := C99_same_message_all o p q hp hq
  refine ⟨m, m', h1, h2, ?_⟩
  have bsd : ∀ r : Bsd.Parts, r.WF o.rfc3339 → ∃ s, r.time = .bsd s := by
    intro r hr
    have := hr.time
    cases ht : r.time with
    | bsd s => exact ⟨s, rfl⟩
    | iso s => rw [ht, hi] at this; exact absurd this.1 (by simp)
  obtain ⟨s, hs⟩ := bsd p hp
  obtain ⟨s', hs'⟩ := bsd q hq
  have htm := whenTime_inj o hl hz hy hp hq hs hs'
  rw [accepts o hp] at h1
  rw [accepts o hq] at h2
  cases h1; cases h2
  rw [h3, ← htm]
  simp only [Bsd.Parts.toMessage, Option.some.injEq]

/-- C99: sending a message on. A relay that writes the fields of a returned message as `<PRI>Mmm dd hh:mm:ss HOSTNAME TAG[PID]: TEXT` always gets
a text that is accepted, with the same priority, time and host; it is the same message exactly if
* a message that has neither tag nor pid does not have a text that reads as one with a tag, and
* the text of a message with a pid is not a `]` and then no other (but for the pid `]: `). -/
theorem C99_resend (o : Opts) (hb : o.bestEffort = false) (hi : o.rfc3339 = false) (hl : o.loc = none) (hz : o.timezone = none) (input : Bytes)
    (m : Base) (h : parse1 o input = some ⟨some m, none⟩) :
    ∃ again m', sendAgain m = some again ∧ parse1 o again = some ⟨some m', none⟩ ∧
      m'.priority = m.priority ∧ m'.timestamp = m.timestamp ∧ m'.hostname = m.hostname ∧
      (m' = m ↔
        ((∀ text, m.appname = none → m.procID = none → m.message = some text → SafeAlone text) ∧
         ∀ pid v, m.procID = some pid → m.message = some (93 :: v) → (∀ b ∈ v, b ≠ 93) → pid = ascii "]: ")) := by
  obtain ⟨p, hp, rfl, rfl⟩ := (C31_accepts_iff o hb input m).mp h
  clear h
  have hts : ∃ s, p.time = .bsd s := by
    have := hp.time
    cases ht : p.time with
    | bsd s => exact ⟨s, rfl⟩
    | iso s => rw [ht, hi] at this; exact absurd this.1 (by simp)
  obtain ⟨s, hs⟩ := hts
  obtain ⟨t, ht1, ht2, ht3⟩ := stamp_again o p s hp hs hl hz
  obtain ⟨tag', pid', text', hr, hiff⟩ := reads_body hp.msg
  have hhost : (given p.host).getD (ascii "-") = p.host := by
    cases hg : given p.host with
    | none =>
      rcases given_eq_none.mp hg with h | h
      · exact absurd h hp.host.1
      · rw [h]; rfl
    | some x => exact (given_eq_some.mp hg).1.symm
  have hpri : (UInt8.ofNat p.pri).toNat = p.pri := by
    have := hp.pri
    simp [UInt8.toNat_ofNat']; omega
  have hq : Bsd.Parts.WF o.rfc3339 ⟨p.pri, .bsd ⟨t.month, t.day, t.hour, t.min, t.sec⟩, p.host, bodyText (given p.tag) (given p.pid) p.text,
      tag', pid', text'⟩ := ⟨hp.pri, ht2, hp.host, hr⟩
  refine ⟨_, _, ?_, accepts o hq, rfl, ?_, rfl, ?_⟩
  · simp only [sendAgain, Bsd.Parts.toMessage, ht1, hhost, hpri]
    rfl
  · simp only [Bsd.Parts.toMessage, ht1, ht3]
  · simp only [Bsd.Parts.toMessage, ht1, ht3, Base.mk.injEq, Option.some.injEq, true_and]
    rw [show (given tag' = given p.tag ∧ given pid' = given p.pid ∧ text' = p.text) ↔ _ from hiff]
    constructor
    · rintro ⟨h1, h2⟩
      exact ⟨fun text h3 h4 h5 => h5 ▸ h1 h3 h4, h2⟩
    · rintro ⟨h1, h2⟩
      exact ⟨fun h3 h4 => h1 _ h3 h4 rfl, h2⟩

open GoTime in
/-- C99: with `WithTimezone` the time moves at every hop: the relay writes the clock of its zone, which the next parser reads as UTC. A message
whose time, in the zone, is in the configured year comes out later by the offset of the zone. -/
theorem C99_timezone_moves (o : Opts) (hb : o.bestEffort = false) (hi : o.rfc3339 = false) (hz : o.timezone = none) (l : Location)
    (hl : o.loc = some l) (input : Bytes) (m : Base) (h : parse1 o input = some ⟨some m, none⟩) (t : Time) (ht : m.timestamp = some t)
    (hy : t.year = o.yyyy) :
    ∃ again m' t', sendAgain m = some again ∧ parse1 o again = some ⟨some m', none⟩ ∧ m'.timestamp = some t' ∧
      t'.unix = t.unix + l.offsetAt t.unix ∧ t'.off = l.offsetAt t'.unix := by
  obtain ⟨p, hp, rfl, rfl⟩ := (C31_accepts_iff o hb input m).mp h
  have hts : ∃ s, p.time = .bsd s := by
    have := hp.time
    cases ht : p.time with
    | bsd s => exact ⟨s, rfl⟩
    | iso s => rw [ht, hi] at this; exact absurd this.1 (by simp)
  obtain ⟨s, hs⟩ := hts
  have ho : ({ o with loc := some l } : Opts) = o := by cases o; simp_all
  obtain ⟨m0, m1, t0, t1, e0, e1, e2, e3, e4, -, e5, e6, -⟩ := C36_timezone_same_instant o l p s hp hs
  rw [ho, h] at e1
  cases e1
  rw [ht] at e3
  cases e3
  obtain ⟨v1, v2, v3, v4, v5, v6, v7⟩ := e6
  obtain ⟨tag', pid', text', hr, -⟩ := reads_body hp.msg
  have hwf : BStamp.WF ⟨t.month, t.day, t.hour, t.min, t.sec⟩ := ⟨v1, v2, v3, by have := daysIn_range t.month t.year; simp only; omega, Nat.le_of_lt_succ v5, Nat.le_of_lt_succ v6, Nat.le_of_lt_succ v7⟩
  have hq : Bsd.Parts.WF o.rfc3339 ⟨p.pri, .bsd ⟨t.month, t.day, t.hour, t.min, t.sec⟩, p.host, bodyText (given p.tag) (given p.pid) p.text,
      tag', pid', text'⟩ := ⟨hp.pri, ⟨hwf, real_of_daysIn v4⟩, hp.host, hr⟩
  obtain ⟨n0, n1, u0, u1, f0, f1, f2, f3, f4, -, f5, -, -⟩ := C36_timezone_same_instant o l _ _ hq rfl
  rw [ho] at f1
  obtain ⟨n, g1, g2⟩ := C36_year { o with loc := none } _ _ hq rfl rfl hz (by simp only; rw [← hy]; exact v4)
  rw [f0] at g1
  cases g1
  rw [f2] at g2
  cases g2
  have hhost : (given p.host).getD (ascii "-") = p.host := by
    cases hg : given p.host with
    | none =>
      rcases given_eq_none.mp hg with h | h
      · exact absurd h hp.host.1
      · rw [h]; rfl
    | some x => exact (given_eq_some.mp hg).1.symm
  have hpri : (UInt8.ofNat p.pri).toNat = p.pri := by
    have := hp.pri
    simp [UInt8.toNat_ofNat']; omega
  refine ⟨_, n1, u1, ?_, f1, f3, ?_, ?_⟩
  · simp only [Bsd.Parts.toMessage, Option.some.injEq] at ht
    simp only [sendAgain, Bsd.Parts.toMessage, ht, hhost, hpri]
    rfl
  · rw [← e4] at e5
    rw [f4, ← e5]
    simp only [Time.unix, Time.wall, Time.clock, hy]
    omega
  · rw [f5, f4]

/-! ## Cases -/

/-- the message of a line, without its error -/
def lineOf (x : String) : Option Base := (parse1 {} (ascii x)).bind (·.msg)

-- an ordinary message: sent on as it came
example : ((lineOf "<34>Feb 29 22:14:15 mymachine su[123]: 'su root' failed").bind sendAgain) =
    some (ascii "<34>Feb 29 22:14:15 mymachine su[123]: 'su root' failed") := by decide +kernel

-- two texts, one message (the hypotheses of `C99_same_message` with two different texts)
example : lineOf "<34>Feb 29 22:14:15 h su: x" = lineOf "<34>Feb 29 22:14:15 h su[x" ∧ (lineOf "<34>Feb 29 22:14:15 h su: x").isSome = true ∧
    GoTime.isLeap ({} : Opts).yyyy = true := by decide +kernel

-- a text with brackets is sent on with the pid it was given by them, and stays as it is
example : ((lineOf "<34>Feb  1 22:14:15 h su[123]: a]b").bind sendAgain) = some (ascii "<34>Feb  1 22:14:15 h su[a]: a]b") ∧
    lineOf "<34>Feb  1 22:14:15 h su[123]: a]b" = lineOf "<34>Feb  1 22:14:15 h su[a]: a]b" := by decide +kernel

-- the first condition fails: the tag `-` is lost, and the text is read as one with a tag
example : ((lineOf "<34>Feb  1 22:14:15 h -: su: x").bind sendAgain) = some (ascii "<34>Feb  1 22:14:15 h su: x") ∧
    lineOf "<34>Feb  1 22:14:15 h -: su: x" ≠ lineOf "<34>Feb  1 22:14:15 h su: x" := by decide +kernel

-- the second fails: the pid grows
example : ((lineOf "<34>Feb  1 22:14:15 h t[z]: ]v").bind sendAgain) = some (ascii "<34>Feb  1 22:14:15 h t[z]: ]: ]v") ∧
    lineOf "<34>Feb  1 22:14:15 h t[z]: ]v" ≠ lineOf "<34>Feb  1 22:14:15 h t[z]: ]: ]v" := by decide +kernel

-- shown in UTC+1 the message is an hour later at every hop
example : ((parse1 { loc := some (GoTime.fixedZone 3600) } (ascii "<34>Feb  1 22:14:15 h su: x")).bind fun r => r.msg.bind sendAgain) =
      some (ascii "<34>Feb  1 23:14:15 h su: x") ∧
    ((parse1 { loc := some (GoTime.fixedZone 3600) } (ascii "<34>Feb  1 22:14:15 h su: x")).bind fun r => r.msg.bind fun m =>
      m.timestamp.map fun t => t.year) = some 0 := by decide +kernel

end Verif.Props.Bsd
