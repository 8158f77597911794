import Verif.NonTransparent.Cost
import Verif.NonTransparent.Open
import Verif.Props.Cost
import Verif.Props.NonTransparent

/-!
# C86: the time and the memory that non-transparent framing takes

There is no maximum: a message may be as long as the stream, and the work is linear but for the escapes of a message.
-/

namespace Verif.Props
open Verif.Spec Verif.NonTransparent

namespace NT

/-- a parser made with `opts`, after calls of `Parse` on streams that had the bytes `all` in total -/
inductive Used (opts : List Opt) : Bytes → Machine → Prop
  | new : Used opts [] (newParser opts)
  | again {all bytes : Bytes} {p p' : Machine} {d : Driver} {e : ReadErr} : Used opts all p → p.parse d bytes e = some p' → Used opts (all ++ bytes) p'

theorem used_held {opts : List Opt} {all : Bytes} {p : Machine} (h : Used opts all p) :
    Inv (isBestEffort opts) (trailerByte opts) p ∧ p.candidate.length ≤ all.length ∧ p.candidate.count 92 ≤ all.count 92 ∧
    p.lastChunk.length ≤ all.length ∧ p.lastChunk.count 92 ≤ all.count 92 := by
  induction h with
  | new =>
    obtain ⟨h1, h2, -, h4, -⟩ := new_inv opts
    exact ⟨h1, by simp [h2], by simp [h2], by simp [h4], by simp [h4]⟩
  | again _ he ih =>
    obtain ⟨i1, i2, i3, i4, i5⟩ := ih
    obtain ⟨j1, j2, j3, j4, j5⟩ := parse_held _ _ _ _ i1 _ he
    refine ⟨j1, ?_, ?_, ?_, ?_⟩ <;> simp only [List.length_append, List.count_append] <;> omega

end NT

/-- C86: the work of `Parse`, whatever is in the stream: linear in the number of bytes, plus that number for every backslash. -/
theorem C86_bound (opts : List Opt) (d : Driver) (e : ReadErr) (bytes : Bytes) :
    (newParser opts).parseCost d bytes e ≤ 170 * bytes.length + bytes.length * bytes.count 92 + 100 := by
  obtain ⟨h1, h2, -, h4, -⟩ := NT.new_inv opts
  have h := parseCost_due d e (newParser opts) h1 bytes
  rw [h2, h4] at h
  simpa using h

/-- C86: of a parser that was used before. What it holds of the earlier streams is parsed again, so they count, too. -/
theorem C86_used (opts : List Opt) (all : Bytes) (p : Machine) (hp : NT.Used opts all p) (d : Driver) (e : ReadErr) (bytes : Bytes) :
    p.parseCost d bytes e ≤ 170 * (2 * all.length + bytes.length) + (2 * all.length + bytes.length) * (2 * all.count 92 + bytes.count 92) + 100 := by
  obtain ⟨h1, h2, h3, h4, h5⟩ := NT.used_held hp
  have h := parseCost_due d e p h1 bytes
  have := Nat.mul_le_mul (show p.candidate.length + p.lastChunk.length + bytes.length ≤ 2 * all.length + bytes.length by omega)
    (show p.candidate.count 92 + p.lastChunk.count 92 + bytes.count 92 ≤ 2 * all.count 92 + bytes.count 92 by omega)
  omega

theorem quotes_plain (k : Nat) : (0 : UInt8) ∉ (quotes k).render ∧ (10 : UInt8) ∉ (quotes k).render := by
  have h : ∀ k, (0 : UInt8) ∉ escs k ∧ (10 : UInt8) ∉ escs k := by
    intro k
    induction k with
    | zero => simp [escs]
    | succ k ih => simp [escs, ih.1, ih.2]
  rw [quotes_render]
  simp [quotesHead, (h k).1, (h k).2]

/-- C86: the bound is reached, whatever the options: a stream of one line of `24 + 2k` bytes takes `k²` steps. -/
theorem C86_quadratic (opts : List Opt) (d : Driver) (e : ReadErr) (k : Nat) :
    ((quotes k).render ++ [NT.trailerByte opts]).length = 2 * k + 24 ∧
    k * k ≤ (newParser opts).parseCost d ((quotes k).render ++ [NT.trailerByte opts]) e := by
  refine ⟨by rw [List.length_append, (C77_quadratic {} k).1]; rfl, ?_⟩
  obtain ⟨h1, h2, h3, h4, -⟩ := NT.new_inv opts
  have hl : IsLine (NT.trailerByte opts) ((quotes k).render ++ [NT.trailerByte opts]) := by
    refine ⟨_, rfl, ?_⟩
    rcases h1.typ with ⟨-, ht⟩ | ⟨-, ht⟩ <;> rw [ht]
    · exact (quotes_plain k).2
    · exact (quotes_plain k).1
  have h60 : ((quotes k).render ++ [NT.trailerByte opts]).head? = some 60 := by rw [quotes_render]; rfl
  have hx := exec_first h1 h2 hl h60
  have hch := chunks_lines (NT.trailerByte opts) [(quotes k).render ++ [NT.trailerByte opts]] [] (by simpa using hl) (by simp)
  simp only [List.flatten_cons, List.flatten_nil, List.append_nil] at hch
  unfold Machine.parseCost
  rw [h1.tr, hch]
  simp only [drive, hx, Bool.true_eq_false, false_and, if_false, if_true]
  -- the end of the stream
  have hend : ∀ m : Machine, m.trailer = NT.trailerByte opts → m.candidate = (quotes k).render ++ [NT.trailerByte opts] →
      m.internal = (newParser opts).internal → k * k ≤ m.costCompletion := by
    intro m a b c
    have hpos : m.candidate.length > 0 := by rw [b]; simp
    unfold Machine.costCompletion
    rw [if_pos hpos]
    have hs : strip m.trailer m.candidate = (quotes k).render := by
      rw [a, b, strip]; simp
    have hq := (C77_quadratic { bestEffort := (opts.foldl applyOpt {}).bestEffort } k).2.1
    have : k * k ≤ m.costProcess := by
      unfold Machine.costProcess
      rw [hs, c]
      exact Nat.le_trans hq (Nat.le_add_left _ _)
    omega
  cases d.errOnEmpty with
  | true =>
    refine Nat.le_trans ?_ (Nat.le_add_left _ _)
    exact hend _ h1.tr rfl rfl
  | false =>
    refine Nat.le_trans ?_ (Nat.le_add_left _ _)
    exact hend _ h1.tr rfl rfl

/-- C86: nothing bounds what is retained: a line that starts with `<` and all lines after it that do not are kept, and nothing is reported,
whatever the options (also the maximum length). -/
theorem C86_retained (opts : List Opt) (d : Driver) (l : Bytes) (ls : List Bytes)
    (hl : IsLine (NT.trailerByte opts) l) (h60 : l.head? = some 60) (hls : ∀ x ∈ ls, IsLine (NT.trailerByte opts) x ∧ x.head? ≠ some 60) :
    ∃ m, feed d (l :: ls) 1 (newParser opts) = some (3, true, m) ∧ m.candidate = l ++ ls.flatten ∧ m.out = [] := by
  obtain ⟨h1, h2, -, -, h5⟩ := NT.new_inv opts
  have hx := exec_first h1 h2 hl h60
  obtain ⟨m', a1, a2, a3, a4, -⟩ := feed_more d ls [] hls { newParser opts with candidate := l } ⟨h1.tr, h1.typ, h1.ibe, h1.ico⟩
  refine ⟨m', ?_, a4, a3.trans h5⟩
  rw [feed, hx]
  simp only [Bool.true_eq_false, false_and, if_false]
  rw [List.append_nil] at a1
  rw [a1]; rfl

/-! The hypotheses are met. -/

/-- with a maximum of 1 byte, 1000 lines -/
example (d : Driver) : ∃ m, feed d ([60, 120, 10] :: List.replicate 1000 [120, 10]) 1 (newParser [.maxMessageLength 1]) = some (3, true, m) ∧
    m.candidate.length = 2003 ∧ m.out = [] := by
  obtain ⟨m, h1, h2, h3⟩ := C86_retained [.maxMessageLength 1] d [60, 120, 10] (List.replicate 1000 [120, 10]) ⟨[60, 120], rfl, by decide⟩ rfl (by
    intro x hx
    rw [List.mem_replicate] at hx
    rw [hx.2]
    exact ⟨⟨[120], rfl, by decide⟩, by decide⟩)
  refine ⟨m, h1, ?_, h3⟩
  rw [h2, List.length_append, List.length_flatten, List.map_replicate, List.sum_replicate_nat]
  rfl

/-- a parser that was used before -/
example (d : Driver) : ∃ p, NT.Used [] (ascii "<1>1\n<") p :=
  have ⟨p', h, _⟩ := parse_groups d .unexpectedEOF [[ascii "<1>1\n"]] [60] (by
    intro g hg
    rw [List.mem_singleton] at hg
    subst hg
    refine ⟨?_, ascii "<1>1\n", [], rfl, by decide, by simp⟩
    intro l hl
    rw [List.mem_singleton] at hl
    subst hl
    exact ⟨ascii "<1>1", by decide, by decide⟩) (by decide) (newParser []) (NT.new_inv []).1
  ⟨p', .again .new h⟩

end Verif.Props
