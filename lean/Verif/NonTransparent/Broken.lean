import Verif.NonTransparent.Open

/-!
# A reader that panics

The external loop reads up to the next trailer and gives the chunk to `Exec`. When the reader panics (or never returns) the bytes it has
delivered since the last trailer are only in the buffer of that loop; nothing in the repository recovers (and the model assumes that the loop
does not either), so the panic leaves `Parse` and neither `OnErr` nor `OnEOF` nor `OnCompletion` is called.
-/

namespace Verif.NonTransparent

/-- `machine.Parse` (nontransparent/parser.go:257-260) with a reader that panics after these bytes: does the panic leave `Parse` (the loop may
have ended before, at a line that the automaton refuses), and what is left of the parser -/
def Machine.parseB (d : Driver) (m : Machine) (bytes : Bytes) : Option (Bool × Machine) :=
  match feed d (chunks m.trailer bytes).1 1 m with
  | none => none
  | some (_, true, m) => some (true, m)
  | some (_, false, m) => m.onCompletion.map fun m => (false, m)

/-- what the listener gets from a reader that panics comes first, whatever the reader would have delivered instead of the panic -/
theorem parseB_parse {d : Driver} {e : ReadErr} {m m' : Machine} {x y : Bytes} (h : m.parse d (x ++ y) e = some m') :
    ∃ p m1, m.parseB d x = some (p, m1) ∧ m1.out <+: m'.out := by
  have hc : ∃ more, (chunks m.trailer (x ++ y)).1 = (chunks m.trailer x).1 ++ more := by
    obtain ⟨h1, h2, h3⟩ := chunks_spec m.trailer x
    obtain ⟨k1, k2, k3⟩ := chunks_spec m.trailer ((chunks m.trailer x).2 ++ y)
    generalize (chunks m.trailer x).1 = L at *
    generalize (chunks m.trailer x).2 = l at *
    rw [h1, List.append_assoc, k1, ← List.append_assoc, ← List.flatten_append]
    rw [chunks_lines]
    · exact ⟨_, rfl⟩
    · intro z hz
      rcases List.mem_append.mp hz with hz | hz
      · exact h2 z hz
      · exact k2 z hz
    · exact k3
  obtain ⟨more, hc⟩ := hc
  simp only [Machine.parse] at h
  split at h
  · simp at h
  · rename_i m2 hd
    rw [hc, drive_feed] at hd
    split at hd
    · simp at hd
    · rename_i cs m1 hf
      exact ⟨true, m1, by simp only [Machine.parseB, hf], (drive_out _ _ _ hd).trans (onCompletion_out h)⟩
    · rename_i cs m1 hf
      simp only [Option.some.injEq] at hd
      subst hd
      exact ⟨false, m', by simp only [Machine.parseB, hf, h, Option.map_some], List.prefix_refl _⟩

end Verif.NonTransparent
