import Verif.Proof.Vector2D

/-!
# C20: packed tables are values
-/

namespace Angonoka.Props
open Angonoka Outcome Memory

/-- C20. Any sequence of constructions, copies, assignments, moves, writes, clears and destructions that is
meaningful for plain lists of rows runs without undefined behaviour, and at the end reading each
table that is alive gives the rows that the plain lists have. In particular a copy has the rows of its
original, and neither writing to nor destroying either of them changes the other. -/
theorem tables_are_values {ops : List Op} {v : Values} (h : Values.run [] ops = some v) :
    ∃ w, World.run ⟨[], []⟩ ops = ok w ∧
      ∀ i rows, v[i]? = some (some rows) → w.read i = ok rows := by
  obtain ⟨w, h1, h2⟩ := run_ok rep_empty h
  refine ⟨w, h1, ?_⟩
  intro i rows hi
  apply read_ok h2
  unfold Values.get
  rw [hi]
  rfl

/-- A sequence the theorem applies to: a table with rows [1, 2], [], [3]; a copy; a write to the original,
which is destroyed afterwards. The copy still has the old rows. -/
example : Values.run [] [.create [1, 2, 3] [2, 0, 1], .copy 0, .write 0 0 1 7, .destroy 0]
    = some [none, some [[1, 2], [], [3]]] := by decide

end Angonoka.Props
