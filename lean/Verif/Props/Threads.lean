import Verif.Proof.Threads
import Verif.Props.Optimizer

/-!
# C93: the threads of the optimizer do not disturb each other

The jobs refer to their parts and to random generators by pointers; the threads' steps come in any order.
-/

namespace Angonoka.Props
open Angonoka Outcome Stun Threads

variable {K G : Type} [Field K] [LinearOrder K] [IsStrictOrderedRing K] {E : FloatEnv K} {R : Rng K G} {opts : Options K}

/-- An optimizer has been constructed with the generators `gens`, one for each job, and updated any number of times, the threads in any order. -/
def Updated (E : FloatEnv K) (R : Rng K G) (opts : Options K) (gens : List G) (n : Nat) (x : Optimizer K × List (Slot K G)) : Prop :=
  ∃ o h, Optimizer.new E opts gens.length = ok o ∧ newSlots E opts 0 gens = ok h ∧ Threads.Updates E R n (o, h) x

theorem updates_good (hv : ValidOptions E opts) {threads : Nat} {x : Optimizer K × List (Slot K G)} (hx : Good E opts threads [] x) :
    ∃ (draws : Nat → Nat → Nat → Draws K) (state : Nat → Optimizer K × List (Slot K G)), ∀ n, x.1.rounds E draws n = ok (state n).1 ∧
      (∃ ms, Good E opts threads ms (state n)) ∧ Threads.Updates E R n x (state n) ∧ ∀ z, Threads.Updates E R n x z → z = state n := by
  have one : ∀ y : { y : Optimizer K × List (Slot K G) // ∃ ms, Good E opts threads ms y }, ∃ (d : Nat → Nat → Draws K)
      (z : { y : Optimizer K × List (Slot K G) // ∃ ms, Good E opts threads ms y }),
      y.1.1.update E d = ok z.1.1 ∧ Update E R y.1 z.1 ∧ ∀ w, Update E R y.1 w → w = z.1 := by
    rintro ⟨y, ms, hy⟩
    obtain ⟨d, z, ms', h1, h2, h3, h4, _⟩ := Good.update (R := R) hv hy
    exact ⟨d, ⟨z, ms', h2⟩, h1, h3, h4⟩
  choose d f h1 h2 h3 using one
  let st : Nat → { y : Optimizer K × List (Slot K G) // ∃ ms, Good E opts threads ms y } := fun n => f^[n] ⟨x, [], hx⟩
  have hst : ∀ n, st (n + 1) = f (st n) := fun n => Function.iterate_succ_apply' f n _
  refine ⟨fun n => d (st n), fun n => (st n).1, ?_⟩
  intro n
  induction n with
  | zero =>
    refine ⟨rfl, (st 0).2, .zero _, ?_⟩
    intro z hz
    cases hz
    rfl
  | succ n ih =>
    obtain ⟨g1, g2, g3, g4⟩ := ih
    refine ⟨?_, (st (n + 1)).2, ?_, ?_⟩
    · rw [Optimizer.rounds, g1, ok_bind]
      dsimp only
      rw [hst]
      exact h1 (st n)
    · dsimp only
      rw [hst]
      exact .succ g3 (h2 (st n))
    · intro z hz
      cases hz with
      | succ hy hu =>
        rw [g4 _ hy] at hu
        dsimp only
        rw [hst]
        exact h3 _ z hu

/-- C93. What an optimizer computes depends on the numbers from its generators only and not on the order of the threads' steps: after any number of
updates there is exactly one state of the optimizer and of its memory, and it is the one that the sequential `Optimizer.rounds` gives with some
random numbers, so that everything shown about those is true of the threads. -/
theorem threads_do_not_matter (hv : ValidOptions E opts) {gens : List G} (hg : gens ≠ []) :
    ∃ (o : Optimizer K) (draws : Nat → Nat → Nat → Draws K) (state : Nat → Optimizer K × List (Slot K G)),
      Optimizer.new E opts gens.length = ok o ∧
      ∀ n, o.rounds E draws n = ok (state n).1 ∧ Updated E R opts gens n (state n) ∧ ∀ z, Updated E R opts gens n z → z = state n := by
  obtain ⟨o, h, h1, h2, h3⟩ := newSlots_good hv hg
  obtain ⟨draws, state, hs⟩ := updates_good (R := R) hv h3
  refine ⟨o, draws, state, h1, ?_⟩
  intro n
  obtain ⟨g1, _, g3, g4⟩ := hs n
  refine ⟨g1, ⟨o, h, h1, h2, g3⟩, ?_⟩
  rintro z ⟨o', h', e1, e2, hz⟩
  rw [h1] at e1
  rw [h2] at e2
  injection e1 with e1
  injection e2 with e2
  subst e1 e2
  exact g4 z hz

theorem updated_good (hv : ValidOptions E opts) {gens : List G} (hg : gens ≠ []) {n : Nat} {x : Optimizer K × List (Slot K G)}
    (hx : Updated E R opts gens n x) : ∃ ms, Good E opts gens.length ms x := by
  obtain ⟨o, h, h1, h2, h3⟩ := newSlots_good hv hg
  obtain ⟨draws, state, hs⟩ := updates_good (R := R) hv h3
  obtain ⟨o', h', e1, e2, hz⟩ := hx
  rw [h1] at e1
  rw [h2] at e2
  injection e1 with e1
  injection e2 with e2
  subst e1 e2
  obtain ⟨_, g2, _, g4⟩ := hs n
  rw [g4 x hz]
  exact g2

/-- C93, the end. The loop `while (!has_converged()) update()` ends after the same number of rounds in every order of the threads' steps, with the same
result. -/
theorem threads_converge (hv : ValidOptions E opts) {gens : List G} (hg : gens ≠ []) :
    ∃ n x, Updated E R opts gens n x ∧ x.1.hasConverged = true ∧ (∀ z, Updated E R opts gens n z → z = x) ∧
      ∀ m < n, ∀ z, Updated E R opts gens m z → z.1.hasConverged = false := by
  obtain ⟨o, draws, state, h1, h2⟩ := threads_do_not_matter (R := R) hv hg
  obtain ⟨n, o', g1, g2, g3, _⟩ := optimizer_terminates hv (.new h1) draws
  refine ⟨n, state n, (h2 n).2.1, ?_, (h2 n).2.2, ?_⟩
  · have := (h2 n).1
    rw [g1] at this
    injection this with this
    rw [← this]
    exact g2
  · intro m hm z hz
    obtain ⟨o₁, e1, e2⟩ := g3 m hm
    rw [(h2 m).2.2 z hz]
    have := (h2 m).1
    rw [e1] at this
    injection this with this
    rw [← this]
    exact e2

/-- C93, no step fails. Whatever the threads have done in this round and before, every job with iterations left can make its next step (no
contract of the code is violated and all pointers lead to existing slots), and when all are done the update can be finished. -/
theorem threads_no_violation (hv : ValidOptions E opts) {gens : List G} (hg : gens ≠ []) {n : Nat} {x : Optimizer K × List (Slot K G)}
    (hx : Updated E R opts gens n x) {h : List (Slot K G)} (hs : Relation.ReflTransGen (Step E R) (begin x.2) h) :
    (∀ (k : Nat) s, h[k]? = some s → s.done < s.job.batchSize → ∃ h', act E R h k = ok h') ∧
      (Finished h → ∃ y, finishUpdate E x.1 h = ok y) := by
  obtain ⟨ms, hgood⟩ := updated_good hv hg hx
  obtain ⟨_, y, _, _, _, _, _, hr⟩ := Good.update (R := R) hv hgood
  obtain ⟨_, h2, h3⟩ := hr h hs
  exact ⟨h2, fun hf => ⟨y, h3 hf⟩⟩

/-- C93, no data race. A step of a job neither reads nor writes anything in the slot of another job: with anything else in that slot the step does the
same, and the slot stays as it is. -/
theorem threads_separate (hv : ValidOptions E opts) {gens : List G} (hg : gens ≠ []) {n : Nat} {x : Optimizer K × List (Slot K G)}
    (hx : Updated E R opts gens n x) {h h' : List (Slot K G)} (hs : Relation.ReflTransGen (Step E R) (begin x.2) h) {i k : Nat} (hik : i ≠ k)
    (ha : act E R h k = ok h') (other : Slot K G) : act E R (h.set i other) k = ok (h'.set i other) ∧ h'[i]? = h[i]? := by
  obtain ⟨ms, hgood⟩ := updated_good hv hg hx
  obtain ⟨_, y, _, _, _, _, _, hr⟩ := Good.update (R := R) hv hgood
  obtain ⟨ho, _⟩ := hr h hs
  have hk : ∃ s, h[k]? = some s := by
    unfold act at ha
    obtain ⟨s, hs, _⟩ := bind_eq_ok.1 ha
    unfold at? at hs
    split at hs
    · rename_i s _ _
      exact ⟨_, by assumption⟩
    · cases hs
  obtain ⟨s, hk⟩ := hk
  exact act_separate ho hk hik ha

/-- C93, every round ends: the threads make at most four steps for each iteration of each job. -/
theorem threads_finish (hv : ValidOptions E opts) {gens : List G} (hg : gens ≠ []) {n : Nat} {x : Optimizer K × List (Slot K G)}
    (hx : Updated E R opts gens n x) {m : Nat} {f : Nat → List (Slot K G)} (h0 : f 0 = begin x.2) (hf : ∀ i < m, Step E R (f i) (f (i + 1))) :
    m ≤ 4 * opts.batchSize * gens.length := by
  obtain ⟨ms, ⟨v, hi⟩, hj, ho⟩ := updated_good hv hg hx
  have key : ∀ i ≤ m, Own (f i) ∧ total (f i) + i ≤ total (f 0) := by
    intro i
    induction i with
    | zero => intro _; exact ⟨h0 ▸ own_begin ho, le_rfl⟩
    | succ i ih =>
      intro hi
      obtain ⟨h1, h2⟩ := ih (by omega)
      have hst := hf i (by omega)
      have h3 := hst.total h1
      exact ⟨(steps_spec h1 (.single hst)).1, by omega⟩
  have := (key m le_rfl).2
  rw [h0, total_begin (b := opts.batchSize)] at this
  · have hl : x.2.length = gens.length := by rw [← hi.len, hj, List.length_map]
    rw [hl] at this
    omega
  · intro s hs
    exact (hi.jobs _ (by rw [hj]; exact List.mem_map_of_mem hs)).1.batch

/-! ### Examples -/

/-- A generator of numbers that go round -/
def clock : Rng ℚ Nat where
  mutation g _ _ := ((g, g / 2, g / 3), g + 1)
  real g := ((g % 4 : Nat) / 4, g + 1)

/-- Three jobs with three generators -/
example : ∃ n x, Updated FloatEnv.rat clock exampleOptions [5, 6, 20] n x ∧ x.1.hasConverged = true := by
  obtain ⟨n, x, h1, h2, _⟩ := threads_converge (R := clock) exampleOptions_valid (gens := [5, 6, 20]) (by decide)
  exact ⟨n, x, h1, h2⟩

/-- A job about to decide whether it accepts a worse schedule -/
def deciding : Job ℚ where
  batchSize := 10
  params := Example.params
  makespan := ⟨Example.params, [0, 0, 0], [0, 0]⟩
  temperature := ⟨1000, 100, [], 0, 1 / 10000, 1023⟩
  stun := { buffer := [⟨0, 0⟩, ⟨1, 1⟩, ⟨2, 0⟩, ⟨0, 0⟩, ⟨1, 1⟩, ⟨2, 0⟩, ⟨1, 1⟩, ⟨0, 0⟩, ⟨2, 0⟩], n := 3, best := 0, current := 3, target := 6,
            currentE := 1, lowestE := 1, targetE := 3, gamma := 1, currentS := 0, targetS := 0 }

/-- Two such jobs; `r` is where the second one's generator is. -/
def deciders (r : Nat) : List (Slot ℚ Nat) :=
  [⟨3, deciding, 0, 0, 0, 0, 0, .accept, 0⟩, ⟨3, deciding, r, 1, r, 1, 1, .accept, 0⟩]

/-- The jobs' makespans after they have made steps in this order -/
def decisions (h : List (Slot ℚ Nat)) (order : List Nat) : Outcome (List ℚ) := do
  let h ← order.foldlM (act FloatEnv.rat clock) h
  return h.map fun s => s.job.stun.currentE

/-- With the generator of its own slot, both make the same decision in either order. -/
example : decisions (deciders 1) [0, 1] = ok [1, 1] ∧ decisions (deciders 1) [1, 0] = ok [1, 1] := by
  decide +kernel

/-- If the second job drew its numbers from the first job's generator, as it would without `job.params` after the assignment of the best job
(`optimizer.cpp:128`), then the order of the steps would matter. -/
example : decisions (deciders 0) [0, 1] = ok [1, 3] ∧ decisions (deciders 0) [1, 0] = ok [3, 1] := by
  decide +kernel

end Angonoka.Props
