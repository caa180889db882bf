import Verif.Proof.Lists
import Verif.Spec.Project
import Mathlib.Tactic.FieldSimp

/-!
# Schedule parameters of a project
-/

set_option linter.unusedSectionVars false

namespace Angonoka
open Outcome Stun

variable {K : Type} [Field K] [LinearOrder K] [IsStrictOrderedRing K]

/-! ### Eligibility -/

theorem includes_iff : ∀ {xs ys : List Nat}, xs.Pairwise (· < ·) → ys.Pairwise (· < ·) →
    (includes xs ys = true ↔ ∀ y ∈ ys, y ∈ xs)
  | xs, [], _, _ => by simp [includes]
  | [], y :: ys, _, _ => by
    simp only [includes, Bool.false_eq_true, false_iff]
    intro h
    simpa using h y
  | x :: xs, y :: ys, hx, hy => by
    rw [List.pairwise_cons] at hx hy
    unfold includes
    split
    · next hlt =>
      simp only [Bool.false_eq_true, false_iff]
      intro h
      rcases List.mem_cons.1 (h y (by simp)) with h | h
      · omega
      · have := hx.1 y h
        omega
    · split
      · next hlt =>
        rw [includes_iff hx.2 (List.pairwise_cons.2 hy)]
        have hne : ∀ z ∈ y :: ys, z ≠ x := by
          intro z hz
          rcases List.mem_cons.1 hz with rfl | hz
          · omega
          · have := hy.1 z hz
            omega
        constructor
        · intro h z hz
          exact List.mem_cons_of_mem _ (h z hz)
        · intro h z hz
          exact (List.mem_cons.1 (h z hz)).resolve_left (hne z hz)
      · have hxy : x = y := by omega
        subst hxy
        rw [includes_iff hx.2 hy.2]
        constructor
        · intro h z hz
          rcases List.mem_cons.1 hz with rfl | hz
          · simp
          · exact List.mem_cons_of_mem _ (h z hz)
        · intro h z hz
          rcases List.mem_cons.1 (h z (List.mem_cons_of_mem _ hz)) with rfl | h'
          · exact absurd (hy.1 _ hz) (lt_irrefl _)
          · exact h'

theorem canWorkOn_iff {a : Agent} {t : Task} (ha : IndexSet.Sorted a.groupIds)
    (ht : IndexSet.Sorted t.groupIds) : canWorkOn a t = true ↔ Eligible a t := by
  unfold canWorkOn Eligible
  cases h : t.agentId with
  | some i => simp [beq_iff_eq]
  | none =>
    simp only [isUniversal, Bool.or_eq_true, List.isEmpty_iff, Bool.and_eq_true,
      Bool.not_eq_true', includes_iff ha ht]
    simp

/-! ### Packed tables -/

theorem spansOf_getElem? (rows : List (List Nat)) (head i : Nat) :
    (Vector2D.spansOf head (rows.map List.length))[i]?
      = (rows[i]?).map fun r => (head + ((rows.take i).flatten).length, r.length) := by
  induction rows generalizing head i with
  | nil => simp [Vector2D.spansOf]
  | cons r rows ih =>
    cases i with
    | zero => simp [Vector2D.spansOf]
    | succ i =>
      simp only [List.map_cons, Vector2D.spansOf, List.getElem?_cons_succ, ih, List.take_succ_cons,
        List.flatten_cons, List.length_append, Nat.add_assoc]

/-- Reading a row of a packed table gives the row that was packed. -/
theorem row_ofSizes (rows : List (List Nat)) (i : Nat) :
    (Vector2D.ofSizes rows.flatten (rows.map List.length)).row i = rows.getD i [] := by
  unfold Vector2D.row Vector2D.ofSizes
  simp only [spansOf_getElem?, Nat.zero_add, List.getD_eq_getElem?_getD]
  cases h : rows[i]? with
  | none => rfl
  | some r =>
    simp only [Option.map_some, Option.getD_some]
    have hlt : i < rows.length := by
      by_contra hge
      rw [List.getElem?_eq_none (by omega)] at h
      cases h
    have hr : rows[i] = r := by
      rw [List.getElem?_eq_getElem hlt] at h
      simpa using h
    have hsplit : rows.flatten = (rows.take i).flatten ++ (r ++ (rows.drop (i + 1)).flatten) := by
      conv_lhs => rw [← List.take_append_drop i rows]
      rw [List.flatten_append, List.drop_eq_getElem_cons hlt, List.flatten_cons, hr]
    rw [hsplit, List.drop_left, List.take_left]

theorem spansOf_length (sizes : List Nat) (head : Nat) :
    (Vector2D.spansOf head sizes).length = sizes.length := by
  induction sizes generalizing head with
  | nil => rfl
  | cons s sizes ih => simp [Vector2D.spansOf, ih]

theorem availableAgentsLoop_eq (agents : List Agent) (tasks : List Task) (data sizes : List Nat) :
    availableAgentsLoop agents tasks data sizes
      = (data ++ (tasks.map fun t => eligible t 0 agents).flatten,
         sizes ++ (tasks.map fun t => eligible t 0 agents).map List.length) := by
  induction tasks generalizing data sizes with
  | nil => simp [availableAgentsLoop]
  | cons t tasks ih =>
    rw [availableAgentsLoop]
    simp [ih]

theorem dependenciesLoop_eq (tasks : List Task) (data sizes : List Nat) :
    dependenciesLoop tasks data sizes
      = (data ++ (tasks.map Task.dependencies).flatten,
         sizes ++ (tasks.map Task.dependencies).map List.length) := by
  induction tasks generalizing data sizes with
  | nil => simp [dependenciesLoop]
  | cons t tasks ih =>
    rw [dependenciesLoop]
    simp [ih]

theorem mem_eligible {t : Task} {agents : List Agent} {i k : Nat} :
    k ∈ eligible t i agents ↔
      ∃ j a, k = i + j ∧ agents[j]? = some a ∧ canWorkOn a t = true := by
  induction agents generalizing i with
  | nil => simp [eligible]
  | cons a agents ih =>
    have hsucc : (∃ j a', k = i + 1 + j ∧ agents[j]? = some a' ∧ canWorkOn a' t = true) →
        ∃ j a', k = i + j ∧ (a :: agents)[j]? = some a' ∧ canWorkOn a' t = true := by
      rintro ⟨j, a', h1, h2, h3⟩
      exact ⟨j + 1, a', by omega, by simpa using h2, h3⟩
    unfold eligible
    split
    · next hc =>
      rw [List.mem_cons, ih]
      constructor
      · rintro (rfl | h)
        · exact ⟨0, a, rfl, rfl, hc⟩
        · exact hsucc h
      · rintro ⟨j, a', h1, h2, h3⟩
        cases j with
        | zero => left; omega
        | succ j => right; exact ⟨j, a', by omega, by simpa using h2, h3⟩
    · next hc =>
      rw [ih]
      constructor
      · exact hsucc
      · rintro ⟨j, a', h1, h2, h3⟩
        cases j with
        | zero =>
          simp only [List.getElem?_cons_zero, Option.some.injEq] at h2
          subst h2
          exact absurd h3 hc
        | succ j => exact ⟨j, a', by omega, by simpa using h2, h3⟩

theorem eligible_sorted (t : Task) (agents : List Agent) (i : Nat) :
    (eligible t i agents).Pairwise (· < ·) := by
  induction agents generalizing i with
  | nil => exact .nil
  | cons a agents ih =>
    unfold eligible
    split
    · refine List.pairwise_cons.2 ⟨?_, ih _⟩
      intro k hk
      obtain ⟨j, _, h, _⟩ := mem_eligible.1 hk
      omega
    · exact ih _

/-! ### Durations -/

theorem averageDuration_eq {t : Task} (h : t.DurationOk) :
    t.averageDuration = ok t.meanDuration := by
  unfold Task.averageDuration
  rw [expects_true (by simpa using h.1), ok_bind, expects_true (by simpa using h.2.1), ok_bind, if_pos h.2.2]
  simp only [Task.meanDuration, pure_eq]
  congr 1
  have := h.1
  have := h.2.1
  exact Int.tdiv_eq_ediv_of_nonneg (by omega)

theorem averageDuration_ok {t : Task} {d : Int} (h : t.averageDuration = ok d) :
    t.DurationOk ∧ d = t.meanDuration := by
  have h' := h
  simp only [Task.averageDuration, bind_eq_ok, expects_eq_ok, decide_eq_true_eq] at h'
  obtain ⟨_, h1, _, h2, h3⟩ := h'
  have h3 : t.durMin + t.durMax < 2 ^ 63 := by
    by_contra hc
    rw [if_neg hc] at h3
    cases h3
  refine ⟨⟨h1, h2, h3⟩, ?_⟩
  rw [averageDuration_eq ⟨h1, h2, h3⟩] at h
  cases h
  rfl

theorem durationLoop_eq {E : FloatEnv K} {tasks : List Task} (h : ∀ t ∈ tasks, t.DurationOk)
    (total : K) : durationLoop E tasks total
      = ok (tasks.map fun t => E.ofInt t.meanDuration,
            (tasks.map fun t => E.ofInt t.meanDuration).foldl E.add total) := by
  induction tasks generalizing total with
  | nil => rfl
  | cons t tasks ih =>
    rw [durationLoop, averageDuration_eq (h t (by simp)), ok_bind]
    dsimp only
    rw [ih (fun t ht => h t (by simp [ht])), ok_bind]
    rfl

theorem durationLoop_ok {E : FloatEnv K} {tasks : List Task} {total : K} {r : List K × K}
    (h : durationLoop E tasks total = ok r) : ∀ t ∈ tasks, t.DurationOk := by
  induction tasks generalizing total r with
  | nil => simp
  | cons t tasks ih =>
    simp only [durationLoop, bind_eq_ok, Prod.exists] at h
    obtain ⟨d, h1, ds, total', h2, _⟩ := h
    intro t' ht'
    rcases List.mem_cons.1 ht' with rfl | ht'
    · exact (averageDuration_ok h1).1
    · exact ih h2 t' ht'

/-! ### Performances -/

theorem toK_fin (q : ℚ) : (XFloat.fin q).toK = ok (q : K) := by
  unfold XFloat.toK
  simp only [Rat.cast_def]

theorem toK_ok {x : XFloat} {y : K} (h : x.toK = ok y) : ∃ q : ℚ, x = .fin q ∧ y = (q : K) := by
  cases x with
  | fin q => rw [toK_fin] at h; cases h; exact ⟨q, rfl, rfl⟩
  | _ => cases h

/-- The mean of two numbers in `float`s. -/
def meanPerformance (E : FloatEnv K) (lo hi : ℚ) : K := E.div (E.add (lo : K) (hi : K)) 2

theorem averagePerformance_eq {E : FloatEnv K} {a : Agent} {lo hi : ℚ} (h : a.PerformanceOk lo hi) :
    a.averagePerformance E = ok (meanPerformance E lo hi) := by
  obtain ⟨h1, h2, h3, h4⟩ := h
  unfold Agent.averagePerformance
  rw [h1, h2, toK_fin, toK_fin, ok_bind, ok_bind, expects_true (by simpa using h3), ok_bind,
    expects_true (by simpa using h4), ok_bind]
  rfl

theorem averagePerformance_ok {E : FloatEnv K} {a : Agent} {x : K}
    (h : a.averagePerformance E = ok x) :
    ∃ lo hi, a.PerformanceOk lo hi ∧ x = meanPerformance E lo hi := by
  have h' := h
  simp only [Agent.averagePerformance, bind_eq_ok, expects_eq_ok, decide_eq_true_eq] at h'
  obtain ⟨x1, h1, x2, h2, _, h3, _, h4, _⟩ := h'
  obtain ⟨lo, e1, rfl⟩ := toK_ok h1
  obtain ⟨hi, e2, rfl⟩ := toK_ok h2
  have hok : a.PerformanceOk lo hi := ⟨e1, e2, by exact_mod_cast h3, by exact_mod_cast h4⟩
  refine ⟨lo, hi, hok, ?_⟩
  rw [averagePerformance_eq hok] at h
  cases h
  rfl

/-- The mean performance lies between the bounds. -/
theorem meanPerformance_mem {E : FloatEnv K} {lo hi : ℚ} (h : lo ≤ hi)
    (h1 : E.rnd (lo : K) = lo) (h2 : E.rnd (hi : K) = hi) :
    (lo : K) ≤ meanPerformance E lo hi ∧ meanPerformance E lo hi ≤ (hi : K) := by
  have hle : (lo : K) ≤ hi := by exact_mod_cast h
  have h3 := E.rnd_double (lo : K)
  have h4 := E.rnd_double (hi : K)
  rw [h1] at h3
  rw [h2] at h4
  unfold meanPerformance FloatEnv.div FloatEnv.add
  constructor
  · rw [← h1]
    apply E.rnd_mono
    have : 2 * (lo : K) ≤ E.rnd ((lo : K) + hi) := by
      rw [← h3]
      exact E.rnd_mono (by linarith)
    rw [h1]
    linarith
  · conv_rhs => rw [← h2]
    apply E.rnd_mono
    have : E.rnd ((lo : K) + hi) ≤ 2 * (hi : K) := by
      rw [← h4]
      exact E.rnd_mono (by linarith)
    linarith

/-! ### The whole function -/

/-- What `to_schedule_params` computes. -/
theorem toScheduleParams_ok {E : FloatEnv K} {p : Project} {sp : ScheduleParams K}
    (h : toScheduleParams E p = ok sp) :
    p.agents ≠ [] ∧ p.tasks ≠ [] ∧ (∀ t ∈ p.tasks, t.DurationOk) ∧
    p.agents.mapM (Agent.averagePerformance E) = ok sp.agentPerformance ∧
    sp.availableAgents = Vector2D.ofSizes (p.tasks.map fun t => eligible t 0 p.agents).flatten
      ((p.tasks.map fun t => eligible t 0 p.agents).map List.length) ∧
    sp.dependencies = Vector2D.ofSizes (p.tasks.map Task.dependencies).flatten
      ((p.tasks.map Task.dependencies).map List.length) ∧
    sp.durationMultiplier
      = E.div ((p.tasks.map fun t => E.ofInt t.meanDuration).foldl E.add 0) (E.ofInt p.agents.length) ∧
    sp.taskDuration
      = (p.tasks.map fun t => E.ofInt t.meanDuration).map fun d => E.div d sp.durationMultiplier := by
  simp only [toScheduleParams, taskDuration, agentPerformance, availableAgents, dependencies,
    bind_eq_ok, expects_eq_ok, Bool.not_eq_true', decide_eq_true_eq, Prod.exists,
    List.isEmpty_eq_false_iff] at h
  obtain ⟨_, h1, _, h2, ds, mult, ⟨_, _, _, _, ds', total, hloop, hds⟩, perf, ⟨_, _, hperf⟩,
    avail, ⟨_, _, _, _, havail⟩, deps, ⟨_, _, hdeps⟩, hsp⟩ := h
  have hok := durationLoop_ok hloop
  rw [durationLoop_eq hok] at hloop
  cases hloop
  cases hds
  rw [availableAgentsLoop_eq] at havail
  rw [dependenciesLoop_eq] at hdeps
  cases havail
  cases hdeps
  cases hsp
  exact ⟨h1, h2, hok, hperf, by simp, by simp, rfl, rfl⟩

theorem toScheduleParams_exists {E : FloatEnv K} {p : Project} (h1 : p.agents ≠ [])
    (h2 : p.tasks ≠ []) (h3 : ∀ t ∈ p.tasks, t.DurationOk)
    (h4 : ∀ a ∈ p.agents, ∃ lo hi, a.PerformanceOk lo hi) : ∃ sp, toScheduleParams E p = ok sp := by
  have hperf : ∃ perf, p.agents.mapM (Agent.averagePerformance E) = ok perf := by
    generalize p.agents = agents at h4
    induction agents with
    | nil => exact ⟨[], rfl⟩
    | cons a agents ih =>
      obtain ⟨perf, hp⟩ := ih (fun a ha => h4 a (by simp [ha]))
      obtain ⟨lo, hi, ha⟩ := h4 a (by simp)
      refine ⟨meanPerformance E lo hi :: perf, ?_⟩
      rw [List.mapM_cons, averagePerformance_eq ha, ok_bind, hp, ok_bind]
      rfl
  obtain ⟨perf, hperf⟩ := hperf
  have hlen : 0 < p.agents.length := List.length_pos_iff.2 h1
  have e1 : (!p.agents.isEmpty) = true := by simpa using h1
  have e2 : (!p.tasks.isEmpty) = true := by simpa using h2
  have e3 : decide (0 < p.agents.length) = true := by simpa using hlen
  simp only [toScheduleParams, taskDuration, agentPerformance, availableAgents, dependencies, e1, e2,
    e3, expects_true, ok_bind, durationLoop_eq h3, pure_eq, hperf]
  exact ⟨_, rfl⟩

end Angonoka
