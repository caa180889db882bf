import Verif.Proof.Histogram
import Verif.Proof.Simulation
import Verif.Model.HistogramOp

/-!
# Building the histogram
-/

set_option linter.unusedSectionVars false

namespace Angonoka
open Outcome Stun

variable {K : Type} [Field K] [LinearOrder K] [IsStrictOrderedRing K] [FloorRing K]

/-- Invariant: the histogram is that of the makespans so far, all of which are results of runs. -/
structure OpInv (E : FloatEnv K) (p : Project) (s : List Item) (w : Int) (zs₀ : List K) (op : HistogramOp K) : Prop where
  sim : SimulationFor E p op.sim
  hist : (Histogram.new w >>= fun h => h.run (op.log.map .add)) = ok op.hist
  nonneg : ∀ v ∈ op.log, 0 ≤ v
  runs : Runs E p s op.log zs₀ op.zs

theorem run_append {h : Histogram} {us us' : List HistogramUse} :
    h.run (us ++ us') = (h.run us >>= fun h => h.run us') := by
  induction us generalizing h with
  | nil => rfl
  | cons u us ih =>
    simp only [List.cons_append, Histogram.run, bind_assoc]
    congr 1
    funext h
    exact ih

theorem OpInv.step {E : FloatEnv K} {p : Project} {s : List Item} {w : Int} {zs₀ : List K} {op : HistogramOp K}
    (h : OpInv E p s w zs₀ op) {v : Int} {zs : List K} {sim : Simulation K} {hist : Histogram}
    (hc : op.sim.call E s op.zs = ok (some (v, zs, sim))) (hi : op.hist.insert v = ok hist) :
    OpInv E p s w zs₀ { sim := sim, hist := hist, zs := zs, log := op.log ++ [v] } where
  sim := .run h.sim hc
  hist := by
    have := h.hist
    rw [List.map_append]
    obtain ⟨h0, h1, h2⟩ := bind_eq_ok.1 this
    rw [h1, ok_bind, run_append, h2, ok_bind]
    change (op.hist.insert v >>= fun h => ok h) = _
    rw [hi]
    rfl
  nonneg := by
    intro x hx
    rcases List.mem_append.1 hx with hx | hx
    · exact h.nonneg x hx
    · unfold Histogram.insert at hi
      obtain ⟨_, _, hi⟩ := bind_eq_ok.1 hi
      obtain ⟨_, h2, _⟩ := bind_eq_ok.1 hi
      have := expects_eq_ok.1 h2
      rw [List.mem_singleton.1 hx]
      simpa using this
  runs := .snoc h.runs h.sim hc

theorem Runs.result {E : FloatEnv K} {p : Project} {s : List Item} {vs : List Int} {zs rest : List K}
    (h : Runs E p s vs zs rest) : ∀ v ∈ vs, RunResult E p s v := by
  induction h with
  | nil => intro v hv; cases hv
  | snoc _ hs hc ih =>
    intro x hx
    rcases List.mem_append.1 hx with hx | hx
    · exact ih x hx
    · rw [List.mem_singleton.1 hx]
      exact ⟨_, _, _, _, hs, hc⟩

theorem OpInv.batchLoop {E : FloatEnv K} {p : Project} {s : List Item} {w : Int} {zs₀ : List K} {n : Nat}
    {op op' : HistogramOp K} (h : OpInv E p s w zs₀ op)
    (hr : HistogramOp.batchLoop E s n op = ok (some op')) :
    OpInv E p s w zs₀ op' ∧ op'.log.length = op.log.length + n ∧ op.log <+: op'.log := by
  induction n generalizing op with
  | zero =>
    cases hr
    exact ⟨h, rfl, List.prefix_rfl⟩
  | succ n ih =>
    rw [HistogramOp.batchLoop] at hr
    obtain ⟨r, h1, hr⟩ := bind_eq_ok.1 hr
    match r, h1, hr with
    | none, _, hr => cases hr
    | some (v, zs, sim), h1, hr =>
      dsimp only at hr
      obtain ⟨hist, h2, hr⟩ := bind_eq_ok.1 hr
      obtain ⟨h3, h4, h5⟩ := ih (h.step h1 h2) hr
      refine ⟨h3, ?_, (List.prefix_append _ _).trans h5⟩
      rw [h4]
      simp
      omega

theorem OpInv.runBatch {E : FloatEnv K} {p : Project} {s : List Item} {w : Int} {zs₀ : List K}
    {op op' : HistogramOp K} (h : OpInv E p s w zs₀ op) (hr : op.runBatch E s = ok (some op')) :
    OpInv E p s w zs₀ op' ∧ op'.log.length = op.log.length + 10000 ∧ op.log <+: op'.log := by
  unfold HistogramOp.runBatch at hr
  obtain ⟨_, _, hr⟩ := bind_eq_ok.1 hr
  exact h.batchLoop hr

theorem OpInv.loop {E : FloatEnv K} {p : Project} {s : List Item} {w : Int} {zs₀ : List K}
    {more : List Int → Outcome Bool} {fuel : Nat} {op op' : HistogramOp K} (h : OpInv E p s w zs₀ op)
    (hr : op.loop E s more fuel = ok (some op')) :
    OpInv E p s w zs₀ op' ∧ op.log <+: op'.log ∧ ∃ k, op'.log.length = op.log.length + 10000 * k ∧
      ∀ j ≤ k, more (op'.log.take (op.log.length + 10000 * j)) = ok (decide (j < k)) := by
  induction fuel generalizing op with
  | zero => cases hr
  | succ fuel ih =>
    rw [HistogramOp.loop] at hr
    obtain ⟨c, h1, hr⟩ := bind_eq_ok.1 hr
    cases c with
    | false =>
      rw [if_neg (by simp)] at hr
      cases hr
      refine ⟨h, List.prefix_rfl, 0, rfl, fun j hj => ?_⟩
      obtain rfl : j = 0 := by omega
      simpa using h1
    | true =>
      rw [if_pos rfl] at hr
      obtain ⟨r, h2, hr⟩ := bind_eq_ok.1 hr
      match r, h2, hr with
      | none, _, hr => cases hr
      | some op1, h2, hr =>
        obtain ⟨h3, h4, h40⟩ := h.runBatch h2
        obtain ⟨h5, h50, k, h6, h7⟩ := ih h3 hr
        refine ⟨h5, h40.trans h50, k + 1, by omega, fun j hj => ?_⟩
        cases j with
        | zero =>
          rw [Nat.mul_zero, Nat.add_zero, ← List.prefix_iff_eq_take.1 (h40.trans h50), h1]
          simp
        | succ j =>
          have := h7 j (by omega)
          rw [h4] at this
          rw [show op.log.length + 10000 * (j + 1) = op.log.length + 10000 + 10000 * j by omega, this]
          simp

/-! ### Safety -/

theorem insert_exists {w : Int} {h : Histogram} {vs : List Int} (hw : 1 ≤ w)
    (hh : (Histogram.new w >>= fun h => h.run (vs.map .add)) = ok h) {v : Int} (hv : 0 ≤ v) :
    ∃ h', h.insert v = ok h' := by
  have hbs : h.binSize = w := by
    obtain ⟨h0, h1, h2⟩ := bind_eq_ok.1 hh
    have h00 : h0.binSize = w := by
      unfold Histogram.new at h1
      obtain ⟨_, _, h1⟩ := bind_eq_ok.1 h1
      cases h1
      rfl
    clear h1 hh
    induction vs generalizing h0 with
    | nil =>
      cases h2
      exact h00
    | cons x vs ih =>
      rw [List.map_cons, Histogram.run] at h2
      obtain ⟨h3, h4, h5⟩ := bind_eq_ok.1 h2
      refine ih h3 h5 ?_
      change h0.insert x = ok h3 at h4
      unfold Histogram.insert at h4
      obtain ⟨_, _, h4⟩ := bind_eq_ok.1 h4
      obtain ⟨_, _, h4⟩ := bind_eq_ok.1 h4
      cases h4
      exact h00
  unfold Histogram.insert
  rw [hbs, expects_true (by simpa using hw), ok_bind, expects_true (by simpa using hv), ok_bind]
  exact ⟨_, rfl⟩

/-- Runs that never fail and give non-negative values. -/
def SafeRuns (E : FloatEnv K) (p : Project) (s : List Item) : Prop :=
  ∀ sim zs, SimulationFor E p sim → ∃ r, sim.call E s zs = ok r ∧
    ∀ v zs' sim', r = some (v, zs', sim') → 0 ≤ v

theorem OpInv.batchLoop_safe {E : FloatEnv K} {p : Project} {s : List Item} {w : Int} {zs₀ : List K} (hw : 1 ≤ w)
    (hsafe : SafeRuns E p s) {n : Nat} {op : HistogramOp K} (h : OpInv E p s w zs₀ op) :
    ∃ r, HistogramOp.batchLoop E s n op = ok r := by
  induction n generalizing op with
  | zero => exact ⟨_, rfl⟩
  | succ n ih =>
    obtain ⟨r, h1, h2⟩ := hsafe op.sim op.zs h.sim
    rw [HistogramOp.batchLoop, h1, ok_bind]
    match r, h1, h2 with
    | none, _, _ => exact ⟨_, rfl⟩
    | some (v, zs, sim), h1, h2 =>
      obtain ⟨hist, h3⟩ := insert_exists hw h.hist (h2 v zs sim rfl)
      dsimp only
      rw [h3, ok_bind]
      exact ih (h.step h1 h3)

theorem OpInv.runBatch_safe {E : FloatEnv K} {p : Project} {s : List Item} {w : Int} {zs₀ : List K} (hw : 1 ≤ w)
    (hs : s ≠ []) (hsafe : SafeRuns E p s) {op : HistogramOp K} (h : OpInv E p s w zs₀ op) :
    ∃ r, op.runBatch E s = ok r := by
  unfold HistogramOp.runBatch
  rw [expects_true (by simpa using hs), ok_bind]
  exact h.batchLoop_safe hw hsafe

theorem OpInv.loop_safe {E : FloatEnv K} {p : Project} {s : List Item} {w : Int} {zs₀ : List K} (hw : 1 ≤ w)
    (hs : s ≠ []) (hsafe : SafeRuns E p s) {more : List Int → Outcome Bool}
    (hmore : RuleAnswers E p s more zs₀) {fuel k : Nat} {op : HistogramOp K} (h : OpInv E p s w zs₀ op)
    (hk : 1 ≤ k) (hl : op.log.length = 10000 * k) : ∃ r, op.loop E s more fuel = ok r := by
  induction fuel generalizing op k with
  | zero => exact ⟨_, rfl⟩
  | succ fuel ih =>
    obtain ⟨c, hc⟩ := hmore op.log _ k hk hl h.runs
    rw [HistogramOp.loop, hc, ok_bind]
    cases c with
    | false => exact ⟨_, rfl⟩
    | true =>
      rw [if_pos rfl]
      obtain ⟨r, h1⟩ := h.runBatch_safe hw hs hsafe
      rw [h1, ok_bind]
      cases r with
      | none => exact ⟨_, rfl⟩
      | some op1 =>
        obtain ⟨h2, h3, h4⟩ := h.runBatch h1
        exact ih h2 (Nat.le_add_left 1 k) (by rw [h3, hl, Nat.mul_add])

end Angonoka
