import Verif.Proof.Makespan
import Verif.Spec.Estimator

/-!
# Changing the unit of time scales the makespan
-/

set_option linter.unusedSectionVars false

namespace Angonoka
open Outcome Stun

variable {K : Type} [Field K] [LinearOrder K] [IsStrictOrderedRing K]

/-- Parameters with all durations multiplied by `c`. -/
def ScheduleParams.scale (p : ScheduleParams K) (c : K) : ScheduleParams K :=
  { p with taskDuration := p.taskDuration.map (c * ·) }

theorem maxOf_scale {c : K} (hc : 0 ≤ c) (l : List K) : maxOf (l.map (c * ·)) = c * maxOf l := by
  cases l with
  | nil => simp [maxOf]
  | cons x l =>
    simp only [List.map_cons, maxOf]
    induction l generalizing x with
    | nil => rfl
    | cons y l ih =>
      simp only [List.map_cons, List.foldl_cons]
      rw [← mul_max_of_nonneg _ _ hc, ih]

theorem at?_map {α β : Type} {l : List α} {i : Nat} {site : String} (f : α → β) :
    at? (l.map f) i site = (at? l i site >>= fun x => ok (f x)) := by
  unfold at?
  rw [List.getElem?_map]
  cases l[i]? <;> rfl

theorem mapM_map_post {α β γ : Type} {g : α → Outcome β} (f : β → γ) (l : List α) :
    (l.mapM fun a => g a >>= fun x => ok (f x)) = (l.mapM g >>= fun r => ok (r.map f)) := by
  induction l with
  | nil => rfl
  | cons a l ih =>
    rw [List.mapM_cons, List.mapM_cons, ih]
    simp only [bind_assoc, ok_bind, pure_eq]
    cases g a with
    | ok x => cases l.mapM g <;> rfl
    | throws e => rfl
    | ub s => rfl

theorem dependenciesDone_scale {c : K} (hc : 0 ≤ c) {p : ScheduleParams K} {td wd td' wd' : List K} (td₀ : List K)
    (t : Nat) : dependenciesDone ⟨p.scale c, td', wd'⟩ (td₀.map (c * ·)) t
      = (dependenciesDone ⟨p, td, wd⟩ td₀ t >>= fun x => ok (c * x)) := by
  unfold dependenciesDone
  simp only [ScheduleParams.scale, List.length_map, bind_assoc]
  congr 1
  funext _
  by_cases h : (p.dependencies.row t).isEmpty = true
  · simp [h]
  · simp only [h, if_false, at?_map]
    rw [mapM_map_post]
    simp [bind_assoc, maxOf_scale hc]

theorem workTime_scale {E : FloatEnv K} (hE : E.IsExact) {c : K} {p : ScheduleParams K}
    {td wd td' wd' : List K} (t a : Nat) : workTime E ⟨p.scale c, td', wd'⟩ t a
      = (workTime E ⟨p, td, wd⟩ t a >>= fun x => ok (c * x)) := by
  unfold workTime
  simp only [ScheduleParams.scale, at?_map, bind_assoc, ok_bind, pure_eq]
  congr 1
  funext d
  congr 1
  funext perf
  simp only [FloatEnv.div, hE _, mul_div_assoc]

theorem makespanLoop_scale {E : FloatEnv K} (hE : E.IsExact) {c : K} (hc : 0 ≤ c)
    {p : ScheduleParams K} {td wd td' wd' : List K} (s : List Item) (td₀ wd₀ : List K) :
    makespanLoop E ⟨p.scale c, td', wd'⟩ s (td₀.map (c * ·)) (wd₀.map (c * ·))
      = (makespanLoop E ⟨p, td, wd⟩ s td₀ wd₀ >>= fun r =>
          ok (r.1.map (c * ·), r.2.map (c * ·))) := by
  induction s generalizing td₀ wd₀ with
  | nil => rfl
  | cons it s ih =>
    simp only [makespanLoop, dependenciesDone_scale hc (td := td) (wd := wd) (td' := td') (wd' := wd'),
      workTime_scale hE (td := td) (wd := wd) (td' := td') (wd' := wd'), at?_map, bind_assoc, ok_bind]
    congr 1
    funext depsDone
    congr 1
    funext agentDone
    congr 1
    funext time
    congr 1
    funext _
    have : E.add (max (c * depsDone) (c * agentDone)) (c * time)
        = c * E.add (max depsDone agentDone) time := by
      simp only [FloatEnv.add, hE _, ← mul_max_of_nonneg _ _ hc, mul_add]
    rw [this, ← ih, List.map_set, List.map_set]

/-- The makespan of any schedule, valid or not, in another unit of time: same outcome, scaled value. -/
theorem call_scale {E : FloatEnv K} (hE : E.IsExact) {c : K} (hc : 0 ≤ c)
    {p : ScheduleParams K} {td wd : List K} (s : List Item) :
    (Makespan.call E ⟨p.scale c, td, wd⟩ s >>= fun r => ok r.1)
      = (Makespan.call E ⟨p, td, wd⟩ s >>= fun r => ok (c * r.1)) := by
  unfold Makespan.call
  simp only [bind_assoc]
  congr 1
  funext _
  congr 1
  funext _
  congr 1
  funext _
  have h0 : ∀ l : List K, (l.map fun _ => (0 : K)) = (l.map fun _ => (0 : K)).map (c * ·) := by
    intro l
    simp
  conv_lhs => rw [h0 td, h0 wd]
  rw [makespanLoop_scale hE hc (td := td) (wd := wd)]
  simp only [bind_assoc, ok_bind, pure_eq, maxOf_scale hc]

end Angonoka
