import Verif.Spec.Optimizer
import Verif.Proof.Temperature

/-!
# The samples that the temperature is given
-/

set_option linter.unusedSectionVars false

namespace Angonoka
open Outcome Stun

variable {K : Type} [Field K] [LinearOrder K] [IsStrictOrderedRing K] {E : FloatEnv K}

theorem Temperature.update_eq {t t' : Temperature K} {s : K} (h : t.update E s = ok t') :
    0 ≤ s ∧ t'.samples = s :: t.samples ∧ t'.stunWindow = t.stunWindow ∧ t'.count = t.count + 1 := by
  simp only [Temperature.update, bind_eq_ok, expects_eq_ok, decide_eq_true_eq] at h
  obtain ⟨_, h1, _, _, h⟩ := h
  cases h
  exact ⟨h1, rfl, rfl, rfl⟩

theorem stunFn_bounds {l e g v : K} (h : stunFn E l e g = ok v) : 0 ≤ v ∧ v ≤ 1 := by
  simp only [stunFn, bind_eq_ok, expects_eq_ok, decide_eq_true_eq] at h
  obtain ⟨_, _, _, _, _, h1, h⟩ := h
  cases h
  exact h1

theorem performStun_feeds {d : Draws K} {temp temp' : Temperature K} {t t' : Tunneling K}
    (h : performStun E d temp t = ok (temp', t')) :
    temp' = temp ∨ ∃ s, 0 ≤ s ∧ s ≤ 1 ∧ temp.update E s = ok temp' := by
  unfold performStun at h
  obtain ⟨_, _, h⟩ := bind_eq_ok.1 h
  obtain ⟨_, _, h⟩ := bind_eq_ok.1 h
  obtain ⟨_, _, h⟩ := bind_eq_ok.1 h
  obtain ⟨_, _, h⟩ := bind_eq_ok.1 h
  obtain ⟨_, _, h⟩ := bind_eq_ok.1 h
  obtain ⟨v, hv, h⟩ := bind_eq_ok.1 h
  dsimp only at h
  split at h
  · obtain ⟨temp₂, h2, h⟩ := bind_eq_ok.1 h
    simp only [pure_eq, ok_bind] at h
    obtain ⟨_, _, h⟩ := bind_eq_ok.1 h
    obtain ⟨_, _, h⟩ := bind_eq_ok.1 h
    have h := (Outcome.ok.injEq ..).mp h
    simp only [Prod.mk.injEq] at h
    rw [← h.1]
    exact .inr ⟨v, (stunFn_bounds hv).1, (stunFn_bounds hv).2, h2⟩
  · simp only [pure_eq, ok_bind] at h
    obtain ⟨_, _, h⟩ := bind_eq_ok.1 h
    obtain ⟨_, _, h⟩ := bind_eq_ok.1 h
    have h := (Outcome.ok.injEq ..).mp h
    simp only [Prod.mk.injEq] at h
    exact .inl h.1.symm

theorem tunnelingUpdate_feeds {p : ScheduleParams K} {d : Draws K} {m m' : Makespan K} {temp temp' : Temperature K}
    {t t' : Tunneling K} (h : tunnelingUpdate E p d m temp t = ok (m', temp', t')) :
    temp' = temp ∨ ∃ s, 0 ≤ s ∧ s ≤ 1 ∧ temp.update E s = ok temp' := by
  simp only [tunnelingUpdate, bind_eq_ok] at h
  obtain ⟨_, _, _, _, ⟨m₁, t₁⟩, _, ⟨b, t₂⟩, _, h⟩ := h
  dsimp only at h
  split at h
  · have h := (Outcome.ok.injEq ..).mp h
    simp only [Prod.mk.injEq] at h
    exact .inl h.2.1.symm
  · obtain ⟨⟨temp₁, t₃⟩, h1, h⟩ := bind_eq_ok.1 h
    have h := (Outcome.ok.injEq ..).mp h
    simp only [Prod.mk.injEq] at h
    rw [← h.2.1]
    exact performStun_feeds h1

/-- A job with the given window and batch size, whose temperature has been given at most `n` samples since the last reset -/
structure Fed (window batch n : Nat) (j : Job K) : Prop where
  samples : ∀ x ∈ j.temperature.samples, 0 ≤ x ∧ x ≤ 1
  count : j.temperature.samples.length ≤ n
  window : j.temperature.stunWindow = window
  batch : j.batchSize = batch

section
variable {window batch n : Nat} {j j' : Job K}

theorem Fed.mono (h : Fed window batch n j) {k : Nat} (hk : n ≤ k) : Fed window batch k j :=
  ⟨h.samples, h.count.trans hk, h.window, h.batch⟩

theorem Fed.step (h : Fed window batch n j) {d : Draws K} (hj : j.step E d = ok j') : Fed window batch (n + 1) j' := by
  unfold Job.step at hj
  obtain ⟨⟨m, temp, t⟩, h1, hj⟩ := bind_eq_ok.1 hj
  cases hj
  rcases tunnelingUpdate_feeds h1 with h2 | ⟨s, h2, h3, h4⟩
  · subst h2
    exact ⟨h.samples, h.count.trans (Nat.le_succ _), h.window, h.batch⟩
  · obtain ⟨_, h5, h6, _⟩ := Temperature.update_eq h4
    refine ⟨?_, ?_, h6.trans h.window, h.batch⟩
    · dsimp only
      rw [h5]
      intro x hx
      rcases List.mem_cons.1 hx with rfl | hx
      · exact ⟨h2, h3⟩
      · exact h.samples x hx
    · dsimp only
      rw [h5]
      exact Nat.succ_le_succ h.count

theorem Fed.steps {ds : List (Draws K)} (h : Fed window batch n j) (hj : j.steps E ds = ok j') :
    Fed window batch (n + ds.length) j' := by
  induction ds generalizing j n with
  | nil =>
    cases hj
    exact h
  | cons d ds ih =>
    rw [Job.steps] at hj
    obtain ⟨j₁, h1, hj⟩ := bind_eq_ok.1 hj
    have := ih (h.step h1) hj
    rwa [Nat.add_assoc, Nat.add_comm 1] at this

theorem Fed.update {draws : Nat → Draws K} (h : Fed window batch n j) (hj : j.update E draws = ok j') :
    Fed window batch (n + batch) j' := by
  unfold Job.update at hj
  obtain ⟨_, _, hj⟩ := bind_eq_ok.1 hj
  have := h.steps hj
  rwa [List.length_map, List.length_range, h.batch] at this

theorem Fed.updateJobs {draws : Nat → Nat → Draws K} {jobs jobs' : List (Job K)} {k : Nat} (h : ∀ j ∈ jobs, Fed window batch n j)
    (hj : updateJobs E draws k jobs = ok jobs') : ∀ j ∈ jobs', Fed window batch (n + batch) j := by
  induction jobs generalizing k jobs' with
  | nil =>
    cases hj
    simp
  | cons j rest ih =>
    rw [Stun.updateJobs] at hj
    obtain ⟨j₁, h1, hj⟩ := bind_eq_ok.1 hj
    obtain ⟨rest', h2, hj⟩ := bind_eq_ok.1 hj
    cases hj
    intro x hx
    rcases List.mem_cons.1 hx with rfl | hx
    · exact (h j List.mem_cons_self).update h1
    · exact ih (fun x hx => h x (List.mem_cons_of_mem _ hx)) h2 x hx

theorem Fed.copy (h : Fed window batch n j) (hj : j.copy = ok j') : Fed window batch n j' := by
  simp only [Job.copy, bind_eq_ok] at hj
  obtain ⟨_, _, _, _, hj⟩ := hj
  cases hj
  exact ⟨h.samples, h.count, h.window, h.batch⟩

theorem Fed.copyJobs {jobs jobs' : List (Job K)} (h : ∀ j ∈ jobs, Fed window batch n j) (hj : copyJobs jobs = ok jobs') :
    ∀ j ∈ jobs', Fed window batch n j := by
  induction jobs generalizing jobs' with
  | nil =>
    cases hj
    simp
  | cons j rest ih =>
    rw [Stun.copyJobs] at hj
    obtain ⟨j₁, h1, hj⟩ := bind_eq_ok.1 hj
    obtain ⟨rest', h2, hj⟩ := bind_eq_ok.1 hj
    cases hj
    intro x hx
    rcases List.mem_cons.1 hx with rfl | hx
    · exact (h j List.mem_cons_self).copy h1
    · exact ih (fun x hx => h x (List.mem_cons_of_mem _ hx)) h2 x hx

theorem Fed.reset (h : Fed window batch n j) (hj : j.reset E = ok j') : Fed window batch 0 j' := by
  simp only [Job.reset, bind_eq_ok] at hj
  obtain ⟨_, _, _, _, _, _, temp, h1, hj⟩ := hj
  cases hj
  simp only [Temperature.reset, bind_eq_ok] at h1
  obtain ⟨_, _, h1⟩ := h1
  cases h1
  exact ⟨by simp, le_rfl, h.window, h.batch⟩

theorem Fed.resetJobs {jobs jobs' : List (Job K)} (h : ∀ j ∈ jobs, Fed window batch n j) (hj : resetJobs E jobs = ok jobs') :
    ∀ j ∈ jobs', Fed window batch 0 j := by
  induction jobs generalizing jobs' with
  | nil =>
    cases hj
    simp
  | cons j rest ih =>
    rw [Stun.resetJobs] at hj
    obtain ⟨j₁, h1, hj⟩ := bind_eq_ok.1 hj
    obtain ⟨rest', h2, hj⟩ := bind_eq_ok.1 hj
    cases hj
    intro x hx
    rcases List.mem_cons.1 hx with rfl | hx
    · exact (h j List.mem_cons_self).reset h1
    · exact ih (fun x hx => h x (List.mem_cons_of_mem _ hx)) h2 x hx

theorem minJob_isJob {b r : Job K} {l : List (Job K)} (h : minJob b l = ok r) : r ∈ b :: l := by
  induction l generalizing b with
  | nil =>
    cases h
    exact List.mem_cons_self
  | cons j rest ih =>
    rw [minJob] at h
    obtain ⟨_, _, h⟩ := bind_eq_ok.1 h
    obtain ⟨_, _, h⟩ := bind_eq_ok.1 h
    have := ih h
    rcases List.mem_cons.1 this with h1 | h1
    · rw [h1]
      split_ifs <;> simp
    · simp [h1]

theorem Fed.replicateLoop {target : Job K} (ht : Fed window batch n target) {v : K} {p : ScheduleParams K} {jobs jobs' : List (Job K)}
    (h : ∀ j ∈ jobs, Fed window batch n j) (hj : replicateLoop target v p jobs = ok jobs') : ∀ j ∈ jobs', Fed window batch n j := by
  induction jobs generalizing jobs' with
  | nil =>
    cases hj
    simp
  | cons j rest ih =>
    rw [Stun.replicateLoop] at hj
    obtain ⟨_, _, hj⟩ := bind_eq_ok.1 hj
    obtain ⟨j₁, rest', h1, h2, rfl⟩ : ∃ j₁ rest', Fed window batch n j₁ ∧ Stun.replicateLoop target v p rest = ok rest' ∧
        jobs' = j₁ :: rest' := by
      split at hj
      · simp only [pure_eq, ok_bind] at hj
        obtain ⟨rest', h2, hj⟩ := bind_eq_ok.1 hj
        cases hj
        exact ⟨_, _, h j List.mem_cons_self, h2, rfl⟩
      · obtain ⟨c, h3, hj⟩ := bind_eq_ok.1 hj
        simp only [pure_eq, ok_bind] at hj
        obtain ⟨rest', h2, hj⟩ := bind_eq_ok.1 hj
        cases hj
        have := ht.copy h3
        exact ⟨c.setParams p, rest', ⟨this.samples, this.count, this.window, this.batch⟩, h2, rfl⟩
    intro x hx
    rcases List.mem_cons.1 hx with rfl | hx
    · exact h1
    · exact ih (fun x hx => h x (List.mem_cons_of_mem _ hx)) h2 x hx

theorem Fed.replicateBestJob {jobs jobs' : List (Job K)} (h : ∀ j ∈ jobs, Fed window batch n j)
    (hj : replicateBestJob jobs = ok jobs') : ∀ j ∈ jobs', Fed window batch n j := by
  unfold Stun.replicateBestJob at hj
  cases jobs with
  | nil => cases hj
  | cons first rest =>
    dsimp only at hj
    obtain ⟨best, h1, hj⟩ := bind_eq_ok.1 hj
    obtain ⟨target, h2, hj⟩ := bind_eq_ok.1 hj
    obtain ⟨_, _, hj⟩ := bind_eq_ok.1 hj
    exact Fed.replicateLoop ((h best (minJob_isJob h1)).copy h2) h hj

theorem Fed.new {opts : Options K} (h : Job.new E opts = ok j) : Fed opts.stunWindow opts.batchSize 0 j := by
  simp only [Job.new, bind_eq_ok] at h
  obtain ⟨_, _, _, _, _, _, temp, h1, _, _, _, _, _, _, h⟩ := h
  cases h
  simp only [Temperature.new, bind_eq_ok] at h1
  obtain ⟨_, _, _, _, _, _, _, _, h1⟩ := h1
  cases h1
  exact ⟨by simp, le_rfl, rfl, rfl⟩

theorem mapM_all {α β : Type} {f : α → Outcome β} {P : β → Prop} (hP : ∀ a b, f a = ok b → P b) {l : List α} {l' : List β}
    (h : l.mapM f = ok l') : ∀ b ∈ l', P b := by
  induction l generalizing l' with
  | nil =>
    cases h
    simp
  | cons a l ih =>
    rw [List.mapM_cons] at h
    obtain ⟨b, h1, h⟩ := bind_eq_ok.1 h
    obtain ⟨bs, h2, h⟩ := bind_eq_ok.1 h
    cases h
    intro x hx
    rcases List.mem_cons.1 hx with rfl | hx
    · exact hP _ _ h1
    · exact ih h2 x hx

theorem Optimizer.progress_jobs {o o' : Optimizer K} (h : o.interpolateProgress E = ok o' ∨ o.estimateProgress E = ok o') :
    o'.jobs = o.jobs := by
  rcases h with h | h
  · simp only [Optimizer.interpolateProgress, bind_eq_ok] at h
    obtain ⟨_, _, h⟩ := h
    cases h
    rfl
  · simp only [Optimizer.estimateProgress, bind_eq_ok] at h
    obtain ⟨_, _, _, _, ⟨_, _⟩, _, _, _, h⟩ := h
    cases h
    rfl

/-- All jobs of an optimizer, after any history -/
theorem OptimizerRun.fed {opts : Options K} {threads : Nat} {ms : List K} {o : Optimizer K} (h : OptimizerRun E opts threads ms o) :
    ∀ j ∈ o.jobs, Fed opts.stunWindow opts.batchSize (opts.batchSize * ms.length) j := by
  induction h with
  | new h =>
    simp only [Optimizer.new, bind_eq_ok] at h
    obtain ⟨_, _, _, _, jobs, h1, _, _, h⟩ := h
    cases h
    exact mapM_all (fun _ _ h => Fed.new h) h1
  | update _ h _ ih =>
    simp only [Optimizer.update, bind_eq_ok] at h
    obtain ⟨_, _, _, _, jobs, h1, jobs', h2, _, _, h⟩ := h
    have h3 := Fed.replicateBestJob (Fed.updateJobs ih h1) h2
    have h4 := Optimizer.progress_jobs (E := E) (o := _) (o' := _) (by
      split at h
      · exact .inl h
      · exact .inr h)
    rw [h4, List.length_cons, Nat.mul_succ]
    exact h3
  | reset _ h ih =>
    simp only [Optimizer.reset, bind_eq_ok] at h
    obtain ⟨_, _, _, _, _, _, jobs, h1, h⟩ := h
    cases h
    exact Fed.resetJobs ih h1
  | copy _ h ih =>
    simp only [Optimizer.copy, bind_eq_ok] at h
    obtain ⟨jobs, h1, h⟩ := h
    cases h
    exact Fed.copyJobs ih h1

end
end Angonoka
