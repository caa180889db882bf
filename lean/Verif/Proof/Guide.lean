import Verif.Proof.Chance
import Verif.Proof.Patience

/-!
# Random numbers that lead to a best schedule from anywhere

`Verif.Proof.Reach` leads from the first schedule to a best one. Here the way begins at any state of the optimizer, and only the random numbers of the first job
matter. The other jobs may interfere: if one of them finds something better, the first job is replaced by a copy of it and has to start again.
-/

set_option linter.unusedSectionVars false

namespace Angonoka
open Outcome Stun

variable {K : Type} [Field K] [LinearOrder K] [IsStrictOrderedRing K]
variable {E : FloatEnv K} {opts : Options K}

/-- Integers less than `b`, and 0 for the acceptance -/
def SmallDraws (b : Nat) (d : Draws K) : Prop := (d.swap < b ∧ d.task < b ∧ d.agent < b) ∧ d.u = 0

/-- `L + 1` steps with small numbers lead from the schedule to `best`. -/
def StepsFrom (p : ScheduleParams K) (b : Nat) (best : List Item) : Nat → List Item → Prop
  | 0, s => ∃ d : Draws K, SmallDraws b d ∧ mutate p d s = ok best
  | L + 1, s => ∃ (d : Draws K) (s' : List Item), SmallDraws b d ∧ mutate p d s = ok s' ∧ StepsFrom p b best L s'

theorem Leads.stepsFrom {p : ScheduleParams K} {b : Nat} {s t : List Item} {ds : List (Draws K)} (h : Leads p s ds t)
    (hne : ds ≠ []) (hd : ∀ d ∈ ds, SmallDraws b d) : StepsFrom p b t (ds.length - 1) s := by
  induction h with
  | nil => exact absurd rfl hne
  | @cons s d u ds t hm hl ih =>
    cases hl with
    | nil => exact ⟨d, hd d (by simp), hm⟩
    | cons hm' hl' => exact ⟨d, _, hd d (by simp), hm, ih (by simp) fun x hx => hd x (by simp [hx])⟩

theorem stepsFrom_exists {p : ScheduleParams K} (hw : WellFormed p) {b : Nat} (hb : p.taskCount ≤ b)
    (ha : ∀ t < p.taskCount, (p.avail t).length ≤ b) {best s : List Item} (hbest : ValidSchedule p best) (hs : ValidSchedule p s) :
    ∃ L, L ≤ p.taskCount * (p.taskCount + 3) / 2 ∧ StepsFrom p b best L s := by
  obtain ⟨s', h1, h2⟩ := mutate_ok hw hs (⟨0, 0, 0, 0⟩ : Draws K)
  obtain ⟨ds₀, d1, d2, d3⟩ := away_aux hw best [] s' h2 hbest
  have hl : Leads p s ((⟨0, 0, 0, 0⟩ : Draws K) :: ds₀) best := .cons h1 (by simpa using d3)
  obtain ⟨ds, e1, e2, e3, e4⟩ := Leads.small hw hb ha hl hs
  have hu := e2 (by
    intro d hd
    rcases List.mem_cons.1 hd with rfl | hd
    · rfl
    · exact d2 d hd)
  rw [List.length_cons] at e1
  rw [hbest.length] at d1
  refine ⟨ds.length - 1, by omega, e4.stepsFrom (by intro h; simp [h] at e1) fun d hd => ⟨e3 d hd, hu d hd⟩⟩

/-- A direction for every schedule: each step in it ends at `best` or comes closer. -/
theorem compass {p : ScheduleParams K} (hw : WellFormed p) {b : Nat} (hb : p.taskCount ≤ b)
    (ha : ∀ t < p.taskCount, (p.avail t).length ≤ b) {best : List Item} (hbest : ValidSchedule p best) :
    ∃ (next : List Item → Draws K) (rank : List Item → Nat), (∀ s, SmallDraws b (next s)) ∧
      ∀ s, ValidSchedule p s → rank s ≤ p.taskCount * (p.taskCount + 3) / 2 ∧
        ∃ s', mutate p (next s) s = ok s' ∧ (s' = best ∨ rank s' < rank s) := by
  classical
  have hex : ∀ s, ValidSchedule p s → ∃ L, StepsFrom p b best L s := fun s hs => by
    obtain ⟨L, _, h⟩ := stepsFrom_exists hw hb ha hbest hs
    exact ⟨L, h⟩
  let rank : List Item → Nat := fun s => if h : ∃ L, StepsFrom p b best L s then Nat.find h else 0
  have hrank : ∀ s L, StepsFrom p b best L s → rank s ≤ L := by
    intro s L h
    have hx : ∃ L, StepsFrom p b best L s := ⟨L, h⟩
    simp only [rank, dif_pos hx]
    exact Nat.find_min' hx h
  have hnext : ∀ s, ∃ d : Draws K, SmallDraws b d ∧ (ValidSchedule p s → ∃ s', mutate p d s = ok s' ∧ (s' = best ∨ rank s' < rank s)) := by
    intro s
    by_cases hs : ValidSchedule p s
    · have hx := hex s hs
      have hn : StepsFrom p b best (rank s) s := by
        simp only [rank, dif_pos hx]
        exact Nat.find_spec hx
      generalize hr : rank s = L at hn
      cases L with
      | zero =>
        obtain ⟨d, h1, h2⟩ := hn
        exact ⟨d, h1, fun _ => ⟨best, h2, Or.inl rfl⟩⟩
      | succ L =>
        obtain ⟨d, s', h1, h2, h3⟩ := hn
        exact ⟨d, h1, fun _ => ⟨s', h2, Or.inr (Nat.lt_succ_of_le (hrank s' L h3))⟩⟩
    · have := hw.tasks_pos
      exact ⟨⟨0, 0, 0, 0⟩, ⟨⟨by dsimp; omega, by dsimp; omega, by dsimp; omega⟩, rfl⟩, fun h => absurd h hs⟩
  choose next h1 h2 using hnext
  refine ⟨next, rank, h1, fun s hs => ⟨?_, h2 s hs⟩⟩
  obtain ⟨L, hL, h⟩ := stepsFrom_exists hw hb ha hbest hs
  exact (hrank s L h).trans hL

/-! ### One job -/

theorem Job.guided (ho : ValidOptions E opts) {b : Nat} {best : List Item} {next : List Item → Draws K} {rank : List Item → Nat}
    (hnext : ∀ s, SmallDraws b (next s))
    (hc : ∀ s, ValidSchedule opts.params s → ∃ s', mutate opts.params (next s) s = ok s' ∧ (s' = best ∨ rank s' < rank s)) (n : Nat) :
    ∀ {j : Job K}, JobInv E opts j → ∃ ds : List (Draws K), ds.length = n ∧ (∀ d ∈ ds, SmallDraws b d) ∧
      ∃ j', j.steps E ds = ok j' ∧ JobInv E opts j' ∧
        (j'.stun.lowestE ≤ valueOf E opts.params best ∨ rank j'.stun.currentSchedule + n ≤ rank j.stun.currentSchedule) := by
  induction n with
  | zero => intro j h; exact ⟨[], rfl, by simp, j, rfl, h, Or.inr le_rfl⟩
  | succ n ih =>
    intro j h
    obtain ⟨s', h1, h2⟩ := hc _ h.inv.curValid
    obtain ⟨j₁, g1, g2, g3, g4⟩ := Job.step_zero ho h (hnext _).2 h1
    obtain ⟨ds, e1, e2, j', e3, e4, e5⟩ := ih g2
    refine ⟨next j.stun.currentSchedule :: ds, by simp [e1], ?_, j', by simp only [Job.steps, g1, ok_bind, e3], e4, ?_⟩
    · intro d hd
      rcases List.mem_cons.1 hd with rfl | hd
      · exact hnext _
      · exact e2 d hd
    · rcases h2 with rfl | h2
      · exact Or.inl ((Job.steps_lowest e3).trans g4)
      · rw [← g3] at h2
        rcases e5 with e5 | e5
        · exact Or.inl e5
        · right; omega

/-! ### One round -/

variable {threads : Nat} {ms : List K} {o : Optimizer K} {v : K}

/-- The first job after the exchange is the one before it, unless that one is not the best. -/
theorem replicateBestJob_first (ho : ValidOptions E opts) {j : Job K} {rest jobs' : List (Job K)}
    (hj : ∀ x ∈ j :: rest, JobInv E opts x) (h : replicateBestJob (j :: rest) = ok jobs') {v : K}
    (hv : ∀ x ∈ jobs', x.stun.lowestE = v) : ∃ j' rest', jobs' = j' :: rest' ∧ (j' = j ∨ v ≠ j.stun.lowestE) := by
  unfold replicateBestJob at h
  obtain ⟨best, _, h⟩ := bind_eq_ok.1 h
  obtain ⟨c, _, h⟩ := bind_eq_ok.1 h
  obtain ⟨w, hw, h⟩ := bind_eq_ok.1 h
  rw [replicateLoop, (hj j (by simp)).makespan_eq ho, ok_bind] at h
  by_cases he : j.stun.lowestE = w
  · rw [if_pos he] at h
    obtain ⟨j', hj', h⟩ := bind_eq_ok.1 h
    cases hj'
    obtain ⟨rest', _, h⟩ := bind_eq_ok.1 h
    cases h
    exact ⟨j, rest', rfl, Or.inl rfl⟩
  · rw [if_neg he] at h
    obtain ⟨c', hc', h⟩ := bind_eq_ok.1 h
    obtain ⟨j', hj', h⟩ := bind_eq_ok.1 h
    cases hj'
    obtain ⟨rest', _, h⟩ := bind_eq_ok.1 h
    cases h
    refine ⟨_, rest', rfl, Or.inr ?_⟩
    have h1 := hv (c'.setParams j.params) (by simp)
    have h2 : (c'.setParams j.params).stun.lowestE = c'.stun.lowestE := rfl
    have h3 := Job.normalizedMakespan_value hw
    rw [h2, Job.copy_lowest hc', ← h3] at h1
    rw [← h1]
    exact fun h => he h.symm

/-- The current schedule of the first job -/
def headSchedule (o : Optimizer K) : List Item := (o.jobs.head?.map fun j => j.stun.currentSchedule).getD []

theorem OptInv.guided (ho : ValidOptions E opts) {b : Nat} {best : List Item} {next : List Item → Draws K} {rank : List Item → Nat}
    (hnext : ∀ s, SmallDraws b (next s))
    (hc : ∀ s, ValidSchedule opts.params s → ∃ s', mutate opts.params (next s) s = ok s' ∧ (s' = best ∨ rank s' < rank s))
    (h : OptInv E opts threads ms o v) :
    ∃ f : Nat → Draws K, (∀ i < opts.batchSize, SmallDraws b (f i)) ∧ ∀ draws : Nat → Nat → Draws K, (∀ i < opts.batchSize, draws 0 i = f i) →
      ∃ o' v', o.update E draws = ok o' ∧ OptInv E opts threads (v' :: ms) o' v' ∧ v' ≤ v ∧
        (v' ≤ valueOf E opts.params best ∨
          rank (headSchedule o') + opts.batchSize ≤ rank (headSchedule o) ∨
          (v' < v ∧ opts.batchSize ≤ rank (headSchedule o))) := by
  obtain ⟨j, rest, hjobs⟩ : ∃ j rest, o.jobs = j :: rest := by
    cases hj : o.jobs with
    | nil => exact absurd hj h.jobs_ne
    | cons j rest => exact ⟨j, rest, rfl⟩
  have hj := h.jobs j (by rw [hjobs]; simp)
  have hhead : (headSchedule o) = j.stun.currentSchedule := by simp [headSchedule, hjobs]
  obtain ⟨ds, d1, d2, j₁, d3, d4, d5⟩ := Job.guided ho hnext hc opts.batchSize hj.1
  refine ⟨fun i => ds.getD i ⟨0, 0, 0, 0⟩, fun i hi => ?_, fun draws hd => ?_⟩
  · dsimp only
    rw [← d1] at hi
    rw [List.getD_eq_getElem?_getD, List.getElem?_eq_getElem hi]
    exact d2 _ (List.getElem_mem hi)
  · have hds : (List.range opts.batchSize).map (draws 0) = ds := by
      apply List.ext_getElem
      · simp [d1]
      · intro i h1 h2
        simp only [List.getElem_map, List.getElem_range]
        rw [hd i (d1 ▸ h2)]
        dsimp only
        rw [List.getD_eq_getElem?_getD, List.getElem?_eq_getElem h2]
        rfl
    obtain ⟨o', v', jobs, g1, g2, g3, g4, g5, _, g7⟩ := Optimizer.update_ok ho h draws
    obtain ⟨jobs', k1, k2, _⟩ := update_fields g1
    rw [g4] at k1
    cases k1
    rw [hjobs, updateJobs] at g4
    obtain ⟨j₂, e1, g4⟩ := bind_eq_ok.1 g4
    obtain ⟨rest₂, _, g4⟩ := bind_eq_ok.1 g4
    cases g4
    have hj₂ : j₂ = j₁ := by
      unfold Job.update at e1
      obtain ⟨_, _, e1⟩ := bind_eq_ok.1 e1
      rw [hj.1.batch, hds, d3] at e1
      exact ((Outcome.ok.injEq ..).mp e1).symm
    subst hj₂
    refine ⟨o', v', g1, g2, g3, ?_⟩
    have hv' := g7 j₂ (by simp)
    rcases d5 with d5 | d5
    · exact Or.inl (hv'.trans d5)
    · right
      obtain ⟨j', rest', hj', hor⟩ := replicateBestJob_first ho g5 k2 fun x hx => (g2.jobs x hx).2
      rcases hor with rfl | hne
      · left
        have : (headSchedule o') = j'.stun.currentSchedule := by simp [headSchedule, hj']
        rw [this, hhead]
        exact d5
      · right
        refine ⟨(lt_of_le_of_ne hv' hne).trans_le ((Job.steps_lowest d3).trans hj.2.le), ?_⟩
        rw [hhead]
        omega

/-! ### Many rounds -/

/-- The number of guided rounds that suffice: one if a batch is long enough for the whole way, otherwise so many that the way can be gone for each makespan. -/
def guideRounds (o : Options K) : Nat :=
  let N := o.params.taskCount * (o.params.taskCount + 3) / 2 + 1
  if N ≤ o.batchSize then 1 else (o.params.taskCount * o.params.agentCount) ^ o.params.taskCount * N

theorem OptInv.headValid (h : OptInv E opts threads ms o v) : ValidSchedule opts.params (headSchedule o) := by
  cases hj : o.jobs with
  | nil => exact absurd hj h.jobs_ne
  | cons j rest =>
    have := (h.jobs j (by rw [hj]; simp)).1.inv.curValid
    simpa [headSchedule, hj] using this

theorem guide (ho : ValidOptions E opts) {b : Nat} (hb : opts.params.taskCount ≤ b)
    (ha : ∀ t < opts.params.taskCount, (opts.params.avail t).length ≤ b) (threads : Nat) :
    ∃ g : Optimizer K → Nat → Draws K, (∀ o i, i < opts.batchSize → SmallDraws b (g o i)) ∧
      ∀ {ms : List K} {o : Optimizer K} {v : K}, OptInv E opts threads ms o v → ∀ draws : Nat → Nat → Nat → Draws K,
        (∀ r < guideRounds opts, ∀ o', o.rounds E draws r = ok o' → ∀ i < opts.batchSize, draws r 0 i = g o' i) →
        ∀ o', o.rounds E draws (guideRounds opts) = ok o' → ∀ w, o'.normalizedMakespan = ok w →
          ∀ t, ValidSchedule opts.params t → w ≤ valueOf E opts.params t := by
  classical
  have hw := ho.wellFormed
  obtain ⟨best, hbest, hmin⟩ := best_exists (E := E) hw
  obtain ⟨next, rank, hnext, hc⟩ := compass hw hb ha hbest
  have hstep : ∀ o : Optimizer K, ∃ f : Nat → Draws K, (∀ i < opts.batchSize, SmallDraws b (f i)) ∧
      ∀ {ms : List K} {v : K}, OptInv E opts threads ms o v → ∀ draws : Nat → Nat → Draws K, (∀ i < opts.batchSize, draws 0 i = f i) →
      ∃ o' v', o.update E draws = ok o' ∧ OptInv E opts threads (v' :: ms) o' v' ∧ v' ≤ v ∧
        (v' ≤ valueOf E opts.params best ∨
          rank (headSchedule o') + opts.batchSize ≤ rank (headSchedule o) ∨ (v' < v ∧ opts.batchSize ≤ rank (headSchedule o))) := by
    intro o
    by_cases hx : ∃ ms v, OptInv E opts threads ms o v
    · obtain ⟨ms, v, h⟩ := hx
      obtain ⟨f, h1, h2⟩ := h.guided ho hnext fun s hs => (hc s hs).2
      refine ⟨f, h1, fun {ms' v'} h' draws hd => ?_⟩
      obtain ⟨f', h1', h2'⟩ := h'.guided ho hnext fun s hs => (hc s hs).2
      obtain ⟨o₁, w, a1, a2, a3, a4⟩ := h2 draws hd
      obtain ⟨o₂, w', jobs, b1, b2, b3, _⟩ := Optimizer.update_ok ho h' draws
      rw [a1] at b1
      cases b1
      have hvv : v' = v := by
        have e1 := h.makespan_eq ho
        have e2 := h'.makespan_eq ho
        rw [e1] at e2
        cases e2
        rfl
      have hww : w' = w := by
        have e1 := a2.makespan_eq ho
        have e2 := b2.makespan_eq ho
        rw [e1] at e2
        cases e2
        rfl
      subst hvv hww
      exact ⟨o₁, w', a1, b2, b3, a4⟩
    · exact ⟨fun _ => ⟨0, 0, 0, 0⟩, fun i _ => ⟨by have := hw.tasks_pos; exact ⟨by dsimp; omega, by dsimp; omega, by dsimp; omega⟩, rfl⟩,
        fun {ms v} h => absurd ⟨ms, v, h⟩ hx⟩
  choose g hg hgo using hstep
  refine ⟨g, fun o i hi => hg o i hi, fun {ms o v} h draws hd o' ho' w hw' t ht => ?_⟩
  refine le_trans ?_ (hmin t ht)
  let N := opts.params.taskCount * (opts.params.taskCount + 3) / 2 + 1
  let left : K → Nat := fun v => ((makespans E opts.params).filter (· < v)).card
  -- the state after some guided rounds
  have hrun : ∀ r ≤ guideRounds opts, ∃ o₁ ms₁ v₁, o.rounds E draws r = ok o₁ ∧ OptInv E opts threads ms₁ o₁ v₁ ∧
      (v₁ ≤ valueOf E opts.params best ∨ (left v₁ * N + rank (headSchedule o₁) + r ≤ left v * N + rank (headSchedule o) ∧
        (0 < r → opts.batchSize ≤ N - 1))) := by
    intro r
    induction r with
    | zero => intro _; exact ⟨o, ms, v, rfl, h, Or.inr ⟨by omega, fun h => absurd h (by omega)⟩⟩
    | succ r ih =>
      intro hr
      obtain ⟨o₁, ms₁, v₁, h1, h2, h3⟩ := ih (by omega)
      obtain ⟨o₂, v₂, a1, a2, a3, a4⟩ := hgo o₁ h2 (draws r) (hd r (by omega) o₁ h1)
      refine ⟨o₂, _, v₂, by rw [Optimizer.rounds, h1, ok_bind, a1], a2, ?_⟩
      rcases h3 with h3 | ⟨h3, _⟩
      · exact Or.inl (a3.trans h3)
      · rcases a4 with a4 | a4
        · exact Or.inl a4
        · right
          have hbp := ho.batch_pos
          have r1 := (hc _ h2.headValid).1
          have r2 := (hc _ a2.headValid).1
          have hsub : left v₂ ≤ left v₁ := by
            refine Finset.card_le_card fun x hx => ?_
            rw [Finset.mem_filter] at hx ⊢
            exact ⟨hx.1, hx.2.trans_le a3⟩
          rcases a4 with a4 | ⟨a4, a5⟩
          · refine ⟨?_, fun _ => by dsimp only [N]; omega⟩
            have := Nat.mul_le_mul_right N hsub
            omega
          · refine ⟨?_, fun _ => by dsimp only [N]; omega⟩
            have hlt : left v₂ + 1 ≤ left v₁ := by
              apply Finset.card_lt_card
              rw [Finset.ssubset_iff_of_subset]
              · exact ⟨v₂, Finset.mem_filter.2 ⟨a2.mem_makespans ho, a4⟩, by simp⟩
              · intro x hx
                rw [Finset.mem_filter] at hx ⊢
                exact ⟨hx.1, hx.2.trans_le a3⟩
            have := Nat.mul_le_mul_right N hlt
            rw [Nat.add_mul, Nat.one_mul] at this
            have : rank (headSchedule o₂) + 1 ≤ N := by dsimp only [N]; omega
            omega
  obtain ⟨o₁, ms₁, v₁, h1, h2, h3⟩ := hrun _ le_rfl
  rw [h1] at ho'
  cases ho'
  rw [h2.makespan_eq ho] at hw'
  cases hw'
  rcases h3 with h3 | ⟨h3, h4⟩
  · exact h3
  · exfalso
    unfold guideRounds at h3 h4
    dsimp only at h3 h4
    split at h3
    · rename_i hle
      rw [if_pos hle] at h4
      have := h4 (by omega)
      dsimp only [N] at this
      omega
    · have r1 := (hc _ h.headValid).1
      have hl : left v < (makespans E opts.params).card := by
        apply Finset.card_lt_card
        rw [Finset.ssubset_iff_of_subset (Finset.filter_subset _ _)]
        exact ⟨v, h.mem_makespans ho, by simp⟩
      have hl' : left v + 1 ≤ (opts.params.taskCount * opts.params.agentCount) ^ opts.params.taskCount :=
        Nat.succ_le_of_lt (hl.trans_le (makespans_card E opts.params))
      have := Nat.mul_le_mul_right N hl'
      rw [Nat.add_mul, Nat.one_mul] at this
      have hr : rank (headSchedule o) + 1 ≤ N := by dsimp only [N]; omega
      dsimp only [N] at *
      omega

/-! ### Which random numbers matter -/

theorem Job.update_congr {j : Job K} {d d' : Nat → Draws K} (h : ∀ i < j.batchSize, d i = d' i) : j.update E d = j.update E d' := by
  unfold Job.update
  rw [List.map_congr_left fun i hi => h i (List.mem_range.1 hi)]

theorem updateJobs_congr {batch : Nat} {d d' : Nat → Nat → Draws K} {jobs : List (Job K)} (hj : ∀ j ∈ jobs, j.batchSize = batch) (k : Nat)
    (h : ∀ q < jobs.length, ∀ i < batch, d (k + q) i = d' (k + q) i) : updateJobs E d k jobs = updateJobs E d' k jobs := by
  induction jobs generalizing k with
  | nil => rfl
  | cons j rest ih =>
    have h0 : j.update E (d k) = j.update E (d' k) := Job.update_congr fun i hi => h 0 (by simp) i (by rwa [hj j (by simp)] at hi)
    rw [updateJobs, updateJobs, h0, ih (fun x hx => hj x (by simp [hx])) (k + 1) fun q hq i hi => by
      have := h (q + 1) (by simpa using hq) i hi
      rwa [show k + (q + 1) = k + 1 + q by omega] at this]

theorem OptInv.rounds_ok (ho : ValidOptions E opts) (h : OptInv E opts threads ms o v) (draws : Nat → Nat → Nat → Draws K) (n : Nat) :
    ∃ o' ms' v', o.rounds E draws n = ok o' ∧ OptInv E opts threads ms' o' v' ∧ v' ≤ v ∧ o'.idleIters ≤ o.idleIters + n * opts.batchSize := by
  induction n with
  | zero => exact ⟨o, ms, v, rfl, h, le_rfl, by omega⟩
  | succ n ih =>
    obtain ⟨o₁, ms₁, v₁, h1, h2, h3, h4⟩ := ih
    obtain ⟨o₂, v₂, _, g1, g2, g3, _⟩ := Optimizer.update_ok ho h2 (draws n)
    obtain ⟨_, _, _, e3⟩ := update_fields g1
    refine ⟨o₂, _, v₂, by rw [Optimizer.rounds, h1, ok_bind, g1], g2, g3.trans h3, ?_⟩
    rw [h2.batch] at e3
    rw [Nat.succ_mul]
    omega

/-- The state after `n` rounds depends on the numbers of these rounds only. -/
theorem OptInv.rounds_congr (ho : ValidOptions E opts) (h : OptInv E opts threads ms o v) {d d' : Nat → Nat → Nat → Draws K} {n : Nat}
    (he : ∀ r < n, ∀ k < threads, ∀ i < opts.batchSize, d r k i = d' r k i) : o.rounds E d n = o.rounds E d' n := by
  induction n with
  | zero => rfl
  | succ n ih =>
    have h0 := ih fun r hr => he r (by omega)
    obtain ⟨o₁, ms₁, v₁, h1, h2, _⟩ := h.rounds_ok ho d' n
    rw [Optimizer.rounds, Optimizer.rounds, h0, h1, ok_bind, ok_bind]
    have h3 : updateJobs E (d n) 0 o₁.jobs = updateJobs E (d' n) 0 o₁.jobs :=
      updateJobs_congr (fun j hj => (h2.jobs j hj).1.batch) 0 fun q hq i hi => by
        rw [Nat.zero_add]
        exact he n (by omega) q (by rwa [h2.len] at hq) i hi
    unfold Optimizer.update
    rw [h3]

theorem Optimizer.rounds_add {o o₁ : Optimizer K} {draws : Nat → Nat → Nat → Draws K} {n : Nat} (h : o.rounds E draws n = ok o₁) (m : Nat) :
    o.rounds E draws (n + m) = o₁.rounds E (fun r => draws (n + r)) m := by
  induction m with
  | zero => rw [Nat.add_zero, h]; rfl
  | succ m ih => rw [← Nat.add_assoc, Optimizer.rounds, Optimizer.rounds, ih]

end Angonoka
