import Verif.Model.Threads
import Verif.Proof.Optimizer
import Verif.Proof.Interleaving

/-!
# Threads and memory
-/

set_option linter.unusedSectionVars false

namespace Angonoka.Threads
open Angonoka Outcome Stun

variable {K G : Type} [Field K] [LinearOrder K] [IsStrictOrderedRing K] {E : FloatEnv K} {R : Rng K G} {opts : Options K}

/-- All pointers of the slot at address `k` point into the slot itself. -/
def Slot.Own (s : Slot K G) (k : Nat) : Prop :=
  s.mutatorRandom = k ∧ s.stunMutator = k ∧ s.stunRandom = k ∧ s.stunMakespan = k ∧ s.stunTemp = k

def Own (h : List (Slot K G)) : Prop := ∀ (k : Nat) (s : Slot K G), h[k]? = some s → s.Own k

/-- `act` for a slot whose pointers point into itself -/
def Slot.step (E : FloatEnv K) (R : Rng K G) (s : Slot K G) : Outcome (Slot K G) :=
  match s.phase with
  | .mutate => do
    expects (!s.job.stun.buffer.isEmpty) "update: buffer not empty"
    expects (!s.job.stun.currentSchedule.isEmpty) "update: current not empty"
    expects (!s.job.stun.targetSchedule.isEmpty) "get_new_neighbor: target not empty"
    let t := s.job.stun.write s.job.stun.target s.job.stun.currentSchedule
    let r := R.mutation s.gen s.job.params t.targetSchedule
    let s' ← Stun.mutate s.job.params { swap := r.1.1, task := r.1.2.1, agent := r.1.2.2, u := 0 } t.targetSchedule
    return { s with gen := r.2, job := { s.job with stun := t.write t.target s' }, phase := .evaluate }
  | .evaluate => do
    let x ← s.job.makespan.call E s.job.stun.targetSchedule
    expects (decide (0 ≤ x.1)) "get_new_neighbor: target_e >= 0"
    return { s with job := { s.job with makespan := x.2, stun := { s.job.stun with targetE := x.1 } }, phase := .compare }
  | .compare => do
    let x ← neighborIsBetter E s.job.stun
    if x.1 then return { s with job := { s.job with stun := x.2 }, phase := .mutate, done := s.done + 1 }
    else return { s with job := { s.job with stun := x.2 }, phase := .accept }
  | .accept => do
    let x ← performStun E { swap := 0, task := 0, agent := 0, u := (R.real s.gen).1 } s.job.temperature s.job.stun
    return { s with gen := (R.real s.gen).2, job := { s.job with temperature := x.1, stun := x.2 }, phase := .mutate,
                    done := s.done + 1 }

theorem modify_eq_set {α : Type} {l : List α} {k : Nat} {a : α} (h : l[k]? = some a) (f : α → α) : l.modify k f = l.set k (f a) := by
  apply List.ext_getElem?
  intro i
  rw [List.getElem?_modify, List.getElem?_set]
  by_cases hi : k = i
  · subst hi
    simp only [h, if_true, Option.map_eq_map, Option.map_some, (List.getElem?_eq_some_iff.1 h).1]
  · simp [hi]

theorem getElem?_set_same {α : Type} {l : List α} {k : Nat} {a b : α} (h : l[k]? = some a) : (l.set k b)[k]? = some b := by
  rw [List.getElem?_set]
  simp [(List.getElem?_eq_some_iff.1 h).1]

theorem at?_some {α : Type} {l : List α} {k : Nat} {a : α} {n : String} (h : l[k]? = some a) : at? l k n = ok a := by
  unfold at?
  rw [h]

theorem act_own {h : List (Slot K G)} {k : Nat} {s : Slot K G} (hk : h[k]? = some s) (ho : s.Own k) :
    act E R h k = (s.step E R >>= fun s' => ok (h.set k s')) := by
  obtain ⟨o1, o2, o3, o4, o5⟩ := ho
  unfold act Slot.step
  rw [at?_some hk, ok_bind]
  cases hp : s.phase with
  | mutate =>
    simp only [o2, at?_some hk, ok_bind, o1]
    simp only [bind_assoc, modify_eq_set hk]
    simp only [modify_eq_set (getElem?_set_same hk), List.set_set, pure_eq, ok_bind, o1, o2]
  | evaluate =>
    simp only [o4, at?_some hk, ok_bind, bind_assoc, modify_eq_set hk]
    simp only [modify_eq_set (getElem?_set_same hk), List.set_set, pure_eq, ok_bind]
  | compare =>
    simp only [bind_assoc, modify_eq_set hk]
    congr 1
    funext x
    obtain ⟨b, t⟩ := x
    cases b <;> rfl
  | accept =>
    simp only [o3, o5, at?_some hk, ok_bind, bind_assoc, modify_eq_set hk]
    simp only [modify_eq_set (getElem?_set_same hk), List.set_set, pure_eq, ok_bind]

/-! ### One slot by itself -/

/-- A step of the job in a slot, while it has iterations left -/
def Slot.Moves (E : FloatEnv K) (R : Rng K G) (s s' : Slot K G) : Prop := s.done < s.job.batchSize ∧ s.step E R = ok s'

theorem Slot.Moves.unique {s a b : Slot K G} (ha : s.Moves E R a) (hb : s.Moves E R b) : a = b := by
  have := ha.2.symm.trans hb.2
  injection this

/-- What a step does not change -/
theorem Slot.step_fields {s s' : Slot K G} (h : s.step E R = ok s') :
    s'.mutatorRandom = s.mutatorRandom ∧ s'.stunMutator = s.stunMutator ∧ s'.stunRandom = s.stunRandom ∧
      s'.stunMakespan = s.stunMakespan ∧ s'.stunTemp = s.stunTemp ∧ s'.job.batchSize = s.job.batchSize := by
  unfold Slot.step at h
  cases hp : s.phase with
  | mutate =>
    rw [hp] at h
    obtain ⟨_, _, h⟩ := bind_eq_ok.1 h
    obtain ⟨_, _, h⟩ := bind_eq_ok.1 h
    obtain ⟨_, _, h⟩ := bind_eq_ok.1 h
    obtain ⟨_, _, h⟩ := bind_eq_ok.1 h
    cases h
    exact ⟨rfl, rfl, rfl, rfl, rfl, rfl⟩
  | evaluate =>
    rw [hp] at h
    obtain ⟨_, _, h⟩ := bind_eq_ok.1 h
    obtain ⟨_, _, h⟩ := bind_eq_ok.1 h
    cases h
    exact ⟨rfl, rfl, rfl, rfl, rfl, rfl⟩
  | compare =>
    rw [hp] at h
    obtain ⟨x, _, h⟩ := bind_eq_ok.1 h
    split at h <;> cases h <;> exact ⟨rfl, rfl, rfl, rfl, rfl, rfl⟩
  | accept =>
    rw [hp] at h
    obtain ⟨_, _, h⟩ := bind_eq_ok.1 h
    cases h
    exact ⟨rfl, rfl, rfl, rfl, rfl, rfl⟩

theorem Slot.Own.step {s s' : Slot K G} {k : Nat} (ho : s.Own k) (h : s.step E R = ok s') : s'.Own k := by
  obtain ⟨h1, h2, h3, h4, h5, _⟩ := Slot.step_fields h
  obtain ⟨g1, g2, g3, g4, g5⟩ := ho
  exact ⟨h1.trans g1, h2.trans g2, h3.trans g3, h4.trans g4, h5.trans g5⟩

/-- How many steps the job in the slot may still make -/
def Slot.left (s : Slot K G) : Nat :=
  4 * (s.job.batchSize - s.done) - match s.phase with
    | .mutate => 0
    | .evaluate => 1
    | .compare => 2
    | .accept => 3

theorem Slot.Moves.left {s s' : Slot K G} (h : s.Moves E R s') : s'.left < s.left := by
  obtain ⟨hd, h⟩ := h
  have hb := (Slot.step_fields h).2.2.2.2.2
  unfold Slot.step at h
  unfold Slot.left
  rw [hb]
  cases hp : s.phase with
  | mutate =>
    rw [hp] at h
    obtain ⟨_, _, h⟩ := bind_eq_ok.1 h
    obtain ⟨_, _, h⟩ := bind_eq_ok.1 h
    obtain ⟨_, _, h⟩ := bind_eq_ok.1 h
    obtain ⟨_, _, h⟩ := bind_eq_ok.1 h
    cases h
    dsimp only
    omega
  | evaluate =>
    rw [hp] at h
    obtain ⟨_, _, h⟩ := bind_eq_ok.1 h
    obtain ⟨_, _, h⟩ := bind_eq_ok.1 h
    cases h
    dsimp only
    omega
  | compare =>
    rw [hp] at h
    obtain ⟨x, _, h⟩ := bind_eq_ok.1 h
    split at h <;> cases h <;> dsimp only <;> omega
  | accept =>
    rw [hp] at h
    obtain ⟨_, _, h⟩ := bind_eq_ok.1 h
    cases h
    dsimp only
    omega

theorem Slot.Moves.done_le {s s' : Slot K G} (h : s.Moves E R s') : s'.done ≤ s'.job.batchSize := by
  obtain ⟨hd, h⟩ := h
  rw [(Slot.step_fields h).2.2.2.2.2]
  unfold Slot.step at h
  cases hp : s.phase with
  | mutate =>
    rw [hp] at h
    obtain ⟨_, _, h⟩ := bind_eq_ok.1 h
    obtain ⟨_, _, h⟩ := bind_eq_ok.1 h
    obtain ⟨_, _, h⟩ := bind_eq_ok.1 h
    obtain ⟨_, _, h⟩ := bind_eq_ok.1 h
    cases h
    exact hd.le
  | evaluate =>
    rw [hp] at h
    obtain ⟨_, _, h⟩ := bind_eq_ok.1 h
    obtain ⟨_, _, h⟩ := bind_eq_ok.1 h
    cases h
    exact hd.le
  | compare =>
    rw [hp] at h
    obtain ⟨x, _, h⟩ := bind_eq_ok.1 h
    split at h <;> cases h
    · exact hd
    · exact hd.le
  | accept =>
    rw [hp] at h
    obtain ⟨_, _, h⟩ := bind_eq_ok.1 h
    cases h
    exact hd

/-- The steps of an iteration are an iteration of `Job.step`. -/
theorem Slot.iteration (ho : ValidOptions E opts) {s : Slot K G} (hj : JobInv E opts s.job) (hp : s.phase = .mutate)
    (hd : s.done < s.job.batchSize) :
    ∃ d s', Relation.ReflTransGen (Slot.Moves E R) s s' ∧ s'.phase = .mutate ∧ s'.done = s.done + 1 ∧
      s.job.step E d = ok s'.job := by
  obtain ⟨t, ht⟩ : ∃ t, t = s.job.stun.write s.job.stun.target s.job.stun.currentSchedule := ⟨_, rfl⟩
  obtain ⟨r, hr⟩ : ∃ r, r = R.mutation s.gen s.job.params t.targetSchedule := ⟨_, rfl⟩
  obtain ⟨j', hstep, _, _⟩ := Job.step_ok ho hj ⟨r.1.1, r.1.2.1, r.1.2.2, (R.real r.2).1⟩
  have hstep' := hstep
  unfold Job.step at hstep'
  obtain ⟨⟨m, temp, t'⟩, h1, h2⟩ := bind_eq_ok.1 hstep'
  cases h2
  unfold tunnelingUpdate at h1
  obtain ⟨_, e1, h1⟩ := bind_eq_ok.1 h1
  obtain ⟨_, e2, h1⟩ := bind_eq_ok.1 h1
  obtain ⟨⟨m₁, t₁⟩, hn, h1⟩ := bind_eq_ok.1 h1
  obtain ⟨⟨b, t₂⟩, hb, h1⟩ := bind_eq_ok.1 h1
  unfold getNewNeighbor at hn
  obtain ⟨_, e3, hn⟩ := bind_eq_ok.1 hn
  obtain ⟨_, e4, hn⟩ := bind_eq_ok.1 hn
  obtain ⟨q, hq, hn⟩ := bind_eq_ok.1 hn
  obtain ⟨⟨e, m₂⟩, hm, hn⟩ := bind_eq_ok.1 hn
  obtain ⟨_, e5, hn⟩ := bind_eq_ok.1 hn
  dsimp only at e5
  cases hn
  rw [← ht] at hq hm hb
  -- the three steps that are always there
  obtain ⟨s₁, hs₁⟩ : ∃ s₁ : Slot K G, s₁ = { s with gen := r.2, job := { s.job with stun := t.write t.target q }, phase := .evaluate } := ⟨_, rfl⟩
  have a1 : s.Moves E R s₁ := by
    refine ⟨hd, ?_⟩
    unfold Slot.step
    rw [hp]
    dsimp only
    rw [e1, ok_bind, e2, ok_bind, e4, ok_bind, ← ht, ← hr]
    have : Stun.mutate s.job.params { swap := r.1.1, task := r.1.2.1, agent := r.1.2.2, u := 0 } t.targetSchedule = ok q := hq
    rw [this, ok_bind, hs₁]
    rfl
  obtain ⟨s₂, hs₂⟩ : ∃ s₂ : Slot K G, s₂ = { s₁ with
    job := { s₁.job with makespan := m₁, stun := { s₁.job.stun with targetE := e } }, phase := .compare } := ⟨_, rfl⟩
  have a2 : s₁.Moves E R s₂ := by
    refine ⟨by rw [hs₁]; exact hd, ?_⟩
    unfold Slot.step
    rw [hs₁] at hs₂ ⊢
    dsimp only at hs₂ ⊢
    rw [hm, ok_bind, e5, ok_bind, hs₂]
    rfl
  have hb' : neighborIsBetter E s₂.job.stun = ok (b, t₂) := by rw [hs₂, hs₁]; exact hb
  have hd2 : s₂.done < s₂.job.batchSize := by rw [hs₂, hs₁]; exact hd
  have hp2 : s₂.phase = .compare := by rw [hs₂]
  cases b with
  | true =>
    dsimp only at h1
    rw [if_pos rfl] at h1
    cases h1
    refine ⟨⟨r.1.1, r.1.2.1, r.1.2.2, (R.real r.2).1⟩, { s₂ with job := { s₂.job with stun := t' }, phase := .mutate, done := s₂.done + 1 },
      .tail (.tail (.single a1) a2) ⟨hd2, ?_⟩, rfl, by rw [hs₂, hs₁], ?_⟩
    · unfold Slot.step
      rw [hp2]
      dsimp only
      rw [hb', ok_bind]
      rfl
    · rw [hstep, hs₂, hs₁]
  | false =>
    dsimp only at h1
    rw [if_neg (by simp)] at h1
    obtain ⟨⟨temp', t₃⟩, hs, h1⟩ := bind_eq_ok.1 h1
    cases h1
    obtain ⟨s₃, hs₃⟩ : ∃ s₃ : Slot K G, s₃ = { s₂ with job := { s₂.job with stun := t₂ }, phase := .accept } := ⟨_, rfl⟩
    have a3 : s₂.Moves E R s₃ := by
      refine ⟨hd2, ?_⟩
      unfold Slot.step
      rw [hp2]
      dsimp only
      rw [hb', ok_bind, hs₃]
      rfl
    have hg : s₃.gen = r.2 := by rw [hs₃, hs₂, hs₁]
    refine ⟨⟨r.1.1, r.1.2.1, r.1.2.2, (R.real r.2).1⟩, { s₃ with gen := (R.real s₃.gen).2, job := { s₃.job with temperature := temp', stun := t₃ }, phase := .mutate, done := s₃.done + 1 },
      .tail (.tail (.tail (.single a1) a2) a3) ⟨by rw [hs₃]; exact hd2, ?_⟩, rfl, by rw [hs₃, hs₂, hs₁], ?_⟩
    · unfold Slot.step
      have hp3 : s₃.phase = .accept := by rw [hs₃]
      rw [hp3]
      dsimp only
      have : performStun E { swap := 0, task := 0, agent := 0, u := (R.real s₃.gen).1 } s₃.job.temperature s₃.job.stun = ok (temp', t₃) := by
        rw [hg, hs₃, hs₂, hs₁]
        exact hs
      rw [this, ok_bind]
      rfl
    · rw [hstep, hs₃, hs₂, hs₁]

/-- The steps of a batch are those of `Job.steps`. -/
theorem Slot.batch (ho : ValidOptions E opts) : ∀ (n : Nat) {s : Slot K G}, JobInv E opts s.job → s.phase = .mutate →
    s.done + n ≤ s.job.batchSize →
    ∃ ds s', Relation.ReflTransGen (Slot.Moves E R) s s' ∧ s'.phase = .mutate ∧ s'.done = s.done + n ∧ ds.length = n ∧
      s.job.steps E ds = ok s'.job := by
  intro n
  induction n with
  | zero =>
    intro s _ hp _
    exact ⟨[], s, .refl, hp, rfl, rfl, rfl⟩
  | succ n ih =>
    intro s hj hp hn
    obtain ⟨d, s₁, h1, h2, h3, h4⟩ := Slot.iteration (R := R) ho hj hp (by omega)
    obtain ⟨j', h5, hj', _⟩ := Job.step_ok ho hj d
    rw [h4] at h5
    injection h5 with h5
    rw [← h5] at hj'
    obtain ⟨ds, s', g1, g2, g3, g4, g5⟩ := ih hj' h2 (by rw [h3, step_batch h4]; omega)
    refine ⟨d :: ds, s', h1.trans g1, g2, by rw [g3, h3]; omega, by rw [List.length_cons, g4], ?_⟩
    rw [Job.steps, h4, ok_bind]
    exact g5

/-- Where there is only one way to go, the end is unique. -/
theorem reaches_end {α : Type} {r : α → α → Prop} (hu : ∀ {a b c}, r a b → r a c → b = c) {a b c : α}
    (hb : Relation.ReflTransGen r a b) (hc : Relation.ReflTransGen r a c) (hend : ∀ x, ¬ r c x) : Relation.ReflTransGen r b c := by
  induction hb with
  | refl => exact hc
  | tail _ hxy ih =>
    rcases Relation.ReflTransGen.cases_head ih with h | ⟨z, h1, h2⟩
    · subst h
      exact absurd hxy (hend _)
    · rw [hu hxy h1]
      exact h2

/-! ### All slots -/

theorem Step.own {h h' : List (Slot K G)} (ho : Own h) (hs : Step E R h h') :
    ∃ (k : Nat) (s s' : Slot K G), h[k]? = some s ∧ s.Moves E R s' ∧ h' = h.set k s' := by
  cases hs with
  | @act k s hk hd ha =>
    rw [act_own hk (ho k s hk)] at ha
    obtain ⟨s', h1, h2⟩ := bind_eq_ok.1 ha
    cases h2
    exact ⟨k, s, s', hk, ⟨hd, h1⟩, rfl⟩

theorem Own.set {h : List (Slot K G)} (ho : Own h) {k : Nat} {s : Slot K G} (hs : s.Own k) : Own (h.set k s) := by
  intro i x hx
  rw [List.getElem?_set] at hx
  split at hx
  · rename_i hki
    subst hki
    split at hx
    · cases hx
      exact hs
    · cases hx
  · exact ho i x hx

theorem steps_spec {h h' : List (Slot K G)} (ho : Own h) (hs : Relation.ReflTransGen (Step E R) h h') :
    Own h' ∧ h'.length = h.length ∧ ∀ (k : Nat) (s s' : Slot K G), h[k]? = some s → h'[k]? = some s' →
      Relation.ReflTransGen (Slot.Moves E R) s s' := by
  induction hs with
  | refl =>
    refine ⟨ho, rfl, ?_⟩
    intro k s s' h1 h2
    rw [h1] at h2
    cases h2
    exact .refl
  | tail _ hst ih =>
    obtain ⟨ho₁, hl, hm⟩ := ih
    obtain ⟨i, x, y, hx, hmv, rfl⟩ := hst.own ho₁
    refine ⟨ho₁.set ((ho₁ i x hx).step hmv.2), by rw [List.length_set, hl], ?_⟩
    intro k s s' h1 h2
    rw [List.getElem?_set] at h2
    split at h2
    · rename_i hik
      subst hik
      split at h2
      · cases h2
        exact (hm i s x h1 hx).tail hmv
      · cases h2
    · exact hm k s s' h1 h2

/-- The parallel loop has exactly one result, which is that of `updateJobs`, and never gets stuck. -/
theorem parallel_loop (hv : ValidOptions E opts) {h : List (Slot K G)} (ho : Own h) (hj : ∀ s ∈ h, JobInv E opts s.job)
    (hp : ∀ s ∈ h, s.phase = .mutate ∧ s.done = 0) :
    ∃ (draws : Nat → Nat → Draws K) (hf : List (Slot K G)), updateJobs E draws 0 (h.map Slot.job) = ok (hf.map Slot.job) ∧
      Own hf ∧ hf.length = h.length ∧ Finished hf ∧
      ∀ h₁, Relation.ReflTransGen (Step E R) h h₁ → (Finished h₁ → h₁ = hf) ∧
        ∀ (k : Nat) s, h₁[k]? = some s → s.done < s.job.batchSize → ∃ h₂, act E R h₁ k = ok h₂ := by
  have one : ∀ s ∈ h, ∃ ds s', Relation.ReflTransGen (Slot.Moves E R) s s' ∧ s'.phase = .mutate ∧ s'.done = s'.job.batchSize ∧
      ds.length = s.job.batchSize ∧ s.job.steps E ds = ok s'.job := by
    intro s hs
    obtain ⟨ds, s', h1, h2, h3, h4, h5⟩ := Slot.batch (R := R) hv s.job.batchSize (hj s hs) (hp s hs).1 (by rw [(hp s hs).2]; omega)
    refine ⟨ds, s', h1, h2, ?_, h4, h5⟩
    rw [h3, (hp s hs).2, Nat.zero_add]
    obtain ⟨j', g1, g2, _⟩ := Job.steps_ok hv ds (hj s hs)
    rw [h5] at g1
    injection g1 with g1
    rw [g1, g2.batch, (hj s hs).batch]
  choose! ds f h1 h2 h3 h4 h5 using one
  have hmoves : ∀ {k : Nat} {s : Slot K G}, h[k]? = some s → (f s).Own k ∧ (f s).job.batchSize = s.job.batchSize := by
    intro k s hs
    have hfin := h1 s (List.mem_of_getElem? hs)
    clear h1 h2 h3 h4 h5
    revert hfin
    generalize f s = y
    intro hfin
    induction hfin with
    | refl => exact ⟨ho k s hs, rfl⟩
    | tail _ hm ih => exact ⟨ih.1.step hm.2, ((Slot.step_fields hm.2).2.2.2.2.2).trans ih.2⟩
  refine ⟨fun k i => ((h[k]?).map fun s => (ds s).getD i ⟨0, 0, 0, 0⟩).getD ⟨0, 0, 0, 0⟩, h.map f, ?_, ?_, by simp, ?_, ?_⟩
  · apply updateJobs_of_forall
    · simp
    · intro i j r hji hri
      rw [List.getElem?_map, Option.map_eq_some_iff] at hji
      obtain ⟨s, hs, rfl⟩ := hji
      rw [List.getElem?_map, List.getElem?_map, hs, Option.map_some, Option.map_some, Option.some.injEq] at hri
      subst hri
      have hm := List.mem_of_getElem? hs
      unfold Job.update
      rw [expects_true (by simpa [(hj s hm).batch] using hv.batch_pos), ok_bind, Nat.zero_add]
      have : (List.range s.job.batchSize).map (fun i => ((h[i]?).map fun s => (ds s).getD i ⟨0, 0, 0, 0⟩).getD ⟨0, 0, 0, 0⟩) =
          (List.range s.job.batchSize).map (fun i => ((h[i]?).map fun s => (ds s).getD i ⟨0, 0, 0, 0⟩).getD ⟨0, 0, 0, 0⟩) := rfl
      clear this
      rw [hs]
      have : (List.range s.job.batchSize).map (fun i => (((some s).map fun s => (ds s).getD i ⟨0, 0, 0, 0⟩).getD ⟨0, 0, 0, 0⟩ : Draws K)) =
          ds s := by
        apply List.ext_getElem
        · simp [h4 s hm]
        · intro n g1 g2
          simp [List.getD_eq_getElem?_getD, List.getElem?_eq_getElem g2]
      rw [this]
      exact h5 s hm
  · intro k x hx
    rw [List.getElem?_map, Option.map_eq_some_iff] at hx
    obtain ⟨s, hs, rfl⟩ := hx
    exact (hmoves hs).1
  · intro x hx
    obtain ⟨s, hs, rfl⟩ := List.mem_map.1 hx
    exact h3 s hs
  · intro h₁ hst
    obtain ⟨g1, g2, g3⟩ := steps_spec ho hst
    have hend : ∀ s ∈ h, ∀ x, ¬ (f s).Moves E R x := by
      intro s hs x hx
      have := hx.1
      rw [h3 s hs] at this
      omega
    constructor
    · intro hfin
      apply List.ext_getElem
      · rw [g2, List.length_map]
      · intro n e1 e2
        rw [List.getElem_map]
        have en : n < h.length := by rw [← g2]; exact e1
        have hm := List.getElem_mem en
        have hr := reaches_end (r := Slot.Moves E R) Slot.Moves.unique
          (g3 n _ _ (List.getElem?_eq_getElem en) (List.getElem?_eq_getElem e1)) (h1 _ hm) (hend _ hm)
        rcases Relation.ReflTransGen.cases_head hr with he | ⟨z, he, _⟩
        · exact he
        · have := he.1
          rw [hfin _ (List.getElem_mem e1)] at this
          omega
    · intro k s hs hd
      have ek : k < h.length := by rw [← g2]; exact (List.getElem?_eq_some_iff.1 hs).1
      have hm := List.getElem_mem ek
      have hr := reaches_end (r := Slot.Moves E R) Slot.Moves.unique
        (g3 k _ s (List.getElem?_eq_getElem ek) hs) (h1 _ hm) (hend _ hm)
      rcases Relation.ReflTransGen.cases_head hr with he | ⟨z, he, _⟩
      · rw [he, h3 _ hm] at hd
        omega
      · rw [act_own hs (g1 k s hs), he.2, ok_bind]
        exact ⟨_, rfl⟩

/-- A step on one slot neither reads nor writes another slot. -/
theorem act_separate {h : List (Slot K G)} (ho : Own h) {k i : Nat} {s x : Slot K G} (hk : h[k]? = some s) (hi : i ≠ k) {h' : List (Slot K G)}
    (ha : act E R h k = ok h') : act E R (h.set i x) k = ok (h'.set i x) ∧ h'[i]? = h[i]? := by
  have hs : (h.set i x)[k]? = some s := by rw [List.getElem?_set_ne hi, hk]
  rw [act_own hk (ho k s hk)] at ha
  rw [act_own hs (ho k s hk)]
  obtain ⟨s', h1, h2⟩ := bind_eq_ok.1 ha
  cases h2
  rw [h1, ok_bind, List.set_comm _ _ hi, List.getElem?_set_ne hi.symm]
  exact ⟨rfl, rfl⟩

/-! ### The number of steps -/

def total (h : List (Slot K G)) : Nat := (h.map Slot.left).sum

theorem total_set {h : List (Slot K G)} {k : Nat} {s s' : Slot K G} (hk : h[k]? = some s) (hl : s'.left < s.left) : total (h.set k s') < total h := by
  induction h generalizing k with
  | nil => simp at hk
  | cons x rest ih =>
    cases k with
    | zero =>
      simp only [List.getElem?_cons_zero, Option.some.injEq] at hk
      subst hk
      simp only [total, List.set_cons_zero, List.map_cons, List.sum_cons]
      omega
    | succ k =>
      have := ih (k := k) (by simpa using hk)
      simp only [total, List.set_cons_succ, List.map_cons, List.sum_cons] at this ⊢
      omega

theorem Step.total {h h' : List (Slot K G)} (ho : Own h) (hs : Step E R h h') : Threads.total h' < Threads.total h := by
  obtain ⟨k, s, s', hk, hm, rfl⟩ := hs.own ho
  exact total_set hk hm.left

theorem total_begin {h : List (Slot K G)} {b : Nat} (hb : ∀ s ∈ h, s.job.batchSize = b) : total (begin h) = 4 * b * h.length := by
  induction h with
  | nil => rfl
  | cons x rest ih =>
    have h1 := ih (fun s hs => hb s (List.mem_cons_of_mem _ hs))
    have h2 := hb x List.mem_cons_self
    simp only [total, begin, List.map_cons, List.sum_cons, List.length_cons, Slot.left] at h1 ⊢
    rw [h1, h2]
    ring_nf
    simp only [Nat.sub_zero]

theorem own_begin {h : List (Slot K G)} (ho : Own h) : Own (begin h) := by
  intro k x hx
  unfold begin at hx
  rw [List.getElem?_map, Option.map_eq_some_iff] at hx
  obtain ⟨s, hs, rfl⟩ := hx
  exact ho k s hs

theorem begin_jobs (h : List (Slot K G)) : (begin h).map Slot.job = h.map Slot.job := by
  unfold begin
  rw [List.map_map]
  rfl

/-- From every state in which all jobs can go on, the end can be reached. -/
theorem reaches_finished {h : List (Slot K G)} (ho : Own h)
    (hg : ∀ h₁, Relation.ReflTransGen (Step E R) h h₁ →
      ∀ (k : Nat) s, h₁[k]? = some s → s.done < s.job.batchSize → ∃ h₂, act E R h₁ k = ok h₂)
    (hle : ∀ s ∈ h, s.done ≤ s.job.batchSize) : ∃ h₁, Relation.ReflTransGen (Step E R) h h₁ ∧ Finished h₁ := by
  induction hn : total h using Nat.strong_induction_on generalizing h with
  | _ n ih =>
    by_cases hf : Finished h
    · exact ⟨h, .refl, hf⟩
    · unfold Finished at hf
      push Not at hf
      obtain ⟨s, hs, hd⟩ := hf
      obtain ⟨k, hk⟩ := List.mem_iff_getElem?.1 hs
      have hlt : s.done < s.job.batchSize := lt_of_le_of_ne (hle s hs) hd
      obtain ⟨h₂, ha⟩ := hg h .refl k s hk hlt
      have hst : Step E R h h₂ := .act hk hlt ha
      obtain ⟨i, x, y, hx, hm, rfl⟩ := hst.own ho
      obtain ⟨h₁, r1, r2⟩ := ih _ (hn ▸ hst.total ho) (h := h.set i y) (ho.set ((ho i x hx).step hm.2))
        (fun h₁ hr => hg h₁ (.head hst hr))
        (by
          intro z hz
          rcases List.mem_or_eq_of_mem_set hz with hz | rfl
          · exact hle z hz
          · exact hm.done_le) rfl
      exact ⟨h₁, .head hst r1, r2⟩

/-! ### Replication -/

theorem minSlot_job : ∀ (l : List (Slot K G)) (b : Slot K G), (do let r ← minSlot b l; return r.job) = minJob b.job (l.map Slot.job) := by
  intro l
  induction l with
  | nil => intro b; rfl
  | cons s rest ih =>
    intro b
    simp only [minSlot, List.map_cons, minJob, bind_assoc]
    congr 1
    funext x
    congr 1
    funext y
    rw [ih]
    split <;> rfl

theorem replicateSlots_job (target : Slot K G) (m : K) (p : ScheduleParams K) : ∀ (l : List (Slot K G)) (k : Nat),
    (do let r ← replicateSlots target m p k l; return r.map Slot.job) = replicateLoop target.job m p (l.map Slot.job) := by
  intro l
  induction l with
  | nil => intro k; rfl
  | cons s rest ih =>
    intro k
    simp only [replicateSlots, List.map_cons, replicateLoop, bind_assoc]
    congr 1
    funext e
    rw [← ih (k + 1)]
    by_cases he : e = m
    · simp only [if_pos he, pure_bind, bind_assoc, List.map_cons]
    · simp only [if_neg he, bind_assoc, Slot.copyJob, pure_bind, List.map_cons, Slot.setParams]

theorem replicateSlots_own {target : Slot K G} {m : K} {p : ScheduleParams K} : ∀ {l l' : List (Slot K G)} {k : Nat},
    replicateSlots target m p k l = ok l' → (∀ (i : Nat) s, l[i]? = some s → s.Own (k + i)) →
    ∀ (i : Nat) s, l'[i]? = some s → s.Own (k + i) := by
  intro l
  induction l with
  | nil =>
    intro l' k h _ i s hs
    cases h
    simp at hs
  | cons x rest ih =>
    intro l' k h ho
    simp only [replicateSlots] at h
    obtain ⟨e, _, h⟩ := bind_eq_ok.1 h
    have key : ∃ y r, replicateSlots target m p (k + 1) rest = ok r ∧ l' = y :: r ∧ y.Own k := by
      split at h
      · obtain ⟨y, hy, h⟩ := bind_eq_ok.1 h
        cases hy
        obtain ⟨r, hr, h⟩ := bind_eq_ok.1 h
        cases h
        exact ⟨x, r, hr, rfl, ho 0 _ rfl⟩
      · obtain ⟨z, _, h⟩ := bind_eq_ok.1 h
        obtain ⟨y, hy, h⟩ := bind_eq_ok.1 h
        cases hy
        obtain ⟨r, hr, h⟩ := bind_eq_ok.1 h
        cases h
        exact ⟨_, r, hr, rfl, rfl, rfl, rfl, rfl, rfl⟩
    obtain ⟨y, r, hr, rfl, hy⟩ := key
    intro i s hs
    cases i with
    | zero =>
      simp only [List.getElem?_cons_zero, Option.some.injEq] at hs
      subst hs
      exact hy
    | succ i =>
      rw [show k + (i + 1) = k + 1 + i by omega]
      exact ih hr (fun j s hj => by
        rw [show k + 1 + j = k + (j + 1) by omega]
        exact ho (j + 1) s (by simpa using hj)) i s (by simpa using hs)

theorem replicate_spec (hv : ValidOptions E opts) {h : List (Slot K G)} (hne : h ≠ []) (ho : Own h) (hj : ∀ s ∈ h, JobInv E opts s.job) :
    ∃ h', replicate h = ok h' ∧ replicateBestJob (h.map Slot.job) = ok (h'.map Slot.job) ∧ Own h' := by
  have hj' : ∀ j ∈ h.map Slot.job, JobInv E opts j := by
    intro j hm
    obtain ⟨s, hs, rfl⟩ := List.mem_map.1 hm
    exact hj s hs
  obtain ⟨jobs', v, h1, h2, _⟩ := replicateBestJob_ok hv (by simpa using hne) hj'
  cases h with
  | nil => exact absurd rfl hne
  | cons first rest =>
    have h1' := h1
    simp only [List.map_cons, replicateBestJob] at h1
    rw [← minSlot_job] at h1
    simp only [bind_assoc] at h1
    obtain ⟨best, b1, h1⟩ := bind_eq_ok.1 h1
    obtain ⟨bj, b2, h1⟩ := bind_eq_ok.1 h1
    cases b2
    obtain ⟨tj, t1, h1⟩ := bind_eq_ok.1 h1
    obtain ⟨m, m1, h1⟩ := bind_eq_ok.1 h1
    obtain ⟨target, ht⟩ : ∃ t : Slot K G, t = { best with
        job := tj, mutatorRandom := best.mutatorRandom, stunMutator := (first :: rest).length,
        stunRandom := best.mutatorRandom, stunMakespan := (first :: rest).length, stunTemp := (first :: rest).length } := ⟨_, rfl⟩
    have hc : best.copyJob (first :: rest).length best = ok target := by
      rw [Slot.copyJob, t1, ok_bind, ht]
      rfl
    have htj : target.job = tj := by rw [ht]
    rw [← List.map_cons (f := Slot.job), ← htj, ← replicateSlots_job target m _ _ 0] at h1
    obtain ⟨h', r1, r2⟩ := bind_eq_ok.1 h1
    cases r2
    refine ⟨h', ?_, h1', ?_⟩
    · unfold replicate
      simp only [b1, ok_bind, hc, htj, m1, r1]
    · intro i s hs
      have := replicateSlots_own r1 (fun i s hi => by rw [Nat.zero_add]; exact ho i s hi) i s hs
      rwa [Nat.zero_add] at this

/-! ### Updates -/

theorem interpolate_jobs {o o' : Optimizer K} (h : o.interpolateProgress E = ok o') : o'.jobs = o.jobs := by
  unfold Optimizer.interpolateProgress at h
  obtain ⟨_, _, h⟩ := bind_eq_ok.1 h
  cases h
  rfl

theorem estimate_jobs {o o' : Optimizer K} (h : o.estimateProgress E = ok o') : o'.jobs = o.jobs := by
  unfold Optimizer.estimateProgress at h
  obtain ⟨_, _, h⟩ := bind_eq_ok.1 h
  obtain ⟨_, _, h⟩ := bind_eq_ok.1 h
  obtain ⟨⟨_, _⟩, _, h⟩ := bind_eq_ok.1 h
  obtain ⟨_, _, h⟩ := bind_eq_ok.1 h
  cases h
  rfl

/-- An optimizer together with its slots -/
structure Good (E : FloatEnv K) (opts : Options K) (threads : Nat) (ms : List K) (x : Optimizer K × List (Slot K G)) : Prop where
  inv : ∃ v, OptInv E opts threads ms x.1 v
  jobs : x.1.jobs = x.2.map Slot.job
  own : Own x.2

theorem Good.update (hv : ValidOptions E opts) {threads : Nat} {ms : List K} {x : Optimizer K × List (Slot K G)} (hx : Good E opts threads ms x) :
    ∃ draws y ms', x.1.update E draws = ok y.1 ∧ Good E opts threads ms' y ∧ Update E R x y ∧
      (∀ z, Update E R x z → z = y) ∧
      ∀ h₁, Relation.ReflTransGen (Step E R) (begin x.2) h₁ → Own h₁ ∧
        (∀ (k : Nat) s, h₁[k]? = some s → s.done < s.job.batchSize → ∃ h₂, act E R h₁ k = ok h₂) ∧
        (Finished h₁ → finishUpdate E x.1 h₁ = ok y) := by
  obtain ⟨o, h⟩ := x
  obtain ⟨⟨v, hi⟩, hjobs, ho⟩ := hx
  dsimp only at hi hjobs ho
  have hj : ∀ s ∈ h, JobInv E opts s.job := fun s hs => (hi.jobs _ (by rw [hjobs]; exact List.mem_map_of_mem hs)).1
  have hne : h ≠ [] := by
    intro h0
    apply hi.jobs_ne
    rw [hjobs, h0]
    rfl
  obtain ⟨draws, hf, p1, p2, p3, p4, p5⟩ := parallel_loop (R := R) hv (own_begin ho)
    (by
      intro s hs
      obtain ⟨x, hx, rfl⟩ := List.mem_map.1 hs
      exact hj x hx)
    (by
      intro s hs
      obtain ⟨x, hx, rfl⟩ := List.mem_map.1 hs
      exact ⟨rfl, rfl⟩)
  rw [begin_jobs, ← hjobs] at p1
  obtain ⟨o', v', jobs, u1, u2, _, u4, u5, _⟩ := Optimizer.update_ok hv hi draws
  rw [p1] at u4
  injection u4 with u4
  rw [← u4] at u5
  have hfne : hf ≠ [] := by
    intro h0
    rw [h0] at p3
    apply hne
    simpa [begin] using p3.symm
  obtain ⟨h', r1, r2, r3⟩ := replicate_spec hv hfne p2 (fun s hs => u5 _ (List.mem_map_of_mem hs))
  have hfu : finishUpdate E o hf = ok (o', h') ∧ o'.jobs = h'.map Slot.job := by
    have u1' := u1
    unfold Optimizer.update at u1'
    obtain ⟨_, _, u1'⟩ := bind_eq_ok.1 u1'
    obtain ⟨_, _, u1'⟩ := bind_eq_ok.1 u1'
    rw [p1, ok_bind, r2, ok_bind] at u1'
    obtain ⟨e, e1, u1'⟩ := bind_eq_ok.1 u1'
    unfold finishUpdate
    rw [r1, ok_bind]
    simp only [e1, ok_bind]
    dsimp only at u1'
    by_cases he : e = o.lastMakespan
    · rw [if_pos he] at u1'
      simp only [if_pos he, u1', ok_bind]
      exact ⟨rfl, interpolate_jobs u1'⟩
    · rw [if_neg he] at u1'
      simp only [if_neg he, u1', ok_bind]
      exact ⟨rfl, estimate_jobs u1'⟩
  have hend : ∀ h₁, Relation.ReflTransGen (Step E R) (begin h) h₁ → Finished h₁ → finishUpdate E o h₁ = ok (o', h') := by
    intro h₁ hs hfin
    rw [(p5 h₁ hs).1 hfin]
    exact hfu.1
  have hb : 0 < o.batchSize := by rw [hi.batch]; exact hv.batch_pos
  refine ⟨draws, (o', h'), v' :: ms, u1, ⟨⟨v', u2⟩, hfu.2, r3⟩, ?_, ?_, ?_⟩
  · obtain ⟨h₁, q1, q2⟩ := reaches_finished (own_begin ho) (fun h₁ hs => (p5 h₁ hs).2)
      (by
        intro s hs
        obtain ⟨x, hx, rfl⟩ := List.mem_map.1 hs
        exact Nat.zero_le _)
    exact .update hb hne q1 q2 (hend h₁ q1 q2)
  · intro z hz
    cases hz with
    | update _ _ hs hfin he =>
      rw [hend _ hs hfin] at he
      injection he with he
      exact he.symm
  · intro h₁ hs
    exact ⟨(steps_spec (own_begin ho) hs).1, (p5 h₁ hs).2, hend h₁ hs⟩

theorem newSlots_spec (hv : ValidOptions E opts) : ∀ (gs : List G) (k : Nat), ∃ h, newSlots E opts k gs = ok h ∧
    (List.replicate gs.length ()).mapM (fun _ => Job.new E opts) = ok (h.map Slot.job) ∧
    ∀ (i : Nat) s, h[i]? = some s → s.Own (k + i) := by
  intro gs
  induction gs with
  | nil =>
    intro k
    exact ⟨[], rfl, rfl, by simp⟩
  | cons g gs ih =>
    intro k
    obtain ⟨j, hj, _⟩ := Job.new_ok hv
    obtain ⟨h, h1, h2, h3⟩ := ih (k + 1)
    refine ⟨⟨g, j, k, k, k, k, k, .mutate, 0⟩ :: h, ?_, ?_, ?_⟩
    · simp only [newSlots, Slot.new, hj, ok_bind, h1, pure_bind]
      rfl
    · rw [List.length_cons, List.replicate_succ, List.mapM_cons, h2, hj]
      rfl
    · intro i s hs
      cases i with
      | zero =>
        simp only [List.getElem?_cons_zero, Option.some.injEq] at hs
        subst hs
        exact ⟨rfl, rfl, rfl, rfl, rfl⟩
      | succ i =>
        rw [show k + (i + 1) = k + 1 + i by omega]
        exact h3 i s (by simpa using hs)

theorem newSlots_good (hv : ValidOptions E opts) {gs : List G} (hg : gs ≠ []) :
    ∃ o h, Optimizer.new E opts gs.length = ok o ∧ newSlots E opts 0 gs = ok h ∧ Good E opts gs.length [] (o, h) := by
  obtain ⟨o, v, h1, h2⟩ := Optimizer.new_ok hv (threads := gs.length) (by
    cases gs with
    | nil => exact absurd rfl hg
    | cons => simp)
  obtain ⟨h, g1, g2, g3⟩ := newSlots_spec hv gs 0
  refine ⟨o, h, h1, g1, ⟨v, h2⟩, ?_, ?_⟩
  · unfold Optimizer.new at h1
    obtain ⟨_, _, h1⟩ := bind_eq_ok.1 h1
    obtain ⟨_, _, h1⟩ := bind_eq_ok.1 h1
    rw [g2, ok_bind] at h1
    obtain ⟨_, _, h1⟩ := bind_eq_ok.1 h1
    cases h1
    rfl
  · intro i s hs
    have := g3 i s hs
    rwa [Nat.zero_add] at this

end Angonoka.Threads
