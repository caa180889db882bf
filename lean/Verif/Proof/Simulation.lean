import Verif.Proof.Makespan
import Verif.Proof.Params
import Verif.Spec.Simulation

/-!
# Simulation runs
-/

set_option linter.unusedSectionVars false

namespace Angonoka
open Outcome Stun

section spans
variable {K : Type}

/-- A part of the buffer holds the first values of a function. -/
def SpanHolds (s : Span) (buffer : List K) (f : Nat → K) : Prop :=
  ∀ i < s.count, buffer[s.offset + i]? = some (f i)

theorem SpanHolds.get {s : Span} {b : List K} {f : Nat → K} (h : SpanHolds s b f) {i : Nat}
    (hi : i < s.count) (site : String) : s.get b i site = ok (f i) := by
  unfold Span.get
  rw [expects_true (by simpa using hi), ok_bind, at?_eq_ok]
  exact h i hi

theorem Span.put_ok {s : Span} {b : List K} {i : Nat} (hi : i < s.count)
    (hb : s.offset + s.count ≤ b.length) (x : K) (site : String) :
    s.put b i x site = ok (b.set (s.offset + i) x) := by
  unfold Span.put
  rw [expects_true (by simpa using hi), ok_bind, at?_ok (by omega), ok_bind]
  rfl

theorem SpanHolds.set {s : Span} {b : List K} {f : Nat → K} (h : SpanHolds s b f)
    (hb : s.offset + s.count ≤ b.length) (i : Nat) (x : K) :
    SpanHolds s (b.set (s.offset + i) x) (Function.update f i x) := by
  intro j hj
  rw [List.getElem?_set]
  by_cases hij : i = j
  · subst hij
    simp [show s.offset + i < b.length by omega]
  · rw [if_neg (by omega), Function.update_of_ne (Ne.symm hij)]
    exact h j hj

theorem SpanHolds.set_other {s : Span} {b : List K} {f : Nat → K} (h : SpanHolds s b f)
    {k : Nat} (hk : k < s.offset ∨ s.offset + s.count ≤ k) (x : K) :
    SpanHolds s (b.set k x) f := by
  intro j hj
  rw [List.getElem?_set, if_neg (by omega)]
  exact h j hj

theorem SpanHolds.elems {s : Span} {b : List K} {f : Nat → K} (h : SpanHolds s b f) :
    s.elems b = (List.range s.count).map f := by
  apply List.ext_getElem?
  intro i
  unfold Span.elems
  rw [List.getElem?_take]
  by_cases hi : i < s.count
  · rw [if_pos hi, List.getElem?_drop, h i hi]
    simp [hi]
  · rw [if_neg hi, List.getElem?_eq_none (by simp; omega)]

/-- Write a list into the buffer. -/
def writeAll : List K → Nat → List K → List K
  | b, _, [] => b
  | b, k, x :: xs => writeAll (b.set k x) (k + 1) xs

@[simp] theorem writeAll_length (b : List K) (k : Nat) (xs : List K) :
    (writeAll b k xs).length = b.length := by
  induction xs generalizing b k with
  | nil => rfl
  | cons x xs ih => simp [writeAll, ih]

theorem writeAll_out {b : List K} {k : Nat} {xs : List K} {j : Nat}
    (hj : j < k ∨ k + xs.length ≤ j) : (writeAll b k xs)[j]? = b[j]? := by
  induction xs generalizing b k with
  | nil => rfl
  | cons x xs ih =>
    rw [List.length_cons] at hj
    rw [writeAll, ih (by omega), List.getElem?_set, if_neg (by omega)]

theorem writeAll_in {b : List K} {k : Nat} {xs : List K} {i : Nat} (hb : k + xs.length ≤ b.length)
    (hi : i < xs.length) : (writeAll b k xs)[k + i]? = some xs[i] := by
  induction xs generalizing b k i with
  | nil => simp at hi
  | cons x xs ih =>
    rw [List.length_cons] at hb hi
    cases i with
    | zero =>
      rw [writeAll, writeAll_out (by omega), List.getElem?_set]
      simp [show k < b.length by omega]
    | succ i =>
      have := ih (b := b.set k x) (k := k + 1) (i := i) (by simp; omega) (by omega)
      rw [writeAll, List.getElem_cons_succ, ← this]
      congr 1
      omega

end spans

variable {K : Type} [Field K] [LinearOrder K] [IsStrictOrderedRing K]

/-! ### Sampling -/

/-- Sampling as a function on lists. -/
def pureSamples (E : FloatEnv K) : List (K × K) → List K → Option (List K × List K)
  | [], zs => some ([], zs)
  | (lo, hi) :: rest, zs =>
    (if lo = hi then some (lo, zs) else Simulation.redraw E lo hi zs).bind fun r =>
      (pureSamples E rest r.2).map fun q => (r.1 :: q.1, q.2)

theorem sample_ok {E : FloatEnv K} {lo hi : K} (h : lo ≤ hi) (h0 : 0 ≤ lo) (zs : List K) :
    Simulation.sample E lo hi zs
      = ok (if lo = hi then some (lo, zs) else Simulation.redraw E lo hi zs) := by
  unfold Simulation.sample
  split
  · rfl
  · next hne =>
    rw [expects_true (by simpa using lt_of_le_of_ne h hne), ok_bind, expects_true (by simpa using h0),
      ok_bind]
    rfl

theorem sampleLoop_ok {E : FloatEnv K} {dest : Span} {bs : List (K × K)}
    (hbs : ∀ b ∈ bs, b.1 ≤ b.2 ∧ 0 ≤ b.1) {i : Nat} (hi : i + bs.length ≤ dest.count) {b : List K}
    (hb : dest.offset + dest.count ≤ b.length) (zs : List K) :
    Simulation.sampleLoop E dest bs i b zs
      = ok ((pureSamples E bs zs).map fun r => (writeAll b (dest.offset + i) r.1, r.2)) := by
  induction bs generalizing i b zs with
  | nil => rfl
  | cons x bs ih =>
    obtain ⟨lo, hi'⟩ := x
    have hx := hbs (lo, hi') (by simp)
    rw [List.length_cons] at hi
    rw [Simulation.sampleLoop, sample_ok hx.1 hx.2, ok_bind, pureSamples]
    cases (if lo = hi' then some (lo, zs) else Simulation.redraw E lo hi' zs) with
    | none => rfl
    | some r =>
      obtain ⟨y, zs'⟩ := r
      dsimp only [Option.bind_some]
      rw [Span.put_ok (by omega) hb, ok_bind,
        ih (fun b hb => hbs b (by simp [hb])) (by omega) (by simpa using hb), Option.map_map]
      rfl

theorem redraw_eq_some {E : FloatEnv K} {lo hi : K} {zs : List K} {x : K} {rest : List K} :
    Simulation.redraw E lo hi zs = some (x, rest) ↔
      ∃ rejected z, zs = rejected ++ z :: rest ∧ (∀ r ∈ rejected, drawn E lo hi r ≤ 0) ∧
        x = drawn E lo hi z ∧ 0 < x := by
  induction zs with
  | nil => simp [Simulation.redraw]
  | cons z zs ih =>
    rw [Simulation.redraw]
    change (if drawn E lo hi z ≤ 0 then _ else some (drawn E lo hi z, zs)) = _ ↔ _
    split
    · next h =>
      rw [ih]
      constructor
      · rintro ⟨rej, z', rfl, h1, h2, h3⟩
        exact ⟨z :: rej, z', rfl, by simpa using ⟨h, h1⟩, h2, h3⟩
      · rintro ⟨rej, z', h1, h2, h3, h4⟩
        cases rej with
        | nil =>
          simp only [List.nil_append, List.cons.injEq] at h1
          rw [h3, ← h1.1] at h4
          exact absurd h4 (not_lt.2 h)
        | cons r rej =>
          simp only [List.cons_append, List.cons.injEq] at h1
          exact ⟨rej, z', h1.2, fun r hr => h2 r (by simp [hr]), h3, h4⟩
    · next h =>
      constructor
      · intro h1
        cases h1
        exact ⟨[], z, rfl, by simp, rfl, not_le.1 h⟩
      · rintro ⟨rej, z', h1, h2, h3, h4⟩
        cases rej with
        | nil =>
          simp only [List.nil_append, List.cons.injEq] at h1
          rw [h3, h1.1, h1.2]
        | cons r rej =>
          simp only [List.cons_append, List.cons.injEq] at h1
          exact absurd (h2 r (by simp)) (h1.1 ▸ h)

theorem pureSamples_eq_some {E : FloatEnv K} {bs : List (K × K)} {zs xs rest : List K} :
    pureSamples E bs zs = some (xs, rest) ↔ Samples E bs xs zs rest := by
  constructor
  · intro h
    induction bs generalizing zs xs with
    | nil =>
      simp only [pureSamples, Option.some.injEq, Prod.mk.injEq] at h
      obtain ⟨rfl, rfl⟩ := h
      exact .nil
    | cons b bs ih =>
      obtain ⟨lo, hi⟩ := b
      rw [pureSamples, Option.bind_eq_some_iff] at h
      obtain ⟨⟨y, zs'⟩, h1, h2⟩ := h
      rw [Option.map_eq_some_iff] at h2
      obtain ⟨⟨ys, rest'⟩, h2, h3⟩ := h2
      cases h3
      have := ih h2
      split at h1
      · next he =>
        subst he
        cases h1
        exact .fixed this
      · next hne =>
        obtain ⟨rej, z, rfl, h4, rfl, h6⟩ := redraw_eq_some.1 h1
        exact .drawn rej hne h4 h6 this
  · intro h
    induction h with
    | nil => rfl
    | fixed h ih => simp [pureSamples, ih]
    | @drawn lo hi bounds z xs zs rest rejected hne hr hz h ih =>
      have := (redraw_eq_some (rest := zs)).2 ⟨rejected, z, rfl, hr, rfl, hz⟩
      simp [pureSamples, hne, this, ih]

theorem Samples.length {E : FloatEnv K} {bs : List (K × K)} {xs zs rest : List K}
    (h : Samples E bs xs zs rest) : xs.length = bs.length := by
  induction h with
  | nil => rfl
  | fixed _ ih => simp [ih]
  | drawn _ _ _ _ _ ih => simp [ih]

theorem Samples.pos {E : FloatEnv K} {bs : List (K × K)} {xs zs rest : List K}
    (h : Samples E bs xs zs rest) (hbs : ∀ b ∈ bs, 0 < b.1) : ∀ x ∈ xs, 0 < x := by
  induction h with
  | nil => simp
  | fixed _ ih =>
    intro x hx
    rcases List.mem_cons.1 hx with rfl | hx
    · exact hbs (x, x) (by simp)
    · exact ih (fun b hb => hbs b (by simp [hb])) x hx
  | drawn rej _ _ hz _ ih =>
    intro x hx
    rcases List.mem_cons.1 hx with rfl | hx
    · exact hz
    · exact ih (fun b hb => hbs b (by simp [hb])) x hx

theorem Samples.local {E : FloatEnv K} {bs : List (K × K)} {xs zs rest : List K}
    (h : Samples E bs xs zs rest) :
    ∃ used, zs = used ++ rest ∧ ∀ rest', Samples E bs xs (used ++ rest') rest' := by
  induction h with
  | nil => exact ⟨[], rfl, fun _ => .nil⟩
  | fixed _ ih =>
    obtain ⟨used, h1, h2⟩ := ih
    exact ⟨used, h1, fun r => .fixed (h2 r)⟩
  | @drawn lo hi bounds z xs zs rest rej hne hr hz _ ih =>
    obtain ⟨used, rfl, h2⟩ := ih
    refine ⟨rej ++ z :: used, by simp, fun r => ?_⟩
    rw [List.append_assoc, List.cons_append]
    exact .drawn rej hne hr hz (h2 r)

theorem samples_fixed {E : FloatEnv K} {bs : List (K × K)} (h : ∀ b ∈ bs, b.1 = b.2) (zs : List K) :
    Samples E bs (bs.map Prod.fst) zs zs := by
  induction bs with
  | nil => exact .nil
  | cons b bs ih =>
    obtain ⟨lo, hi⟩ := b
    have : lo = hi := h (lo, hi) (by simp)
    subst this
    exact .fixed (ih fun b hb => h b (by simp [hb]))

/-! ### Shape -/

/-- Everything about a simulation except for the contents of the buffer. -/
structure SimShape (p : Project) (sim : Simulation K) : Prop where
  agents_ne : p.agents ≠ []
  tasks_ne : p.tasks ≠ []
  config : sim.config = p
  size : sim.buffer.length = p.agents.length * 2 + p.tasks.length * 2
  perf : sim.agentPerformance = ⟨0, p.agents.length⟩
  dur : sim.taskDuration = ⟨p.agents.length, p.tasks.length⟩
  work : sim.agentWorkEnd = ⟨p.agents.length + p.tasks.length, p.agents.length⟩
  done : sim.taskDone = ⟨p.agents.length + p.tasks.length + p.agents.length, p.tasks.length⟩

theorem resize_length (l : List K) (n : Nat) : (Simulation.resize l n).length = n := by
  simp [Simulation.resize]
  omega

theorem assignBuffers_ok {p : Project} {b : List K} {sim : Simulation K}
    (h : Simulation.assignBuffers p b = ok sim) : SimShape p sim := by
  unfold Simulation.assignBuffers at h
  obtain ⟨_, h1, h⟩ := bind_eq_ok.1 h
  obtain ⟨_, h2, h⟩ := bind_eq_ok.1 h
  have h1 := expects_eq_ok.1 h1
  have h2 := expects_eq_ok.1 h2
  cases h
  exact ⟨by simpa using h1, by simpa using h2, rfl, resize_length _ _, rfl, rfl, rfl, rfl⟩

theorem put_length {s : Span} {b b' : List K} {i : Nat} {x : K} {site : String}
    (h : s.put b i x site = ok b') : b'.length = b.length := by
  unfold Span.put at h
  obtain ⟨_, _, h⟩ := bind_eq_ok.1 h
  obtain ⟨_, _, h⟩ := bind_eq_ok.1 h
  cases h
  simp

theorem sampleLoop_length {E : FloatEnv K} {dest : Span} {bs : List (K × K)} {i : Nat}
    {b zs b' rest : List K} (h : Simulation.sampleLoop E dest bs i b zs = ok (some (b', rest))) :
    b'.length = b.length := by
  induction bs generalizing i b zs with
  | nil => cases h; rfl
  | cons x bs ih =>
    obtain ⟨lo, hi⟩ := x
    rw [Simulation.sampleLoop] at h
    obtain ⟨r, _, h⟩ := bind_eq_ok.1 h
    match r, h with
    | none, h => cases h
    | some (y, zs'), h =>
      dsimp only at h
      obtain ⟨b1, h1, h⟩ := bind_eq_ok.1 h
      rw [ih h, put_length h1]

theorem simLoop_length {E : FloatEnv K} {sim : Simulation K} {s : List Item} {b b' : List K}
    (h : sim.loop E s b = ok b') : b'.length = b.length := by
  induction s generalizing b with
  | nil => cases h; rfl
  | cons it s ih =>
    obtain ⟨task, agent⟩ := it
    rw [Simulation.loop] at h
    obtain ⟨_, _, h⟩ := bind_eq_ok.1 h
    obtain ⟨_, _, h⟩ := bind_eq_ok.1 h
    obtain ⟨_, _, h⟩ := bind_eq_ok.1 h
    obtain ⟨_, _, h⟩ := bind_eq_ok.1 h
    obtain ⟨_, h1, h⟩ := bind_eq_ok.1 h
    obtain ⟨_, h2, h⟩ := bind_eq_ok.1 h
    rw [ih h, put_length h2, put_length h1]

variable [FloorRing K]

theorem SimShape.call {E : FloatEnv K} {p : Project} {sim sim' : Simulation K} {s : List Item}
    {zs zs' : List K} {v : Int} (hs : SimShape p sim)
    (h : sim.call E s zs = ok (some (v, zs', sim'))) : SimShape p sim' := by
  unfold Simulation.call at h
  obtain ⟨_, _, h⟩ := bind_eq_ok.1 h
  obtain ⟨_, _, h⟩ := bind_eq_ok.1 h
  obtain ⟨_, _, h⟩ := bind_eq_ok.1 h
  obtain ⟨_, _, h⟩ := bind_eq_ok.1 h
  obtain ⟨_, _, h⟩ := bind_eq_ok.1 h
  obtain ⟨_, _, h⟩ := bind_eq_ok.1 h
  obtain ⟨_, _, h⟩ := bind_eq_ok.1 h
  obtain ⟨r, h1, h⟩ := bind_eq_ok.1 h
  match r, h1, h with
  | none, _, h => cases h
  | some (b1, zs1), h1, h =>
    dsimp only at h
    obtain ⟨r, h2, h⟩ := bind_eq_ok.1 h
    match r, h2, h with
    | none, _, h => cases h
    | some (b2, zs2), h2, h =>
      dsimp only at h
      obtain ⟨b3, h3, h⟩ := bind_eq_ok.1 h
      cases h
      unfold Simulation.randomAgentPerformances at h1
      obtain ⟨_, _, h1⟩ := bind_eq_ok.1 h1
      obtain ⟨_, _, h1⟩ := bind_eq_ok.1 h1
      obtain ⟨_, _, h1⟩ := bind_eq_ok.1 h1
      unfold Simulation.randomTaskDurations at h2
      obtain ⟨_, _, h2⟩ := bind_eq_ok.1 h2
      obtain ⟨_, _, h2⟩ := bind_eq_ok.1 h2
      have l1 := sampleLoop_length h1
      have l2 := sampleLoop_length h2
      have l3 := simLoop_length h3
      refine ⟨hs.agents_ne, hs.tasks_ne, hs.config, ?_, hs.perf, hs.dur, hs.work, hs.done⟩
      rw [← hs.size]
      simpa [l3, l2] using l1

theorem SimulationFor.shape {E : FloatEnv K} {p : Project} {sim : Simulation K}
    (h : SimulationFor E p sim) : SimShape p sim := by
  induction h with
  | new h =>
    unfold Simulation.new at h
    obtain ⟨_, _, h⟩ := bind_eq_ok.1 h
    obtain ⟨_, _, h⟩ := bind_eq_ok.1 h
    exact assignBuffers_ok h
  | run _ hc ih => exact ih.call hc
  | copy _ hc ih =>
    unfold Simulation.copy at hc
    obtain ⟨_, _, hc⟩ := bind_eq_ok.1 hc
    obtain ⟨c, h1, hc⟩ := bind_eq_ok.1 hc
    obtain ⟨_, _, hc⟩ := bind_eq_ok.1 hc
    cases hc
    rw [ih.config] at h1
    exact assignBuffers_ok h1
  | setParams _ hc _ =>
    unfold Simulation.setParams at hc
    obtain ⟨_, _, hc⟩ := bind_eq_ok.1 hc
    obtain ⟨_, _, hc⟩ := bind_eq_ok.1 hc
    exact assignBuffers_ok hc

theorem SimShape.cleared {p : Project} {a b : Simulation K} (ha : SimShape p a) (hb : SimShape p b) :
    ({ a with buffer := a.buffer.map fun _ => (0 : K) } : Simulation K)
      = { b with buffer := b.buffer.map fun _ => (0 : K) } := by
  obtain ⟨_, _, c1, s1, p1, d1, w1, t1⟩ := ha
  obtain ⟨_, _, c2, s2, p2, d2, w2, t2⟩ := hb
  have : (a.buffer.map fun _ => (0 : K)) = b.buffer.map fun _ => (0 : K) := by
    rw [List.map_const', List.map_const', s1, s2]
  rw [this, c1, c2, p1, p2, d1, d2, w1, w2, t1, t2]

/-- A run does not depend on what the buffer contained. -/
theorem SimShape.call_eq {E : FloatEnv K} {p : Project} {a b : Simulation K} (ha : SimShape p a)
    (hb : SimShape p b) (s : List Item) (zs : List K) : a.call E s zs = b.call E s zs := by
  have hbe : a.buffer.isEmpty = b.buffer.isEmpty := by
    rw [Bool.eq_iff_iff, List.isEmpty_iff_length_eq_zero, List.isEmpty_iff_length_eq_zero, ha.size, hb.size]
  unfold Simulation.call
  rw [ha.cleared hb, hbe, ha.perf, hb.perf, ha.dur, hb.dur, ha.work, hb.work, ha.done, hb.done]

/-! ### The loop -/

/-- The parameters with sampled performances and durations. -/
def ScheduleParams.sampled (sp : ScheduleParams K) (perf dur : List K) : ScheduleParams K :=
  { sp with agentPerformance := perf, taskDuration := dur }

theorem simDependenciesDone_ok {p : Project} {sim : Simulation K} (hs : SimShape p sim)
    {b : List K} {f : Nat → K} (hf : SpanHolds sim.taskDone b f) {deps : List Nat}
    (hd : ∀ d ∈ deps, d < p.tasks.length) :
    sim.dependenciesDone b deps = ok (maxOf (deps.map f)) := by
  unfold Simulation.dependenciesDone
  have hpos : 0 < sim.taskDone.count := by
    rw [hs.done]
    exact List.length_pos_iff.2 hs.tasks_ne
  rw [expects_true (by simpa using hpos), ok_bind]
  split
  · next h =>
    have : deps = [] := by simpa using h
    simp [this, maxOf]
  · rw [mapM_eq_ok_of_forall (g := f), ok_bind]
    · rfl
    · intro d hd'
      exact hf.get (by rw [hs.done]; exact hd d hd') _

theorem simWorkTime_ok {E : FloatEnv K} {p : Project} {sim : Simulation K} (hs : SimShape p sim)
    {b : List K} {perf dur : List K} (hperf : perf.length = p.agents.length)
    (hdur : dur.length = p.tasks.length) (ppos : ∀ x ∈ perf, 0 < x) (dpos : ∀ x ∈ dur, 0 < x)
    (hp : SpanHolds sim.agentPerformance b fun i => perf.getD i 0)
    (hd : SpanHolds sim.taskDuration b fun i => dur.getD i 0) {sp : ScheduleParams K} {it : Item}
    (ht : it.task < p.tasks.length) (ha : it.agent < p.agents.length) :
    sim.workTime E b it.task it.agent = ok ((sp.sampled perf dur).itemTime E it) := by
  unfold Simulation.workTime
  have h1 : 0 < perf.getD it.agent 0 := by
    rw [List.getD_eq_getElem _ _ (by omega)]
    exact ppos _ (List.getElem_mem _)
  have h2 : 0 < dur.getD it.task 0 := by
    rw [List.getD_eq_getElem _ _ (by omega)]
    exact dpos _ (List.getElem_mem _)
  rw [hs.config, expects_true (by simpa using ha), ok_bind, expects_true (by simpa using ht), ok_bind,
    hp.get (by rw [hs.perf]; exact ha), ok_bind, hd.get (by rw [hs.dur]; exact ht), ok_bind,
    expects_true (by simpa using h1), ok_bind, expects_true (by simpa using h2), ok_bind]
  rfl

/-- The loop computes the recurrence of the makespan estimator with the sampled values. -/
theorem simLoop_ok {E : FloatEnv K} {p : Project} {sim : Simulation K} (hs : SimShape p sim)
    {sp : ScheduleParams K} (hdeps : ∀ i t, p.tasks[i]? = some t → sp.deps i = t.dependencies)
    (hdlt : ∀ t ∈ p.tasks, ∀ d ∈ t.dependencies, d < p.tasks.length)
    {perf dur : List K} (hperf : perf.length = p.agents.length)
    (hdur : dur.length = p.tasks.length) (ppos : ∀ x ∈ perf, 0 < x) (dpos : ∀ x ∈ dur, 0 < x)
    {s : List Item} (hfit : ∀ it ∈ s, it.task < p.tasks.length ∧ it.agent < p.agents.length)
    {b : List K} {f w : Nat → K} (hb : b.length = p.agents.length * 2 + p.tasks.length * 2)
    (h1 : SpanHolds sim.agentPerformance b fun i => perf.getD i 0)
    (h2 : SpanHolds sim.taskDuration b fun i => dur.getD i 0)
    (h3 : SpanHolds sim.agentWorkEnd b w) (h4 : SpanHolds sim.taskDone b f) :
    ∃ b', sim.loop E s b = ok b' ∧ b'.length = b.length ∧
      SpanHolds sim.agentWorkEnd b' (runF E (sp.sampled perf dur) s f w).2 ∧
      SpanHolds sim.taskDone b' (runF E (sp.sampled perf dur) s f w).1 := by
  induction s generalizing b f w with
  | nil => exact ⟨b, rfl, rfl, h3, h4⟩
  | cons it s ih =>
    obtain ⟨ht, ha⟩ := hfit it (by simp)
    have hd := hdeps it.task _ (List.getElem?_eq_getElem ht)
    have hd' : (sp.sampled perf dur).deps it.task = p.tasks[it.task].dependencies := hd
    have hend : E.add (max (maxOf ((p.tasks[it.task].dependencies).map f)) (w it.agent))
        ((sp.sampled perf dur).itemTime E it) = endTime E (sp.sampled perf dur) f w it := by
      unfold endTime startTime depsEnd
      rw [hd']
    have e3 : sim.agentWorkEnd = ⟨p.agents.length + p.tasks.length, p.agents.length⟩ := hs.work
    have e4 : sim.taskDone
      = ⟨p.agents.length + p.tasks.length + p.agents.length, p.tasks.length⟩ := hs.done
    have hstep : sim.loop E (it :: s) b = sim.loop E s
        ((b.set (sim.taskDone.offset + it.task) (endTime E (sp.sampled perf dur) f w it)).set
          (sim.agentWorkEnd.offset + it.agent) (endTime E (sp.sampled perf dur) f w it)) := by
      rw [Simulation.loop, hs.config, at?_ok ht, ok_bind,
        simDependenciesDone_ok hs h4 (hdlt _ (List.getElem_mem _)), ok_bind,
        h3.get (by rw [e3]; exact ha), ok_bind,
        simWorkTime_ok (sp := sp) hs hperf hdur ppos dpos h1 h2 ht ha, ok_bind]
      dsimp only
      rw [hend, Span.put_ok (by rw [e4]; exact ht) (by rw [e4]; simp only; omega), ok_bind,
        Span.put_ok (by rw [e3]; exact ha) (by rw [e3]; simp only [List.length_set]; omega), ok_bind]
    have k1 : sim.agentPerformance = ⟨0, p.agents.length⟩ := hs.perf
    have k2 : sim.taskDuration = ⟨p.agents.length, p.tasks.length⟩ := hs.dur
    obtain ⟨b', g1, g2, g3, g4⟩ := ih (fun x hx => hfit x (by simp [hx]))
      (b := (b.set (sim.taskDone.offset + it.task) (endTime E (sp.sampled perf dur) f w it)).set
          (sim.agentWorkEnd.offset + it.agent) (endTime E (sp.sampled perf dur) f w it))
      (f := Function.update f it.task (endTime E (sp.sampled perf dur) f w it))
      (w := Function.update w it.agent (endTime E (sp.sampled perf dur) f w it))
      (by simpa using hb)
      ((h1.set_other (by rw [k1, e4]; simp only; omega) _).set_other
        (by rw [k1, e3]; simp only; omega) _)
      ((h2.set_other (by rw [k2, e4]; simp only; omega) _).set_other
        (by rw [k2, e3]; simp only; omega) _)
      ((h3.set_other (by rw [e4, e3]; simp only; omega) _).set
        (by rw [e3]; simp only [List.length_set]; omega) _ _)
      ((h4.set (by rw [e4]; simp only; omega) _ _).set_other
        (by rw [e4, e3]; simp only; omega) _)
    exact ⟨b', by rw [hstep, g1], by simpa using g2, g3, g4⟩

theorem ofInt_pos {E : FloatEnv K} {n : Int} (h : 0 < n) : 0 < E.ofInt n := by
  have : (1 : K) ≤ n := by exact_mod_cast h
  exact lt_of_lt_of_le one_pos (E.one_le_rnd this)

theorem performanceBounds_ok {p : Project}
    (hp : ∀ a ∈ p.agents, ∃ lo hi, a.PerformanceOk lo hi) :
    ∃ bs : List (K × K), p.agents.mapM Simulation.performanceBounds = ok bs ∧
      p.performanceBounds bs := by
  unfold Project.performanceBounds
  revert hp
  generalize p.agents = agents
  intro hp
  induction agents with
  | nil => exact ⟨[], rfl, .nil⟩
  | cons a as ih =>
    obtain ⟨bs, h1, h2⟩ := ih fun a ha => hp a (by simp [ha])
    obtain ⟨lo, hi, hok⟩ := hp a (by simp)
    refine ⟨((lo : K), (hi : K)) :: bs, ?_, .cons ⟨lo, hi, hok, rfl⟩ h2⟩
    have : Simulation.performanceBounds a = ok ((lo : K), (hi : K)) := by
      unfold Simulation.performanceBounds
      rw [hok.1, hok.2.1]
      simp only [XFloat.toK, ok_bind, ← Rat.cast_def]
      rfl
    rw [List.mapM_cons, this, ok_bind, h1, ok_bind]
    rfl

/-- A run in terms of sampling and the recurrence. -/
theorem simCall_ok {E : FloatEnv K} {p : Project} {sim : Simulation K} (hs : SimShape p sim)
    (hperf : ∀ a ∈ p.agents, ∃ lo hi, a.PerformanceOk lo hi) (hdur : ∀ t ∈ p.tasks, t.DurationOk)
    {sp : ScheduleParams K} (hdeps : ∀ i t, p.tasks[i]? = some t → sp.deps i = t.dependencies)
    (hdlt : ∀ t ∈ p.tasks, ∀ d ∈ t.dependencies, d < p.tasks.length)
    {s : List Item} (hlen : s.length = p.tasks.length)
    (hfit : ∀ it ∈ s, it.task < p.tasks.length ∧ it.agent < p.agents.length) :
    ∃ bounds : List (K × K), p.performanceBounds bounds ∧ ∀ zs : List K,
      (sim.call E s zs = ok none ∧ ∀ perf dur zs' rest, Samples E bounds perf zs zs' →
        ¬ Samples E (p.durationBounds E) dur zs' rest) ∨
      ∃ perf dur zs' rest sim', Samples E bounds perf zs zs' ∧
        Samples E (p.durationBounds E) dur zs' rest ∧
        sim.call E s zs = ok (some (Simulation.truncate
          (makespanValue E (sp.sampled perf dur) p.agents.length s), rest, sim')) := by
  obtain ⟨bs, hbs, hpb⟩ := performanceBounds_ok (K := K) hperf
  refine ⟨bs, hpb, fun zs => ?_⟩
  have hbsl : bs.length = p.agents.length := hpb.length_eq.symm
  have hbpos : ∀ b ∈ bs, b.1 ≤ b.2 ∧ 0 < b.1 := by
    intro b hb
    obtain ⟨i, hi, rfl⟩ := List.getElem_of_mem hb
    obtain ⟨lo, hi', hok, he⟩ := List.Forall₂.get hpb (by omega) hi
    rw [List.get_eq_getElem] at he
    rw [he]
    dsimp only
    exact ⟨by exact_mod_cast hok.2.2.2, by exact_mod_cast hok.2.2.1⟩
  have hdb : ∀ b ∈ p.durationBounds E, b.1 ≤ b.2 ∧ 0 < b.1 := by
    intro b hb
    obtain ⟨t, ht, rfl⟩ := List.mem_map.1 hb
    have := hdur t ht
    exact ⟨E.rnd_mono (by exact_mod_cast this.2.1), ofInt_pos this.1⟩
  have hdl : (p.durationBounds E).length = p.tasks.length := by simp [Project.durationBounds]
  have e0 := hs.perf
  have e1 := hs.dur
  have e2 := hs.work
  have e3 := hs.done
  have ap := List.length_pos_iff.2 hs.agents_ne
  have tp := List.length_pos_iff.2 hs.tasks_ne
  have hbne : sim.buffer ≠ [] := by
    intro h0
    have := hs.size
    rw [h0] at this
    simp at this
    omega
  have hcall : sim.call E s zs = (do
      let r ← Simulation.randomAgentPerformances E
        { sim with buffer := sim.buffer.map fun _ => (0 : K) } zs
      match r with
      | none => ok none
      | some (buffer, zs) => do
        let r ← Simulation.randomTaskDurations E { sim with buffer := buffer } zs
        match r with
        | none => ok none
        | some (buffer', zs) => do
          let b ← Simulation.loop E { sim with buffer := buffer } s buffer'
          ok (some (Simulation.truncate (maxOf (sim.agentWorkEnd.elems b)), zs,
            { sim with buffer := b }))) := by
    unfold Simulation.call
    rw [expects_true (by simpa using hbne), ok_bind, expects_true (by rw [e0]; simpa using ap), ok_bind,
      expects_true (by rw [e1]; simpa using tp), ok_bind,
      expects_true (by rw [e2]; simpa using ap), ok_bind,
      expects_true (by rw [e3]; simpa using tp), ok_bind,
      expects_true (by rw [e3]; simpa using hlen), ok_bind, expects_true (by rw [e0]; rfl), ok_bind]
    rfl
  have hrp : Simulation.randomAgentPerformances E
      { sim with buffer := sim.buffer.map fun _ => (0 : K) } zs
      = ok ((pureSamples E bs zs).map fun r =>
          (writeAll (sim.buffer.map fun _ => (0 : K)) 0 r.1, r.2)) := by
    unfold Simulation.randomAgentPerformances
    rw [hs.config, expects_true (by simpa using hs.agents_ne), ok_bind,
      expects_true (by simp [e0]), ok_bind, hbs, ok_bind,
      sampleLoop_ok (fun b hb => ⟨(hbpos b hb).1, (hbpos b hb).2.le⟩) (by simp [e0]; omega)
        (by simp [e0, hs.size]; omega)]
    simp [e0]
  have hrd : ∀ b zs, b.length = sim.buffer.length →
      Simulation.randomTaskDurations E { sim with buffer := b } zs
      = ok ((pureSamples E (p.durationBounds E) zs).map fun r =>
          (writeAll b p.agents.length r.1, r.2)) := by
    intro b zs hbl
    unfold Simulation.randomTaskDurations
    rw [hs.config, expects_true (by simpa using hs.tasks_ne), ok_bind,
      expects_true (by simp [e1]), ok_bind]
    rw [show (p.tasks.map fun t => (E.ofInt t.durMin, E.ofInt t.durMax)) = p.durationBounds E from rfl,
      sampleLoop_ok (fun b hb => ⟨(hdb b hb).1, (hdb b hb).2.le⟩) (by simp [e1]; omega)
        (by simp [e1, hbl, hs.size]; omega)]
    simp [e1]
  rw [hcall, hrp, ok_bind]
  cases h1 : pureSamples E bs zs with
  | none =>
    left
    refine ⟨rfl, fun perf dur zs' rest hp' _ => ?_⟩
    rw [pureSamples_eq_some.2 hp'] at h1
    cases h1
  | some r =>
    obtain ⟨perf, zs1⟩ := r
    have s1 := pureSamples_eq_some.1 h1
    dsimp only [Option.map_some]
    rw [hrd _ _ (by simp), ok_bind]
    cases h2 : pureSamples E (p.durationBounds E) zs1 with
    | none =>
      left
      refine ⟨rfl, fun perf' dur zs' rest hp' hd' => ?_⟩
      have := pureSamples_eq_some.2 hp'
      rw [h1] at this
      cases this
      rw [pureSamples_eq_some.2 hd'] at h2
      cases h2
    | some r =>
      obtain ⟨dur, zs2⟩ := r
      have s2 := pureSamples_eq_some.1 h2
      right
      refine ⟨perf, dur, zs1, zs2, ?_⟩
      dsimp only [Option.map_some]
      generalize hB1 : writeAll (sim.buffer.map fun _ => (0 : K)) 0 perf = B1
      have lp : perf.length = p.agents.length := s1.length.trans hbsl
      have ld : dur.length = p.tasks.length := s2.length.trans hdl
      have hsz := hs.size
      have lB1 : B1.length = sim.buffer.length := by rw [← hB1]; simp
      have hz : ∀ j, p.agents.length + p.tasks.length ≤ j → j < sim.buffer.length →
          (writeAll B1 p.agents.length dur)[j]? = some 0 := by
        intro j hj hj'
        rw [writeAll_out (by omega), ← hB1, writeAll_out (by omega)]
        simp [hj']
      obtain ⟨b', g1, g2, g3, g4⟩ := simLoop_ok (E := E) (p := p)
        (sim := { sim with buffer := B1 }) (sp := sp) (perf := perf) (dur := dur)
        ⟨hs.agents_ne, hs.tasks_ne, hs.config, lB1.trans hsz, e0, e1, e2, e3⟩ hdeps hdlt
        lp ld (s1.pos fun b hb => (hbpos b hb).2) (s2.pos fun b hb => (hdb b hb).2) hfit
        (b := writeAll B1 p.agents.length dur) (f := fun _ => 0) (w := fun _ => 0)
        (by simp [lB1, hsz])
        (by
          intro i hi
          rw [e0] at hi ⊢
          dsimp only at hi ⊢
          rw [writeAll_out (by omega), ← hB1, writeAll_in (by simp; omega) (by omega),
            List.getD_eq_getElem _ _ (by omega)])
        (by
          intro i hi
          rw [e1] at hi ⊢
          dsimp only at hi ⊢
          rw [writeAll_in (by omega) (by omega), List.getD_eq_getElem _ _ (by omega)])
        (by
          intro i hi
          rw [e2] at hi ⊢
          dsimp only at hi ⊢
          exact hz _ (by omega) (by omega))
        (by
          intro i hi
          rw [e3] at hi ⊢
          dsimp only at hi ⊢
          exact hz _ (by omega) (by omega))
      refine ⟨{ sim with buffer := b' }, s1, s2, ?_⟩
      rw [g1, ok_bind]
      have := g3.elems
      rw [e2] at this
      dsimp only at this
      rw [e2, this]
      rfl

end Angonoka
