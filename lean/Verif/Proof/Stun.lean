import Verif.Proof.Temperature
import Verif.Proof.MakespanBounds
import Verif.Proof.Mutator

/-!
# The invariant of stochastic tunneling
-/

set_option linter.unusedSectionVars false

namespace Angonoka
open Outcome Stun

variable {K : Type} [Field K] [LinearOrder K] [IsStrictOrderedRing K]

/-! ### Views into the buffer -/

theorem view_write_same {t : Tunneling K} {off : Nat} {s : List Item} (hs : s.length = t.n)
    (hoff : off + t.n ≤ t.buffer.length) : (t.write off s).view off = s := by
  unfold Tunneling.write Tunneling.view
  dsimp only
  have h : (t.buffer.take off).length = off := by simp; omega
  rw [List.append_assoc, List.drop_append_of_le_length (by omega),
    List.drop_eq_nil_of_le (by omega), List.nil_append, ← hs, List.take_append_of_le_length (le_refl _), List.take_length]

theorem view_write_other {t : Tunneling K} {off off' : Nat} {s : List Item} (hs : s.length = t.n)
    (hoff : off + t.n ≤ t.buffer.length) (h : off' + t.n ≤ off ∨ off + t.n ≤ off') :
    (t.write off s).view off' = t.view off' := by
  unfold Tunneling.write Tunneling.view
  dsimp only
  apply List.ext_getElem?
  intro i
  by_cases hi : i < t.n
  · rw [List.getElem?_take_of_lt hi, List.getElem?_take_of_lt hi, List.getElem?_drop,
      List.getElem?_drop, List.append_assoc]
    have hl : (t.buffer.take off).length = off := by simp; omega
    rcases h with h | h
    · rw [List.getElem?_append_left (by omega), List.getElem?_take_of_lt (by omega)]
    · rw [List.getElem?_append_right (by omega), List.getElem?_append_right (by omega),
        List.getElem?_drop]
      congr 1
      omega
  · rw [List.getElem?_take_eq_none (by omega), List.getElem?_take_eq_none (by omega)]

theorem write_length {t : Tunneling K} {off : Nat} {s : List Item} (hs : s.length = t.n)
    (hoff : off + t.n ≤ t.buffer.length) : (t.write off s).buffer.length = t.buffer.length := by
  simp only [Tunneling.write, List.length_append, List.length_take, List.length_drop]
  omega

/-! ### STUN values -/

theorem stunFn_ok {E : FloatEnv K} {l e g : K} (hl : 0 ≤ l) (he : l ≤ e) (hg : 0 ≤ g) :
    ∃ v, stunFn E l e g = ok v ∧ 0 ≤ v ∧ v ≤ 1 ∧ 
      v = E.sub 1 (E.exp (E.mul (-g) (E.sub e l))) := by
  have h1 : 0 ≤ E.sub e l := E.rnd_nonneg (by linarith)
  have h2 : E.mul (-g) (E.sub e l) ≤ 0 := E.rnd_nonpos (by nlinarith)
  have h3 := E.exp_nonneg (E.mul (-g) (E.sub e l))
  have h4 := E.exp_le_one _ h2
  have h5 : 0 ≤ E.sub 1 (E.exp (E.mul (-g) (E.sub e l))) := E.rnd_nonneg (by linarith)
  have h6 : E.sub 1 (E.exp (E.mul (-g) (E.sub e l))) ≤ 1 := E.rnd_le_one (by linarith)
  refine ⟨_, ?_, h5, h6, rfl⟩
  unfold stunFn
  rw [expects_true (by simpa using hl), ok_bind, expects_true (by simpa using he), ok_bind]
  dsimp only
  rw [expects_true (by simpa using ⟨h5, h6⟩), ok_bind]
  rfl

/-! ### The invariant -/

/-- Value of a schedule. -/
abbrev valueOf (E : FloatEnv K) (p : ScheduleParams K) (s : List Item) : K :=
  makespanValue E p p.agentCount s

structure TunnelInv (E : FloatEnv K) (p : ScheduleParams K) (t : Tunneling K) : Prop where
  n_eq : t.n = p.taskCount
  len : t.buffer.length = 3 * p.taskCount
  best0 : t.best = 0
  views : (t.current = p.taskCount ∧ t.target = 2 * p.taskCount) ∨
    (t.current = 2 * p.taskCount ∧ t.target = p.taskCount)
  bestValid : ValidSchedule p t.bestSchedule
  curValid : ValidSchedule p t.currentSchedule
  tgtValid : t.current = 2 * p.taskCount → ValidSchedule p t.targetSchedule
  lowest : t.lowestE = valueOf E p t.bestSchedule
  le : t.lowestE ≤ t.currentE
  s0 : 0 ≤ t.currentS
  s1 : t.currentS ≤ 1
  gamma0 : 0 ≤ t.gamma

theorem ValidSchedule.ne_nil {p : ScheduleParams K} (hw : WellFormed p) {s : List Item}
    (hs : ValidSchedule p s) : s ≠ [] := by
  rintro rfl
  have := hs.length
  have := hw.tasks_pos
  simp at *
  omega

theorem isMakespan_iff {E : FloatEnv K} {p : ScheduleParams K} (hw : WellFormed p) {s : List Item}
    (hs : ValidSchedule p s) {v : K} : IsMakespan E p s v ↔ v = valueOf E p s := by
  have hnew : ∃ m, Makespan.new p = ok m := by
    unfold Makespan.new
    have h1 : p.agentPerformance ≠ [] := by
      obtain ⟨a, ha⟩ := List.exists_mem_of_ne_nil _ (hw.avail_ne 0 hw.tasks_pos)
      have := hw.avail_lt 0 hw.tasks_pos a ha
      intro h
      simp [ScheduleParams.agentCount, h] at this
    have h2 : p.taskDuration ≠ [] := by
      intro h
      have := hw.tasks_pos
      simp [ScheduleParams.taskCount, h] at this
    rw [expects_true (by simpa using h1), ok_bind, expects_true (by simpa using h2), ok_bind]
    exact ⟨_, rfl⟩
  constructor
  · rintro ⟨m, m', h1, h2⟩
    obtain ⟨m'', h3, _⟩ := call_valid (E := E) hw (.new h1) hs
    rw [h2] at h3
    cases h3
    rfl
  · rintro rfl
    obtain ⟨m, hm⟩ := hnew
    obtain ⟨m', h, _⟩ := call_valid (E := E) hw (.new hm) hs
    exact ⟨m, m', hm, h⟩

section
variable {E : FloatEnv K} {p : ScheduleParams K} {t : Tunneling K}

theorem TunnelInv.lowest_nonneg (hw : WellFormed p) (h : TunnelInv E p t) : 0 ≤ t.lowestE := by
  rw [h.lowest]
  exact makespanValue_nonneg hw h.bestValid

theorem TunnelInv.view_length (h : TunnelInv E p t) {off : Nat} (hoff : off ≤ 2 * p.taskCount) :
    (t.view off).length = p.taskCount := by
  have h1 := h.len
  have h2 := h.n_eq
  simp only [Tunneling.view, List.length_take, List.length_drop]
  omega

theorem TunnelInv.target_ne (hw : WellFormed p) (h : TunnelInv E p t) : t.targetSchedule ≠ [] := by
  intro h0
  have h1 : (t.view t.target).length = p.taskCount :=
    h.view_length (by rcases h.views with h | h <;> omega)
  have h2 : t.view t.target = [] := h0
  have := hw.tasks_pos
  rw [h2] at h1
  simp at h1
  omega

theorem TunnelInv.buffer_ne (hw : WellFormed p) (h : TunnelInv E p t) : t.buffer ≠ [] := by
  intro h0
  have := h.len
  have := hw.tasks_pos
  simp [h0] at *
  omega

/-- State after `get_new_neighbor`. -/
structure Neighbor (E : FloatEnv K) (p : ScheduleParams K) (d : Draws K) (t t₁ : Tunneling K)
    (s : List Item) : Prop where
  mutated : mutate p d t.currentSchedule = ok s
  valid : ValidSchedule p s
  target : t₁.targetSchedule = s
  current : t₁.currentSchedule = t.currentSchedule
  best : t₁.bestSchedule = t.bestSchedule
  targetE : t₁.targetE = valueOf E p s
  inv : TunnelInv E p t₁
  cur : t₁.current = t.current
  currentE : t₁.currentE = t.currentE
  lowestE : t₁.lowestE = t.lowestE
  currentS : t₁.currentS = t.currentS
  gamma : t₁.gamma = t.gamma

theorem getNewNeighbor_ok (hw : WellFormed p) (h : TunnelInv E p t) {m : Makespan K}
    (hm : MakespanShape p m) (d : Draws K) :
    ∃ m' t₁ s, getNewNeighbor E p d m t = ok (m', t₁) ∧ MakespanShape p m' ∧
      Neighbor E p d t t₁ s := by
  have hn := h.n_eq
  have hlen := h.len
  have hcl := h.curValid.length
  have hb := h.best0
  -- copy
  have htgt : t.target + t.n ≤ t.buffer.length := by rcases h.views with h | h <;> omega
  have hc1 : (t.write t.target t.currentSchedule).view t.target = t.currentSchedule :=
    view_write_same (by rw [hn]; exact hcl) htgt
  obtain ⟨s, hs, hsv⟩ := mutate_ok hw h.curValid d
  have hsl := hsv.length
  -- write the mutated schedule
  obtain ⟨t₀, ht₀⟩ : ∃ t₀, t₀ = t.write t.target t.currentSchedule := ⟨_, rfl⟩
  have hn0 : t₀.n = p.taskCount := by rw [ht₀]; exact hn
  have hlen0 : t₀.buffer.length = 3 * p.taskCount := by
    rw [ht₀, write_length (by rw [hn]; exact hcl) htgt, hlen]
  have htgt0 : t.target + t₀.n ≤ t₀.buffer.length := by rcases h.views with h | h <;> omega
  have hdisj : ∀ off, (off = 0 ∨ off = t.current) →
      off + t.n ≤ t.target ∨ t.target + t.n ≤ off := by
    intro off ho
    rcases h.views with ⟨hv1, hv2⟩ | ⟨hv1, hv2⟩ <;> rcases ho with rfl | rfl <;> omega
  have hview0 : ∀ off, (off = 0 ∨ off = t.current) → t₀.view off = t.view off := by
    intro off ho
    rw [ht₀]
    exact view_write_other (by rw [hn]; exact hcl) htgt (hdisj off ho)
  obtain ⟨t₁, ht₁⟩ : ∃ t₁, t₁ = t₀.write t.target s := ⟨_, rfl⟩
  have hlen1 : t₁.buffer.length = 3 * p.taskCount := by
    rw [ht₁, write_length (by rw [hn0]; exact hsl) htgt0, hlen0]
  have hn1 : t₁.n = p.taskCount := by rw [ht₁]; exact hn0
  have hview1 : ∀ off, (off = 0 ∨ off = t.current) → t₁.view off = t.view off := by
    intro off ho
    rw [ht₁, view_write_other (by rw [hn0]; exact hsl) htgt0 (by rw [hn0, ← hn]; exact hdisj off ho)]
    exact hview0 off ho
  have htv : t₁.view t.target = s := by
    rw [ht₁]
    exact view_write_same (by rw [hn0]; exact hsl) htgt0
  have e1 : t₁.target = t.target := by rw [ht₁, ht₀]; rfl
  have e2 : t₁.current = t.current := by rw [ht₁, ht₀]; rfl
  have e3 : t₁.best = t.best := by rw [ht₁, ht₀]; rfl
  have e4 : t₁.currentE = t.currentE := by rw [ht₁, ht₀]; rfl
  have e5 : t₁.lowestE = t.lowestE := by rw [ht₁, ht₀]; rfl
  have e6 : t₁.currentS = t.currentS := by rw [ht₁, ht₀]; rfl
  have e7 : t₁.gamma = t.gamma := by rw [ht₁, ht₀]; rfl
  have htv' : t₁.targetSchedule = s := by unfold Tunneling.targetSchedule; rw [e1, htv]
  obtain ⟨m', hm1, hm2⟩ := call_valid (E := E) hw hm hsv
  have hv0 := makespanValue_nonneg (E := E) hw hsv
  have hcur1 : t₁.currentSchedule = t.currentSchedule := by
    unfold Tunneling.currentSchedule
    rw [e2, hview1 _ (Or.inr rfl)]
  have hbest1 : t₁.bestSchedule = t.bestSchedule := by
    unfold Tunneling.bestSchedule
    rw [e3, hview1 _ (Or.inl hb)]
  refine ⟨m', { t₁ with targetE := valueOf E p s }, s, ?_, hm2, hs, hsv, htv', hcur1, hbest1, rfl,
    ?_, e2, e4, e5, e6, e7⟩
  · unfold getNewNeighbor
    rw [expects_true (by simpa using h.curValid.ne_nil hw), ok_bind,
      expects_true (by simpa using h.target_ne hw), ok_bind]
    have hc1' : (t.write t.target t.currentSchedule).targetSchedule = t.currentSchedule := hc1
    dsimp only
    rw [hc1', hs, ok_bind]
    have ht1' : (t.write t.target t.currentSchedule).write
      (t.write t.target t.currentSchedule).target s = t₁ := by
      rw [ht₁, ht₀]
      rfl
    rw [ht1', htv', hm1, ok_bind]
    dsimp only
    rw [expects_true (by simpa using hv0), ok_bind]
    rfl
  · refine ⟨hn1, hlen1, e3.trans hb, by dsimp only; rw [e1, e2]; exact h.views, ?_, ?_, ?_, ?_, ?_,
      ?_, ?_, ?_⟩
    · change ValidSchedule p t₁.bestSchedule
      rw [hbest1]; exact h.bestValid
    · change ValidSchedule p t₁.currentSchedule
      rw [hcur1]; exact h.curValid
    · intro _
      change ValidSchedule p t₁.targetSchedule
      rw [htv']; exact hsv
    · change t₁.lowestE = valueOf E p t₁.bestSchedule
      rw [e5, hbest1]; exact h.lowest
    · change t₁.lowestE ≤ t₁.currentE
      rw [e4, e5]; exact h.le
    · change 0 ≤ t₁.currentS
      rw [e6]; exact h.s0
    · change t₁.currentS ≤ 1
      rw [e6]; exact h.s1
    · change 0 ≤ t₁.gamma
      rw [e7]; exact h.gamma0

/-- Swapping the views when the target holds a valid schedule. -/
theorem TunnelInv.swap (h : TunnelInv E p t) (ht : ValidSchedule p t.targetSchedule) {e s : K}
    (he : t.lowestE ≤ e) (hs0 : 0 ≤ s) (hs1 : s ≤ 1) :
    TunnelInv E p { t.swapViews with currentE := e, currentS := s } where
  n_eq := h.n_eq
  len := h.len
  best0 := h.best0
  views := by
    rcases h.views with h | h
    · exact Or.inr ⟨h.2, h.1⟩
    · exact Or.inl ⟨h.2, h.1⟩
  bestValid := h.bestValid
  curValid := ht
  tgtValid _ := h.curValid
  lowest := h.lowest
  le := he
  s0 := hs0
  s1 := hs1
  gamma0 := h.gamma0

/-- `neighbor_is_better` after `get_new_neighbor`. -/
theorem neighborIsBetter_ok (hw : WellFormed p) (h : TunnelInv E p t)
    (ht : ValidSchedule p t.targetSchedule)
    (hte : t.targetE = valueOf E p t.targetSchedule) :
    ∃ b t', neighborIsBetter E t = ok (b, t') ∧ TunnelInv E p t' ∧ t'.targetE = t.targetE ∧
      t'.gamma = t.gamma ∧
      (b = false → t' = t ∧ t.currentE ≤ t.targetE) ∧
      (b = true → t'.currentSchedule = t.targetSchedule ∧ t'.currentE = t.targetE ∧
        t.targetE < t.currentE ∧
        (t.targetE < t.lowestE → t'.bestSchedule = t.targetSchedule ∧
          t'.currentS = E.sub 1 (E.exp (E.mul (-t.gamma) (E.sub t.currentE t.targetE)))) ∧
        (¬ t.targetE < t.lowestE → t'.bestSchedule = t.bestSchedule ∧ t'.currentS = t.currentS)) ∧
      t'.lowestE = min t.lowestE t.targetE := by
  have h0 : 0 ≤ t.targetE := by rw [hte]; exact makespanValue_nonneg hw ht
  have hl0 := h.lowest_nonneg hw
  have hc0 := hl0.trans h.le
  unfold neighborIsBetter
  rw [expects_true (by simpa using h0), ok_bind, expects_true (by simpa using hc0), ok_bind,
    expects_true (by simpa using hl0), ok_bind, expects_true (by simpa using h.le), ok_bind,
    expects_true (by simpa using h.target_ne hw), ok_bind,
    expects_true (by simpa using h.curValid.ne_nil hw), ok_bind,
    expects_true (by simpa using h.bestValid.ne_nil hw), ok_bind]
  by_cases hlt : t.targetE < t.currentE
  · rw [if_pos hlt]
    by_cases hlow : t.targetE < t.lowestE
    · rw [if_pos hlow]
      obtain ⟨t₁, ht₁⟩ : ∃ t₁, t₁ = ({ t with lowestE := t.targetE } : Tunneling K).write t.best
        t.targetSchedule := ⟨_, rfl⟩
      have hn := h.n_eq
      have hlen := h.len
      have hb := h.best0
      have htl := ht.length
      have hcond : t.best + ({ t with lowestE := t.targetE } : Tunneling K).n
          ≤ ({ t with lowestE := t.targetE } : Tunneling K).buffer.length := by
        dsimp only
        omega
      have hbv : t₁.bestSchedule = t.targetSchedule := by
        rw [ht₁]
        exact view_write_same (by rw [htl]; exact hn.symm) hcond
      have hother : ∀ off, p.taskCount ≤ off → t₁.view off = t.view off := by
        intro off ho
        rw [ht₁, view_write_other (by rw [htl]; exact hn.symm) hcond (Or.inr (by dsimp only; omega))]
        rfl
      have hcge : p.taskCount ≤ t.current := by rcases h.views with h | h <;> omega
      have htge : p.taskCount ≤ t.target := by rcases h.views with h | h <;> omega
      have hcv : t₁.currentSchedule = t.currentSchedule := by
        have : t₁.current = t.current := by rw [ht₁]; rfl
        unfold Tunneling.currentSchedule
        rw [this, hother _ hcge]
      have htv : t₁.targetSchedule = t.targetSchedule := by
        have : t₁.target = t.target := by rw [ht₁]; rfl
        unfold Tunneling.targetSchedule
        rw [this, hother _ htge]
      have hinv : TunnelInv E p t₁ := by
        refine ⟨?_, ?_, ?_, ?_, ?_, ?_, ?_, ?_, ?_, ?_, ?_, ?_⟩
        · rw [ht₁]; exact hn
        · rw [ht₁, write_length (by rw [htl]; exact hn.symm) hcond]; exact hlen
        · rw [ht₁]; exact hb
        · rw [ht₁]; exact h.views
        · rw [hbv]; exact ht
        · rw [hcv]; exact h.curValid
        · intro _; rw [htv]; exact ht
        · rw [hbv, ← hte, ht₁]; rfl
        · rw [ht₁]; exact hlt.le
        · rw [ht₁]; exact h.s0
        · rw [ht₁]; exact h.s1
        · rw [ht₁]; exact h.gamma0
      obtain ⟨v, hv, hv0, hv1, hveq⟩ := stunFn_ok (E := E) h0 hlt.le h.gamma0
      dsimp only
      have e0 : t₁.lowestE = t.targetE := by rw [ht₁]; rfl
      have e1 : t₁.currentE = t.currentE := by rw [ht₁]; rfl
      have e2 : t₁.gamma = t.gamma := by rw [ht₁]; rfl
      have e3 : t₁.targetE = t.targetE := by rw [ht₁]; rfl
      have htv2 : ({ t with lowestE := t.targetE } : Tunneling K).targetSchedule
        = t.targetSchedule := rfl
      rw [htv2, ← ht₁, e0, e1, e2, hv, ok_bind]
      refine ⟨true, { t₁.swapViews with currentE := t.targetE, currentS := v }, ?_,
        hinv.swap (by rw [htv]; exact ht) (by rw [e0]) hv0 hv1, e3, e2, by simp, ?_, ?_⟩
      · simp [Tunneling.swapViews, e3, e0, e2]
      · intro _
        refine ⟨?_, rfl, hlt, fun _ => ⟨?_, hveq⟩, fun hn => absurd hlow hn⟩
        · rw [← htv]; rfl
        · rw [← hbv]; rfl
      · change t₁.lowestE = _
        rw [e0, min_eq_right hlow.le]
    · rw [if_neg hlow]
      have hle := not_lt.1 hlow
      refine ⟨true, { t.swapViews with currentE := t.targetE, currentS := t.currentS }, ?_,
        h.swap ht hle h.s0 h.s1, rfl, rfl, by simp, ?_, ?_⟩
      · simp [Tunneling.swapViews]
      · intro _
        exact ⟨rfl, rfl, hlt, fun hn => absurd hn hlow, fun _ => ⟨rfl, rfl⟩⟩
      · exact (min_eq_left hle).symm
  · rw [if_neg hlt]
    have hle := not_lt.1 hlt
    exact ⟨false, t, rfl, h, rfl, rfl, fun _ => ⟨rfl, hle⟩, by simp, (min_eq_left (h.le.trans hle)).symm⟩

theorem performStun_ok (hw : WellFormed p) (h : TunnelInv E p t)
    (ht : ValidSchedule p t.targetSchedule) (hle : t.currentE ≤ t.targetE)
    {temp : Temperature K} {beta : K} {period : Nat} (htemp : TempInv beta period temp)
    (hbeta : SmallBeta E beta) (d : Draws K) :
    ∃ temp' t', performStun E d temp t = ok (temp', t') ∧ TunnelInv E p t' ∧
      TempInv beta period temp' ∧ t'.targetE = t.targetE ∧ t'.lowestE = t.lowestE ∧
      t'.bestSchedule = t.bestSchedule ∧
      ((t'.currentSchedule = t.targetSchedule ∧ t'.currentE = t.targetE ∧
          t'.currentS = E.sub 1 (E.exp (E.mul (-t.gamma) (E.sub t.targetE t.lowestE)))) ∨
        (t'.currentSchedule = t.currentSchedule ∧ t'.currentE = t.currentE ∧
          t'.currentS = t.currentS)) ∧ t'.gamma = t.gamma := by
  have hl0 := h.lowest_nonneg hw
  have hlt := h.le.trans hle
  have h0 : 0 ≤ t.targetE := hl0.trans hlt
  obtain ⟨v, hv, hv0, hv1, hveq⟩ := stunFn_ok (E := E) hl0 hlt h.gamma0
  unfold performStun
  rw [expects_true (by simpa using h0), ok_bind, expects_true (by simpa using hl0), ok_bind,
    expects_true (by simpa using h.s0), ok_bind, expects_true (by simpa using h.target_ne hw), ok_bind,
    expects_true (by simpa using h.curValid.ne_nil hw), ok_bind, hv, ok_bind]
  dsimp only
  split
  · obtain ⟨temp', htu⟩ := htemp.update_ok (E := E) hbeta hv0
    have hsw := h.swap ht hlt hv0 hv1
    refine ⟨temp', { t.swapViews with currentE := t.targetE, currentS := v, targetS := v },
      ?_, ⟨hsw.n_eq, hsw.len, hsw.best0, hsw.views, hsw.bestValid, hsw.curValid, hsw.tgtValid,
        hsw.lowest, hsw.le, hsw.s0, hsw.s1, hsw.gamma0⟩, htemp.update htu, rfl, rfl, rfl,
        Or.inl ⟨rfl, rfl, hveq⟩, rfl⟩
    rw [show (temp.update E (({ t with targetS := v } : Tunneling K).swapViews).targetS)
      = ok temp' from htu, ok_bind]
    simp only [pure_eq, ok_bind, Tunneling.swapViews]
    rw [expects_true (decide_eq_true hv0), ok_bind,
      expects_true (decide_eq_true hv0), ok_bind]
  · refine ⟨temp, { t with targetS := v }, ?_, ⟨h.n_eq, h.len, h.best0, h.views, h.bestValid,
      h.curValid, h.tgtValid, h.lowest, h.le, h.s0, h.s1, h.gamma0⟩, htemp, rfl, rfl, rfl,
      Or.inr ⟨rfl, rfl, rfl⟩, rfl⟩
    simp only [pure_eq, ok_bind]
    rw [expects_true (by simpa using hv0), ok_bind, expects_true (by simpa using h.s0), ok_bind]

/-- Everything about one update. -/
structure Updated (E : FloatEnv K) (p : ScheduleParams K) (d : Draws K) (t t' : Tunneling K)
    (s : List Item) : Prop where
  mutated : mutate p d t.currentSchedule = ok s
  valid : ValidSchedule p s
  inv : TunnelInv E p t'
  targetE : t'.targetE = valueOf E p s
  lowestE : t'.lowestE = min t.lowestE (valueOf E p s)
  current : (t'.currentSchedule = s ∧ t'.currentE = valueOf E p s) ∨
    (t'.currentSchedule = t.currentSchedule ∧ t'.currentE = t.currentE)
  stun : t.currentE ≤ valueOf E p s →
    (t'.currentE = valueOf E p s ∧
      t'.currentS = E.sub 1 (E.exp (E.mul (-t.gamma) (E.sub t'.currentE t.lowestE)))) ∨
    (t'.currentE = t.currentE ∧ t'.currentS = t.currentS)
  gamma : t'.gamma = t.gamma
  best : t'.bestSchedule = s ∨ t'.bestSchedule = t.bestSchedule

theorem tunnelingUpdate_ok (hw : WellFormed p) (h : TunnelInv E p t) {m : Makespan K}
    (hm : MakespanShape p m) {temp : Temperature K} {beta : K} {period : Nat}
    (htemp : TempInv beta period temp) (hbeta : SmallBeta E beta) (d : Draws K) :
    ∃ m' temp' t' s, tunnelingUpdate E p d m temp t = ok (m', temp', t') ∧ MakespanShape p m' ∧
      TempInv beta period temp' ∧ Updated E p d t t' s := by
  obtain ⟨m', t₁, s, h1, h2, hN⟩ := getNewNeighbor_ok hw h hm d
  have htv : ValidSchedule p t₁.targetSchedule := by rw [hN.target]; exact hN.valid
  obtain ⟨b, t₂, h3, h4, h5, hgam, h6, h7, h8⟩ := neighborIsBetter_ok (E := E) hw hN.inv htv
    (by rw [hN.target]; exact hN.targetE)
  unfold tunnelingUpdate
  rw [expects_true (by simpa using h.buffer_ne hw), ok_bind,
    expects_true (by simpa using h.curValid.ne_nil hw), ok_bind, h1, ok_bind]
  dsimp only
  rw [h3, ok_bind]
  cases b with
  | true =>
    dsimp only
    rw [if_pos rfl]
    obtain ⟨h9, h10, h11, h12, h13⟩ := h7 rfl
    refine ⟨m', temp, t₂, s, rfl, h2, htemp, hN.mutated, hN.valid, h4, by rw [h5, hN.targetE], ?_,
      Or.inl ⟨by rw [h9, hN.target], by rw [h10, hN.targetE]⟩, ?_, hgam.trans hN.gamma, ?_⟩
    · rw [h8, hN.lowestE, hN.targetE]
    · intro hle
      rw [hN.targetE, hN.currentE] at h11
      exact absurd h11 (not_lt.2 hle)
    · by_cases hlow : t₁.targetE < t₁.lowestE
      · exact Or.inl (by rw [(h12 hlow).1, hN.target])
      · exact Or.inr (by rw [(h13 hlow).1, hN.best])
  | false =>
    obtain ⟨rfl, hle⟩ := h6 rfl
    dsimp only
    rw [if_neg (by simp)]
    obtain ⟨temp', t₃, g1, g2, g3, g4, g5, g8, g6, g9⟩ := performStun_ok (E := E) hw hN.inv htv hle
      htemp hbeta d
    rw [g1, ok_bind]
    refine ⟨m', temp', t₃, s, rfl, h2, g3, hN.mutated, hN.valid, g2, by rw [g4, hN.targetE], ?_, ?_,
      ?_, g9.trans hN.gamma, Or.inr (by rw [g8, hN.best])⟩
    · rw [g5, h8, hN.lowestE, hN.targetE]
    · rcases g6 with ⟨g6, g7, _⟩ | ⟨g6, g7, _⟩
      · exact Or.inl ⟨by rw [g6, hN.target], by rw [g7, hN.targetE]⟩
      · exact Or.inr ⟨by rw [g6, hN.current], by rw [g7, hN.currentE]⟩
    · intro _
      rcases g6 with ⟨_, g6, g7⟩ | ⟨_, g6, g7⟩
      · refine Or.inl ⟨by rw [g6, hN.targetE], ?_⟩
        rw [g7, g6, hN.gamma, hN.lowestE]
      · exact Or.inr ⟨by rw [g6, hN.currentE], by rw [g7, hN.currentS]⟩

theorem prepareSchedules_ok {n : Nat} (hn : 0 < n) :
    ∃ t', prepareSchedules t n = ok t' ∧ t'.buffer.length = 3 * n ∧ t'.n = n ∧ t'.best = 0 ∧
      t'.current = n ∧ t'.target = 2 * n ∧ t'.gamma = t.gamma ∧
      t'.currentE = t.currentE ∧ t'.lowestE = t.lowestE ∧ t'.targetE = t.targetE ∧
      t'.currentS = t.currentS ∧ t'.targetS = t.targetS ∧
      (t.buffer.length = 3 * n → t'.buffer = t.buffer) := by
  unfold prepareSchedules
  rw [expects_true (by simpa using hn), ok_bind]
  refine ⟨_, rfl, ?_, rfl, rfl, rfl, rfl, rfl, rfl, rfl, rfl, rfl, rfl, ?_⟩
  · simp
    omega
  · intro h
    dsimp only
    rw [show n * 3 - t.buffer.length = 0 by omega, List.replicate_zero, List.append_nil,
      List.take_of_length_le (by omega)]

theorem tunnelingReset_ok (hw : WellFormed p) (hg : 0 ≤ t.gamma) {m : Makespan K}
    (hm : MakespanShape p m) {s : List Item} (hs : ValidSchedule p s) :
    ∃ m' t', tunnelingReset E m t s = ok (m', t') ∧ MakespanShape p m' ∧ TunnelInv E p t' ∧
      t'.bestSchedule = s ∧ t'.currentSchedule = s ∧ t'.lowestE = valueOf E p s ∧
      t'.currentE = valueOf E p s ∧ t'.gamma = t.gamma ∧
      t'.currentS = E.sub 1 (E.exp (E.mul (-t'.gamma) (E.sub t'.currentE t'.lowestE))) := by
  have hsl := hs.length
  have hpos := hw.tasks_pos
  obtain ⟨t₁, h1, hlen, hn, hb, hc, htg, hgam, _⟩ := prepareSchedules_ok (t := t) (n := s.length)
    (by omega)
  unfold tunnelingReset
  rw [expects_true (by simpa using hs.ne_nil hw), ok_bind, h1, ok_bind]
  have hvl : ∀ off, off ≤ 2 * s.length → (t₁.view off).length = s.length := by
    intro off ho
    simp only [Tunneling.view, List.length_take, List.length_drop]
    omega
  obtain ⟨t₂, ht₂⟩ : ∃ t₂, t₂ = t₁.write 0 s := ⟨_, rfl⟩
  obtain ⟨t₃, ht₃⟩ : ∃ t₃, t₃ = t₂.write s.length s := ⟨_, rfl⟩
  have h2 : initSchedules t₁ s = ok t₃ := by
    unfold initSchedules
    rw [expects_true, ok_bind, expects_true, ok_bind, expects_true, ok_bind]
    · dsimp only
      rw [hb, ← ht₂, show t₂.current = s.length by rw [ht₂]; exact hc, ← ht₃]
      rfl
    · simpa using hs.ne_nil hw
    · simp only [Tunneling.currentSchedule, beq_iff_eq]
      rw [hvl _ (by omega)]
    · simp only [Tunneling.bestSchedule, beq_iff_eq]
      rw [hvl _ (by omega)]
  rw [h2, ok_bind]
  have hn2 : t₂.n = s.length := by rw [ht₂]; exact hn
  have hlen2 : t₂.buffer.length = 3 * s.length := by
    rw [ht₂, write_length hn.symm (by omega), hlen]
  have hbest3 : t₃.bestSchedule = s := by
    unfold Tunneling.bestSchedule
    rw [show t₃.best = 0 by rw [ht₃, ht₂]; exact hb, ht₃,
      view_write_other hn2.symm (by omega) (Or.inl (by omega)), ht₂]
    exact view_write_same hn.symm (by omega)
  have hcur3 : t₃.currentSchedule = s := by
    unfold Tunneling.currentSchedule
    rw [show t₃.current = s.length by rw [ht₃, ht₂]; exact hc, ht₃]
    exact view_write_same hn2.symm (by omega)
  have hlen3 : t₃.buffer.length = 3 * s.length := by
    rw [ht₃, write_length hn2.symm (by omega), hlen2]
  obtain ⟨m', hm1, hm2⟩ := call_valid (E := E) hw hm hs
  have hv0 := makespanValue_nonneg (E := E) hw hs
  have hg3 : t₃.gamma = t.gamma := by rw [ht₃, ht₂]; exact hgam
  obtain ⟨v, hv, hvv0, hvv1, hveq⟩ := stunFn_ok (E := E) (l := valueOf E p s) (e := valueOf E p s)
    (g := t₃.gamma) hv0 le_rfl (by rw [hg3]; exact hg)
  unfold initEnergies
  rw [hcur3, expects_true (by simpa using hs.ne_nil hw), ok_bind, hm1, ok_bind]
  dsimp only
  rw [hv, ok_bind]
  rw [expects_true (by simpa using hv0), ok_bind, expects_true (by simpa using hv0), ok_bind,
    expects_true (by simpa using ⟨hvv0, hvv1⟩), ok_bind]
  refine ⟨m', _, rfl, hm2, ?_, hbest3, hcur3, rfl, rfl, hg3, hveq⟩
  refine ⟨?_, ?_, ?_, ?_, ?_, ?_, ?_, ?_, le_rfl, hvv0, hvv1, ?_⟩
  · rw [← hsl, ← hn2, ht₃]; rfl
  · rw [← hsl]; exact hlen3
  · change t₃.best = 0
    rw [ht₃, ht₂]; exact hb
  · left
    change t₃.current = _ ∧ t₃.target = _
    rw [← hsl, ht₃, ht₂]
    exact ⟨hc, htg⟩
  · change ValidSchedule p t₃.bestSchedule
    rw [hbest3]; exact hs
  · change ValidSchedule p t₃.currentSchedule
    rw [hcur3]; exact hs
  · intro habs
    have : t₃.current = s.length := by rw [ht₃, ht₂]; exact hc
    have habs' : t₃.current = 2 * p.taskCount := habs
    omega
  · change valueOf E p s = valueOf E p t₃.bestSchedule
    rw [hbest3]
  · change 0 ≤ t₃.gamma
    rw [hg3]; exact hg

theorem Tunneling.copy_ok (hw : WellFormed p) (h : TunnelInv E p t) :
    ∃ t', t.copy = ok t' ∧ TunnelInv E p t' ∧ t'.bestSchedule = t.bestSchedule ∧
      t'.lowestE = t.lowestE ∧ t'.currentE = t.currentE ∧ t'.currentS = t.currentS ∧
      t'.gamma = t.gamma ∧
      (t.current = p.taskCount → t'.currentSchedule = t.currentSchedule) ∧
      (t.current ≠ p.taskCount → t'.currentSchedule = t.targetSchedule) := by
  have hbl := h.bestValid.length
  have hpos := hw.tasks_pos
  obtain ⟨t', h1, hlen, hn, hb, hc, htg, hgam, hce, hle, _, hcs, _, hbuf⟩ :=
    prepareSchedules_ok (t := t) (n := t.bestSchedule.length) (by omega)
  have hbuf' := hbuf (by rw [hbl]; exact h.len)
  have hview : ∀ off, t'.view off = t.view off := by
    intro off
    unfold Tunneling.view
    rw [hbuf', hn, hbl, h.n_eq]
  have hbest : t'.bestSchedule = t.bestSchedule := by
    unfold Tunneling.bestSchedule
    rw [hb, h.best0, hview]
  have hcur1 : t.current = p.taskCount → t'.currentSchedule = t.currentSchedule := by
    intro h0
    unfold Tunneling.currentSchedule
    rw [hc, h0, hview, hbl]
  have hcur2 : t.current ≠ p.taskCount → t'.currentSchedule = t.targetSchedule := by
    intro h0
    have : t.target = p.taskCount := by
      rcases h.views with h | h
      · exact absurd h.1 h0
      · exact h.2
    unfold Tunneling.currentSchedule Tunneling.targetSchedule
    rw [hc, this, hview, hbl]
  refine ⟨t', ?_, ?_, hbest, hle, hce, hcs, hgam, hcur1, hcur2⟩
  · unfold Tunneling.copy
    rw [if_pos (by simpa using h.bestValid.ne_nil hw), h1]
  · refine ⟨by rw [hn, hbl], by rw [hlen, hbl], hb, Or.inl ⟨by rw [hc, hbl], by rw [htg, hbl]⟩, ?_, ?_,
      ?_, ?_, ?_, ?_, ?_, ?_⟩
    · rw [hbest]; exact h.bestValid
    · by_cases h0 : t.current = p.taskCount
      · rw [hcur1 h0]; exact h.curValid
      · rw [hcur2 h0]
        apply h.tgtValid
        rcases h.views with h | h
        · exact absurd h.1 h0
        · exact h.1
    · intro h0
      rw [hc] at h0
      omega
    · rw [hle, hbest]; exact h.lowest
    · rw [hle, hce]; exact h.le
    · rw [hcs]; exact h.s0
    · rw [hcs]; exact h.s1
    · rw [hgam]; exact h.gamma0

end

theorem TunnelingFor.inv {E : FloatEnv K} {p : ScheduleParams K} (hw : WellFormed p)
    {t : Tunneling K} (h : TunnelingFor E p t) : TunnelInv E p t := by
  induction h with
  | new hm hg hs h =>
    obtain ⟨m', t', h1, _, h2, _⟩ := tunnelingReset_ok (E := E) (t := Tunneling.blank _) hw hg
      hm.shape hs
    unfold Tunneling.new at h
    rw [expects_true (by simpa using hs.ne_nil hw), ok_bind, h1] at h
    cases h
    exact h2
  | update _ he h ih =>
    obtain ⟨beta, period, hb, htemp⟩ := he.temperature
    obtain ⟨m', temp', t', s, h1, _, _, h2⟩ := tunnelingUpdate_ok hw ih he.estimator.shape htemp.inv hb _
    rw [h1] at h
    cases h
    exact h2.inv
  | reset _ hm hs h ih =>
    obtain ⟨m', t', h1, _, h2, _⟩ := tunnelingReset_ok (E := E) hw ih.gamma0 hm.shape hs
    rw [h1] at h
    cases h
    exact h2
  | copy _ h ih =>
    obtain ⟨t', h1, h2, _⟩ := Tunneling.copy_ok hw ih
    rw [h1] at h
    cases h
    exact h2
  | setGamma _ hg ih =>
    exact ⟨ih.n_eq, ih.len, ih.best0, ih.views, ih.bestValid, ih.curValid, ih.tgtValid, ih.lowest,
      ih.le, ih.s0, ih.s1, hg⟩

theorem normalizedMakespan_eq {E : FloatEnv K} {p : ScheduleParams K} (hp : WellFormed p)
    {t : Tunneling K} (hi : TunnelInv E p t) : t.normalizedMakespan = ok t.lowestE := by
  unfold Tunneling.normalizedMakespan
  rw [expects_true (by simpa using hi.buffer_ne hp), ok_bind]
  rfl

theorem schedule_eq {E : FloatEnv K} {p : ScheduleParams K} (hp : WellFormed p)
    {t : Tunneling K} (hi : TunnelInv E p t) : t.schedule = ok t.bestSchedule := by
  unfold Tunneling.schedule
  rw [expects_true (by simpa using hi.buffer_ne hp), ok_bind,
    expects_true (by simpa using hi.bestValid.ne_nil hp), ok_bind]
  rfl

end Angonoka
