import Verif.Model.Progress
import Verif.Spec.Progress
import Verif.Props.Files
import Mathlib.Tactic.Linarith
import Mathlib.Tactic.NormNum

/-!
# C88: the progress display
-/

set_option linter.unusedSectionVars false

namespace Angonoka.Props
open Angonoka Outcome Progress

variable {K : Type} [Field K] [LinearOrder K] [IsStrictOrderedRing K] {E : FloatEnv K}

/-- C88, the bar: on every terminal but those of 5 to 8 columns there is a bar, and it leaves nine columns of the terminal (of 50 columns if the
terminal has fewer than 5 or there is none). Missing: narrow terminals (`narrow_terminal_aborts`). -/
theorem bar_width_partial {columns : Nat} (h : columns < 5 ∨ 9 ≤ columns) :
    ∃ w : Nat, choose true columns = ok (some w) ∧ (w : Int) + 9 = if columns < 5 then 50 else (columns : Int) := by
  unfold choose barWidth terminalWidth
  rcases h with h | h
  · refine ⟨41, ?_, ?_⟩
    · rw [if_pos rfl, if_pos h]
      rfl
    · rw [if_pos h]
      norm_num
  · refine ⟨columns - 9, ?_, ?_⟩
    · rw [if_pos rfl, if_neg (c := columns < 5) (by omega), if_pos (by omega)]
      have : ((columns : Int) - 9).toNat = columns - 9 := by omega
      rw [this]
      rfl
    · rw [if_neg (by omega)]
      omega

/-- Exactly on the narrow ones there is none. -/
theorem bar_none {columns : Nat} (h5 : 5 ≤ columns) (h8 : columns ≤ 8) : choose true columns = throws .system := by
  unfold choose barWidth terminalWidth
  rw [if_pos rfl, if_neg (c := columns < 5) (by omega), if_neg (by omega)]
  rfl

theorem updates_from {hundredths : K → Int} (hr : ∀ x, |(hundredths x : K) - x| ≤ 1 / 2) (h100 : E.rnd 100 = 100) {message : String} :
    ∀ {us : List (Int × K)} {t : Text}, (us.map Prod.fst).Pairwise (· ≤ ·) → (∀ u ∈ us, t.lastUpdate ≤ u.1) →
      (∀ u ∈ us, 0 ≤ u.2 ∧ u.2 ≤ 1) →
      ∃ t' lines, t.updates E hundredths message us = ok t' ∧ t'.lines = t.lines ++ lines ∧
        (lines.map Prod.fst).Pairwise (fun a b => a + 1000000000 ≤ b) ∧
        (∀ l ∈ lines, t.lastUpdate + 1000000000 ≤ l.1) ∧
        (∀ u ∈ us, u.1 < t.lastUpdate + 1000000000 ∨ ∃ l ∈ lines, l.1 ≤ u.1 ∧ u.1 < l.1 + 1000000000) ∧
        (∀ l ∈ lines, ∃ u ∈ us, u.1 = l.1 ∧ ∃ h : Nat, h ≤ 10000 ∧ l.2 = progressLine message h ∧
          |(h : K) - 100 * E.rnd (100 * u.2)| ≤ 1 / 2)
  | [], t, _, _, _ => ⟨t, [], rfl, by simp, by simp, by simp, by simp, by simp⟩
  | (now, p) :: us, t, hs, hl, hp => by
    have hs' : (us.map Prod.fst).Pairwise (· ≤ ·) := (List.pairwise_cons.1 hs).2
    have hge : ∀ u ∈ us, now ≤ u.1 := fun u hu => (List.pairwise_cons.1 hs).1 _ (List.mem_map_of_mem hu)
    have hp' : ∀ u ∈ us, 0 ≤ u.2 ∧ u.2 ≤ 1 := fun u hu => hp u (List.mem_cons_of_mem _ hu)
    obtain ⟨p0, p1⟩ := hp (now, p) (List.mem_cons_self ..)
    dsimp only at p0 p1
    have hn : t.lastUpdate ≤ now := hl (now, p) (List.mem_cons_self ..)
    unfold Text.updates Text.update
    rw [expects_true (by simp [p0, p1]), ok_bind]
    by_cases hlt : now - t.lastUpdate < 1000000000
    · rw [if_pos hlt, pure_eq, ok_bind]
      obtain ⟨t', lines, h1, h2, h3, h4, h5, h6⟩ := updates_from hr h100 (message := message) hs'
        (fun u hu => hl u (List.mem_cons_of_mem _ hu)) hp'
      refine ⟨t', lines, h1, h2, h3, h4, ?_, ?_⟩
      · intro u hu
        rcases List.mem_cons.1 hu with rfl | hu
        · left
          dsimp only
          omega
        · exact h5 u hu
      · intro l hl'
        obtain ⟨u, hu, h⟩ := h6 l hl'
        exact ⟨u, List.mem_cons_of_mem _ hu, h⟩
    · rw [if_neg hlt, pure_eq, ok_bind]
      obtain ⟨t', lines, h1, h2, h3, h4, h5, h6⟩ := updates_from hr h100 (message := message)
        (t := { lastUpdate := now,
                lines := t.lines ++ [(now, message ++ ": " ++ percentText hundredths (E.mul p (E.rnd 100)) ++ "\n")] })
        hs' hge hp'
      dsimp only at h2 h4 h5
      refine ⟨t', (now, message ++ ": " ++ percentText hundredths (E.mul p (E.rnd 100)) ++ "\n") :: lines, h1, ?_, ?_, ?_, ?_, ?_⟩
      · rw [h2]
        simp
      · rw [List.map_cons, List.pairwise_cons]
        refine ⟨?_, h3⟩
        intro b hb
        obtain ⟨l, hl', rfl⟩ := List.mem_map.1 hb
        exact h4 l hl'
      · intro l hl'
        rcases List.mem_cons.1 hl' with rfl | hl'
        · dsimp only
          omega
        · have := h4 l hl'
          omega
      · intro u hu
        right
        rcases List.mem_cons.1 hu with rfl | hu
        · exact ⟨_, List.mem_cons_self .., le_rfl, by dsimp only; omega⟩
        · rcases h5 u hu with h | ⟨l, hl', h⟩
          · exact ⟨_, List.mem_cons_self .., hge u hu, h⟩
          · exact ⟨l, List.mem_cons_of_mem _ hl', h⟩
      · intro l hl'
        rcases List.mem_cons.1 hl' with rfl | hl'
        · refine ⟨(now, p), List.mem_cons_self .., rfl, ?_⟩
          have hm : E.mul p (E.rnd 100) = E.rnd (100 * p) := by
            unfold FloatEnv.mul
            rw [h100, mul_comm]
          dsimp only
          rw [hm]
          have x0 : 0 ≤ E.rnd (100 * p) := E.rnd_nonneg (by linarith)
          have x1 : E.rnd (100 * p) ≤ 100 := by
            have := E.rnd_mono (by linarith : 100 * p ≤ 100)
            rwa [h100] at this
          have hd := abs_le.1 (hr (100 * E.rnd (100 * p)))
          have y0 : 0 ≤ hundredths (100 * E.rnd (100 * p)) := by
            have : ((-1 : Int) : K) < hundredths (100 * E.rnd (100 * p)) := by push_cast; linarith [hd.1]
            have := Int.cast_lt.1 this
            omega
          have y1 : hundredths (100 * E.rnd (100 * p)) ≤ 10000 := by
            have : (hundredths (100 * E.rnd (100 * p)) : K) < ((10001 : Int) : K) := by push_cast; linarith [hd.2]
            have := Int.cast_lt.1 this
            omega
          refine ⟨(hundredths (100 * E.rnd (100 * p))).toNat, by omega, rfl, ?_⟩
          have hc : (((hundredths (100 * E.rnd (100 * p))).toNat : Nat) : K) = (hundredths (100 * E.rnd (100 * p)) : K) := by
            rw [← Int.cast_natCast, Int.toNat_of_nonneg y0]
          rw [hc]
          exact hr _
        · obtain ⟨u, hu, h⟩ := h6 l hl'
          exact ⟨u, List.mem_cons_of_mem _ hu, h⟩

/-- C88, text: whatever updates come, in the order of the clock and with progress from 0 to 1, no contract is violated;
lines are at least a second apart; of every update something is shown that is less than a second old; and every line shows the progress of an
update at its time, to the nearest hundredth of a percent, a number from 0.00 to 100.00. (At the first update the clock has run for a second or more.) -/
theorem text_progress {hundredths : K → Int} (hr : ∀ x, |(hundredths x : K) - x| ≤ 1 / 2) (h100 : E.rnd 100 = 100) {message : String}
    {us : List (Int × K)} (hs : (us.map Prod.fst).Pairwise (· ≤ ·)) (hstart : ∀ u ∈ us, 1000000000 ≤ u.1) (hp : ∀ u ∈ us, 0 ≤ u.2 ∧ u.2 ≤ 1) :
    ∃ t : Text, ({} : Text).updates E hundredths message us = ok t ∧
      (t.lines.map Prod.fst).Pairwise (fun a b => a + 1000000000 ≤ b) ∧
      (∀ u ∈ us, ∃ l ∈ t.lines, l.1 ≤ u.1 ∧ u.1 < l.1 + 1000000000) ∧
      (∀ l ∈ t.lines, ∃ u ∈ us, u.1 = l.1 ∧ ∃ h : Nat, h ≤ 10000 ∧ l.2 = progressLine message h ∧
        |(h : K) - 100 * E.rnd (100 * u.2)| ≤ 1 / 2) := by
  obtain ⟨t, lines, h1, h2, h3, -, h5, h6⟩ := updates_from (E := E) hr h100 (message := message) (t := {}) hs
    (fun u hu => by have := hstart u hu; dsimp only; omega) hp
  have h2 : t.lines = lines := by rw [h2]; rfl
  refine ⟨t, h1, h2 ▸ h3, ?_, h2 ▸ h6⟩
  intro u hu
  rcases h5 u hu with h | h
  · have := hstart u hu
    dsimp only at h
    omega
  · exact h2 ▸ h

/-! ### Examples -/

/-- Rounding to the nearest whole number -/
theorem round_nearest (x : ℚ) : |(((x + 1 / 2).floor : Int) : ℚ) - x| ≤ 1 / 2 := by
  have h1 := Rat.floor_le (x + 1 / 2)
  have h2 := Rat.lt_floor_add_one (x + 1 / 2)
  push_cast at h2
  rw [abs_le]
  constructor <;> linarith

/-- C88 applies: three updates within two seconds -/
example : ∃ t : Text, ({} : Text).updates FloatEnv.rat (fun x => (x + 1 / 2).floor) "Optimization progress"
    [(5000000000, 0), (5500000000, 1 / 3), (6700000000, 2 / 3)] = ok t ∧ t.lines.length = 2 := by
  obtain ⟨t, h, _⟩ := text_progress (E := FloatEnv.rat) round_nearest rfl (message := "Optimization progress")
    (us := [(5000000000, 0), (5500000000, 1 / 3), (6700000000, 2 / 3)]) (by decide) (by decide) (by
      intro u hu
      simp only [List.mem_cons, List.not_mem_nil, or_false] at hu
      rcases hu with rfl | rfl | rfl <;> norm_num)
  exact ⟨t, h, by
    have h' := h
    have : ({} : Text).updates FloatEnv.rat (fun x => (x + 1 / 2).floor) "Optimization progress"
        [(5000000000, 0), (5500000000, 1 / 3), (6700000000, 2 / 3)]
        = ok { lastUpdate := 6700000000, lines := [(5000000000, "Optimization progress: 0.00%\n"),
            (6700000000, "Optimization progress: 66.67%\n")] } := by decide +kernel
    rw [this] at h'
    cases h'
    rfl⟩

/-- C88 is false on a terminal of 6 columns. -/
example (draws : Nat → Nat → Nat → Stun.Draws ℚ) : ∃ m : Cli.Machine ℚ, m.draws = draws ∧ m.columns = 6 ∧
    Cli.status (Cli.body FloatEnv.rat m .schedule { cliOptions with quiet := false, logOptimization := true }).flow = .aborted .system := by
  obtain ⟨N, h⟩ := logged_example false draws
  exact ⟨{ exampleMachine draws with fuel := N, columns := 6 }, rfl, rfl,
    (narrow_terminal_aborts (n := 80) rfl rfl (by exact (by decide : 5 ≤ 6)) (by exact (by decide : 6 ≤ 8)) (h N le_rfl)).1⟩

end Angonoka.Props
