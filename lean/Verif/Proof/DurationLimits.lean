import Verif.Proof.Duration

/-!
# Texts that mean a duration have no number and no beginning that is too large

The converse of the last clause of `parseDuration_spec`: a number or a sum that is too large cannot be repaired by what follows.
-/

namespace Angonoka.DurationParser
open Angonoka Outcome DurationText

/-- The component that is being read may end in the unit. -/
def Reaches : State → Unit' → Prop
  | .num, _ => True
  | .numSp, _ => True
  | .short u, u' => u' = u
  | .word w, u' => ∃ p ∈ words, w <+: p.1 ∧ u' = p.2
  | _, _ => False

/-- The state is inside of a component that cannot be added, whatever follows. -/
def Doomed (s : State) (r : Regs) : Prop :=
  (match s with | .num | .numSp | .short _ | .word _ => True | _ => False) ∧ ∀ u, Reaches s u → ¬ Adds u r

theorem adds_of_ok {u : Unit'} {r r' : Regs} (h : addUnit u r = .ok r') : Adds u r := by
  by_contra hn
  obtain ⟨e, he⟩ := addUnit_huge hn
  rw [he] at h
  cases h

theorem shortUnit_words {c : Char} {u : Unit'} (h : shortUnit? c = some u) : ([c], u) ∈ words := by
  unfold shortUnit? at h
  split_ifs at h <;> injection h with h <;> subst h <;> subst c <;> decide

theorem finalUnit_reaches {s : State} {u : Unit'} (h : finalUnit? s = some u) : Reaches s u := by
  cases s with
  | short u' =>
    injection h with h
    exact h.symm
  | word w =>
    simp only [finalUnit?, Option.map_eq_some_iff] at h
    obtain ⟨p, hp, rfl⟩ := h
    have hw : p.1 = w := by simpa using List.find?_some hp
    exact ⟨p, List.mem_of_find?_eq_some hp, hw ▸ List.prefix_rfl, rfl⟩
  | _ => cases h

theorem Doomed.step {s s' : State} {r r' : Regs} {c : Char} (h : Doomed s r) (hs : step s r c = .ok (some (s', r'))) :
    Doomed s' r' := by
  obtain ⟨hin, hu⟩ := h
  cases s with
  | num =>
    simp only [DurationParser.step] at hs
    split at hs
    · rename_i d hd
      cases hs
      refine ⟨trivial, fun u _ ha => hu u trivial ⟨?_, ?_⟩⟩
      · have := ha.1
        dsimp only at this
        exact le_trans (by omega) this
      · have := ha.2
        dsimp only at this
        exact lt_of_le_of_lt (Nat.add_le_add_left (Nat.mul_le_mul_right _ (by omega)) _) this
    · split at hs
      · cases hs
        exact ⟨trivial, fun u _ => hu u trivial⟩
      · cases hc : shortUnit? c with
        | none =>
          rw [hc] at hs
          cases hs
        | some u =>
          rw [hc] at hs
          cases hs
          exact ⟨trivial, fun u' _ => hu u' trivial⟩
  | numSp =>
    simp only [DurationParser.step] at hs
    split at hs
    · cases hs
      exact ⟨trivial, fun u _ => hu u trivial⟩
    · split at hs
      · cases hs
        exact ⟨trivial, fun u _ => hu u trivial⟩
      · cases hs
  | short u =>
    exfalso
    simp only [DurationParser.step] at hs
    split at hs
    · obtain ⟨r1, h1, -⟩ := bind_eq_ok.1 hs
      exact hu u rfl (adds_of_ok h1)
    · split at hs
      · obtain ⟨r1, h1, -⟩ := bind_eq_ok.1 hs
        exact hu u rfl (adds_of_ok h1)
      · cases hs
  | word w =>
    simp only [DurationParser.step] at hs
    split at hs
    · cases hs
      refine ⟨trivial, fun u' hr => hu u' ?_⟩
      obtain ⟨p, hp, h1, h2⟩ := hr
      exact ⟨p, hp, (List.prefix_append w [c]).trans h1, h2⟩
    · exfalso
      split at hs
      · cases hs
      · rename_i u hf
        split at hs
        · obtain ⟨r1, h1, -⟩ := bind_eq_ok.1 hs
          exact hu u (finalUnit_reaches hf) (adds_of_ok h1)
        · split at hs
          · obtain ⟨r1, h1, -⟩ := bind_eq_ok.1 hs
            exact hu u (finalUnit_reaches hf) (adds_of_ok h1)
          · cases hs
  | _ => exact hin.elim

theorem Doomed.run {s : State} {r : Regs} (h : Doomed s r) (cs : List Char) (v : Nat) : run s r cs ≠ .ok (some v) := by
  induction cs generalizing s r with
  | nil =>
    intro hr
    simp only [DurationParser.run] at hr
    split at hr
    · rename_i u hf
      obtain ⟨r1, h1, -⟩ := bind_eq_ok.1 hr
      exact h.2 u (finalUnit_reaches hf) (adds_of_ok h1)
    · cases hr
  | cons c rest ih =>
    intro hr
    simp only [DurationParser.run] at hr
    obtain ⟨o, h1, h2⟩ := bind_eq_ok.1 hr
    cases o with
    | none => cases h2
    | some q => exact ih (h.step h1) h2

/-- A digit continues or begins a number. -/
theorem step_digit {s s' : State} {r r' : Regs} {c : Char} {d : Nat} (hc : digitValue? c = some d)
    (h : step s r c = .ok (some (s', r'))) : s' = .num ∧ d ≤ r'.n ∧ (s = .num → r'.n = r.n * 10 + d) := by
  have hsp : ¬ isSpace c = true := fun hb => by
    rw [blank_not_digit hb] at hc
    cases hc
  cases s with
  | num =>
    simp only [DurationParser.step, hc] at h
    cases h
    exact ⟨rfl, by simp, fun _ => rfl⟩
  | numSp =>
    simp only [DurationParser.step, if_neg hsp] at h
    split at h
    · rename_i hs
      obtain ⟨u, hu⟩ := Option.isSome_iff_exists.1 hs
      have := (letter_not_digit (shortUnit?_iff c u hu)).1
      rw [hc] at this
      cases this
    · cases h
  | short u =>
    simp only [DurationParser.step, hc] at h
    obtain ⟨r1, -, h2⟩ := bind_eq_ok.1 h
    cases h2
    exact ⟨rfl, le_rfl, fun h => by cases h⟩
  | word w =>
    have hw : ¬ words.any (fun p => (w ++ [c]).isPrefixOf p.1) = true := fun hw => by
      have := (word_no_extension hw).1
      rw [hc] at this
      cases this
    simp only [DurationParser.step, if_neg hw] at h
    split at h
    · cases h
    · simp only [hc] at h
      obtain ⟨r1, -, h2⟩ := bind_eq_ok.1 h
      cases h2
      exact ⟨rfl, le_rfl, fun h => by cases h⟩
  | start | sep | andSp =>
    simp only [DurationParser.step, hc] at h
    cases h
    exact ⟨rfl, le_rfl, fun h => by cases h⟩
  | a | an =>
    simp only [DurationParser.step] at h
    split at h
    · rename_i he
      subst he
      revert hc
      simp [show digitValue? 'n' = none by decide, show digitValue? 'd' = none by decide]
    · cases h
  | and =>
    simp only [DurationParser.step, if_neg hsp] at h
    cases h

theorem exec_digits {s s' : State} {r r' : Regs} {cs : List Char} {n : Nat} (hn : Number cs n)
    (h : exec s r cs = .ok (some (s', r'))) : s' = .num ∧ n ≤ r'.n := by
  induction hn generalizing s' r' with
  | one hc =>
    simp only [exec] at h
    obtain ⟨o, h1, h2⟩ := bind_eq_ok.1 h
    cases o with
    | none => cases h2
    | some q =>
      cases h2
      have := step_digit ((digitValue?_iff _ _).2 hc) h1
      exact ⟨this.1, this.2.1⟩
  | snoc _ hc ih =>
    rw [exec_append] at h
    obtain ⟨o, h1, h2⟩ := bind_eq_ok.1 h
    cases o with
    | none => cases h2
    | some q =>
      obtain ⟨s1, r1⟩ := q
      obtain ⟨hs1, hr1⟩ := ih h1
      simp only [exec] at h2
      obtain ⟨o, h3, h4⟩ := bind_eq_ok.1 h2
      cases o with
      | none => cases h4
      | some q =>
        cases h4
        have := step_digit ((digitValue?_iff _ _).2 hc) h3
        refine ⟨this.1, ?_⟩
        rw [this.2.2 hs1]
        omega

/-- After a text that dooms the run nothing is accepted. -/
theorem run_doomed {p t : List Char} {v : Nat} (h : run .start {} (p ++ t) = .ok (some v)) :
    ∃ s r, exec .start {} p = .ok (some (s, r)) ∧ ¬ Doomed s r := by
  rw [run_eq, exec_append, bind_assoc] at h
  obtain ⟨o, h1, h2⟩ := bind_eq_ok.1 h
  cases o with
  | none => cases h2
  | some q =>
    refine ⟨q.1, q.2, h1, fun hd => hd.run t v ?_⟩
    rw [run_eq]
    exact h2

theorem units_grow : ∀ p ∈ words, ∀ q ∈ words, p.1 <+: q.1 → p.2.seconds ≤ q.2.seconds := by decide

end Angonoka.DurationParser

namespace Angonoka.DurationText
open Angonoka Outcome DurationParser

/-- A text that means a duration has no number that does not fit an `int`. -/
theorem Means.not_huge {text : String} {v : Nat} (h : Means text v) : ¬ HugeNumber text := by
  rintro ⟨p, s, t, n, ht, hs, hn⟩
  have hrun : run .start {} text.toList = .ok (some v) := by
    rcases run_components h.1 with h' | ⟨-, ⟨n, h3, h4⟩ | h3⟩
    · exact h'
    · exact absurd h3 h4
    · exact absurd h.2 (not_lt.2 h3)
  rw [ht] at hrun
  obtain ⟨st, r, h1, h2⟩ := run_doomed hrun
  rw [exec_append] at h1
  obtain ⟨o, -, h4⟩ := bind_eq_ok.1 h1
  cases o with
  | none => cases h4
  | some q =>
    obtain ⟨rfl, h5⟩ := exec_digits hs h4
    exact h2 ⟨trivial, fun u _ ha => absurd (le_trans h5 ha.1) (not_le.2 hn)⟩

/-- A text that means a duration does not begin with one that does not fit 64 bits. -/
theorem Means.not_overlong {text : String} {v : Nat} (h : Means text v) : ¬ Overlong text := by
  rintro ⟨p, t, w, ht, hp, hw⟩
  have hrun : run .start {} text.toList = .ok (some v) := by
    rcases run_components h.1 with h' | ⟨-, ⟨n, h3, h4⟩ | h3⟩
    · exact h'
    · exact absurd h3 h4
    · exact absurd h.2 (not_lt.2 h3)
  rw [ht] at hrun
  obtain ⟨st, r, h1, h2⟩ := run_doomed hrun
  rcases exec_components hp with ⟨s, r', u, g1, g2, g3, -⟩ | ⟨⟨e, he⟩, -⟩
  · rw [h1] at g1
    cases g1
    refine h2 ⟨?_, fun u' hr ha => ?_⟩
    · cases st with
      | short | word | num | numSp => trivial
      | _ => cases g2
    · have hle : u.seconds ≤ u'.seconds := by
        cases st with
        | short u0 =>
          injection g2 with g2
          rw [← g2, show u' = u0 from hr]
        | word w =>
          obtain ⟨q, hq, hpre, rfl⟩ := hr
          simp only [finalUnit?, Option.map_eq_some_iff] at g2
          obtain ⟨q', hq', rfl⟩ := g2
          have hw' : q'.1 = w := by simpa using List.find?_some hq'
          exact units_grow q' (List.mem_of_find?_eq_some hq') q hq (hw' ▸ hpre)
        | _ => cases g2
      have := ha.2
      have := Nat.add_le_add_left (Nat.mul_le_mul_left r.n hle) r.v
      omega
  · rw [h1] at he
    cases he

end Angonoka.DurationText
