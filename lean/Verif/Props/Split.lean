import Verif.Spec.Split
import Verif.Props.BestFloat

/-!
# C124: Splitting a task never hurts
-/

set_option linter.unusedSectionVars false

namespace Angonoka.Props
open Outcome Stun Cli CommandLine Doc

variable {K : Type} [_root_.Field K] [LinearOrder K] [IsStrictOrderedRing K] [FloorRing K] {E : FloatEnv K}
variable {rf : String → Option XFloat} {root root' : Yaml} {p p' : Project} {g : Nat → Nat} {s t : Nat → ℚ}
variable {agent : Nat → Nat} {start finish : Nat → K}

/-- C124, plans. Every plan of the document with the whole tasks gives a plan of the document with the parts, in which each part is done by the agent that did the whole, and
between the times at which the whole started and ended. -/
theorem split_plan (hl : load rf root = ok p) (h : SplitOf rf root root' g s t) (hp : Doc.Plan rf root agent start finish) :
    ∃ start' finish' : Nat → K, Doc.Plan rf root' (agent ∘ g) start' finish' ∧
      ∀ k < (tasks root').length, start (g k) ≤ start' k ∧ finish' k ≤ finish (g k) := by
  have hlt : ∀ k < (tasks root').length, g k < (tasks root).length := by
    intro k hk
    obtain ⟨_, hq, _⟩ := h.tasks k _ (List.getElem?_eq_getElem hk)
    exact (List.getElem?_eq_some_iff.1 hq).1
  have hpos : ∀ k < (tasks root').length, 0 ≤ finish (g k) - start (g k) := by
    intro k hk
    obtain ⟨_, w, x, hw, _, hx, e⟩ := hp.time _ _ (List.getElem?_eq_getElem (hlt k hk))
    have hx0 : (0 : K) ≤ (x : K) := by exact_mod_cast takes_nonneg hl (List.mem_of_getElem? hw) hx
    rw [e]
    linarith
  have hb : ∀ k < (tasks root').length, start (g k) ≤ start (g k) + (finish (g k) - start (g k)) * (s k : K) ∧
      start (g k) + (finish (g k) - start (g k)) * (t k : K) ≤ finish (g k) := by
    intro k hk
    obtain ⟨h0, _, h1⟩ := h.part k hk
    have h0' : (0 : K) ≤ (s k : K) := by exact_mod_cast h0
    have h1' : (t k : K) ≤ 1 := by exact_mod_cast h1
    have := hpos k hk
    constructor
    · linarith [mul_nonneg this h0']
    · linarith [mul_le_of_le_one_right this h1']
  -- what is between two parts of a task is between the times
  have hmono : ∀ k < (tasks root').length, ∀ l, g k = g l → t k ≤ s l →
      start (g k) + (finish (g k) - start (g k)) * (t k : K) ≤ start (g l) + (finish (g l) - start (g l)) * (s l : K) := by
    intro k hk l e hts
    rw [← e]
    have : (t k : K) ≤ (s l : K) := by exact_mod_cast hts
    linarith [mul_le_mul_of_nonneg_left this (hpos k hk)]
  refine ⟨fun k => start (g k) + (finish (g k) - start (g k)) * (s k : K), fun k => start (g k) + (finish (g k) - start (g k)) * (t k : K),
    ⟨fun k q' hq' => ?_, fun k d hd => ?_, fun k hk l hl' hne e => ?_⟩, hb⟩
  · have hk := (List.getElem?_eq_some_iff.1 hq').1
    obtain ⟨q, hq, hall⟩ := h.tasks k q' hq'
    obtain ⟨h0, w, x, hw, hm, hx, e⟩ := hp.time _ _ hq
    obtain ⟨hm', hx'⟩ := hall w (List.mem_of_getElem? hw) hm
    refine ⟨h0.trans (hb k hk).1, w, _, by rw [h.agents]; exact hw, hm', hx' x hx, ?_⟩
    rw [e]
    push_cast
    ring
  · obtain ⟨_, _, hk, hd', _⟩ := id hd
    have hk := (List.getElem?_eq_some_iff.1 hk).1
    have hd' := (List.getElem?_eq_some_iff.1 hd').1
    rcases h.deps k d hd with hdep | ⟨e, hle⟩
    · exact (hb d hd').2.trans ((hp.deps _ _ hdep).trans (hb k hk).1)
    · exact hmono d hd' k e.symm hle
  · by_cases hg : g k = g l
    · rcases h.apart k hk l hl' hne hg with hle | hle
      · exact .inl (hmono k hk l hg hle)
      · exact .inr (hmono l hl' k hg.symm hle)
    · rcases hp.alone _ (hlt k hk) _ (hlt l hl') hg e with hle | hle
      · exact .inl ((hb k hk).2.trans (hle.trans (hb l hl').1))
      · exact .inr ((hb l hl').2.trans (hle.trans (hb k hk).1))

/-- The parts need no more time than the whole. -/
theorem split_end (hl : load rf root = ok p) (h : SplitOf rf root root' g s t) {V W : K} (hV : IsBestEnd rf root V) (hW : IsBestEnd rf root' W) : W ≤ V := by
  obtain ⟨_, _, _, a1, a2⟩ := hV.reached
  obtain ⟨_, _, b1, b2⟩ := split_plan hl h a1
  refine hW.least _ _ _ _ b1 fun k hk => (b2 k hk).2.trans (a2 _ ?_)
  obtain ⟨_, hq, _⟩ := h.tasks k _ (List.getElem?_eq_getElem hk)
  exact (List.getElem?_eq_some_iff.1 hq).1

variable {m : Machine K} {o : Cli.Options K} {read : ReadReal} {isFile : String → Bool} {terminal : Bool} {a : Arguments}

/-- C124, the command `schedule` for exact arithmetic, under the conditions of C91 for both documents. The least makespan that the program can write for the parts is no
greater than the least it can write for the whole tasks. -/
theorem splitting_never_hurts (hE : E.IsExact) (hsig : SignsAgree read) (hnof : isFile "" = false)
    (h : parse E read isFile terminal .schedule a = .accepted o)
    (hz : ∀ t, a.restartPeriod = some t → ¬ LeadingZero t)
    (hb : ∀ t q, a.betaScale = some t → read t = some (.fin q) → ModerateBeta E q)
    (hout : a.output ≠ some "") (hl : load m.readFloat root = ok p) (hl' : load m.readFloat root' = ok p')
    (hs : Schedulable m.readFloat root 1 (2 ^ 31)) (hs' : Schedulable m.readFloat root' 1 (2 ^ 31))
    (hw : CanWrite m o) (ht : 0 < m.threads) (hidle : 8255 ≤ o.opt.maxIdleIters)
    (hsplit : SplitOf m.readFloat root root' g s t) :
    ∃ mk mk' : Int, mk' ≤ mk ∧ ∀ r n, (r = root ∧ n = mk ∨ r = root' ∧ n = mk') →
      (∃ draws, WritesMakespan E { m with source := .doc r, draws := draws } o (a.output.getD "schedule.json") n) ∧
      ∀ draws n', WritesMakespan E { m with source := .doc r, draws := draws } o (a.output.getD "schedule.json") n' → n ≤ n' := by
  obtain ⟨mk, V, a1, a2, a3, a4⟩ := least_written hE hsig hnof h hz hb hout hl hs hw ht hidle
  obtain ⟨mk', V', b1, b2, b3, b4⟩ := least_written hE hsig hnof h hz hb hout hl' hs' hw ht hidle
  have hle : V' ≤ V := split_end hl hsplit ⟨a2, a3⟩ ⟨b2, b3⟩
  refine ⟨mk, mk', ?_, ?_⟩
  · have : (mk' : K) < (mk + 1 : Int) := by
      push_cast
      exact b1.1.trans_lt (hle.trans_lt a1.2)
    have : mk' < mk + 1 := by exact_mod_cast this
    omega
  · rintro r n (⟨rfl, rfl⟩ | ⟨rfl, rfl⟩)
    · exact a4
    · exact b4

/-- C124 in single precision: `V` and `V'` are the least times any plan takes, and the program can write them up to 0.0061 % and a second. -/
theorem splitting_float (hcmd : FloatCommand E m o read isFile terminal a) (hl : load m.readFloat root = ok p) (hl' : load m.readFloat root' = ok p')
    (hs : Schedulable m.readFloat root 2 (2 ^ 30)) (hs' : Schedulable m.readFloat root' 2 (2 ^ 30))
    (hr : Doc.InRange m.readFloat root) (hr' : Doc.InRange m.readFloat root') (hsplit : SplitOf m.readFloat root root' g s t) :
    ∃ V V' : K, V' ≤ V ∧ WritesAbout E m o (a.output.getD "schedule.json") root V ∧ WritesAbout E m o (a.output.getD "schedule.json") root' V' := by
  obtain ⟨V, hV⟩ := best_end (unrounded_exact E) hl (schedulable_sound hl hs).1
  obtain ⟨V', hV'⟩ := best_end (unrounded_exact E) hl' (schedulable_sound hl' hs').1
  exact ⟨V, V', split_end hl hsplit hV hV', writes_about hcmd hl hs hr hV, writes_about hcmd hl' hs' hr' hV'⟩

/-! ### Example -/

namespace Walls
open Sample

def wall (name : String) : Yaml := obj [("name", str name), ("duration", str "2h")]
def lower : Yaml := obj [("name", str "west, lower half"), ("id", str "w"), ("duration", str "1h")]
def upper : Yaml := obj [("name", str "west, upper half"), ("duration", str "1h"), ("depends_on", str "w")]
def ann : Yaml × Yaml := (str "Ann", obj [])
def eve : Yaml × Yaml := (str "Eve", obj [])

/-- Three walls, two masons -/
def whole : Yaml := obj [("agents", .map [ann, eve]), ("tasks", .seq [wall "north", wall "east", wall "west"])]
/-- The west wall in two parts -/
def parts : Yaml := obj [("agents", .map [ann, eve]), ("tasks", .seq [wall "north", wall "east", lower, upper])]

def wallTask (name : String) : Task := { name := name, id := "", durMin := 7200, durMax := 7200, groupIds := [], agentId := none, dependencies := [] }
def agents₂ : List Agent := [{ name := "Ann", id := 0, groupIds := [], perfMin := .fin 1, perfMax := .fin 1 },
  { name := "Eve", id := 1, groupIds := [], perfMin := .fin 1, perfMax := .fin 1 }]

def wholeProject : Project where
  agents := agents₂
  groups := []
  tasks := [wallTask "north", wallTask "east", wallTask "west"]

def partsProject : Project where
  agents := agents₂
  groups := []
  tasks := [wallTask "north", wallTask "east", { wallTask "west, lower half" with id := "w", durMin := 3600, durMax := 3600 },
    { wallTask "west, upper half" with durMin := 3600, durMax := 3600, dependencies := [2] }]

theorem whole_loads : load number whole = ok wholeProject := by
  rw [Load.load_eval 20 _ _ (by decide)]
  decide +kernel

theorem parts_loads : load number parts = ok partsProject := by
  rw [Load.load_eval 20 _ _ (by decide)]
  decide +kernel

theorem whole_tasks : tasks whole = [([0], wall "north"), ([1], wall "east"), ([2], wall "west")] := by
  simp [whole, wall, tasks, Sample.obj, Sample.str, Yaml.get, Yaml.lookup, listAt, tasksAt]

theorem parts_tasks : tasks parts = [([0], wall "north"), ([1], wall "east"), ([2], lower), ([3], upper)] := by
  simp [parts, wall, lower, upper, tasks, Sample.obj, Sample.str, Yaml.get, Yaml.lookup, listAt, tasksAt]

theorem whole_agents : agents whole = [ann, eve] := rfl
theorem parts_agents : agents parts = [ann, eve] := rfl

theorem anybody {w : Yaml × Yaml} (hw : w ∈ [ann, eve]) {n : Yaml} (hn : ¬ ∃ v, Doc.Field n "agent" v) : MayDo w n := by
  refine .inr ⟨hn, .inl fun g hg => ?_⟩
  simp only [List.mem_cons, List.not_mem_nil, or_false] at hw
  rcases hw with rfl | rfl <;> simp [AgentGroup, ann, eve, Sample.obj, Doc.Field] at hg

theorem ordinary {w : Yaml × Yaml} (hw : w ∈ [ann, eve]) : ¬ ∃ v, Doc.Field w.2 "performance" v := by
  simp only [List.mem_cons, List.not_mem_nil, or_false] at hw
  rcases hw with rfl | rfl <;> simp [ann, eve, Sample.obj, Doc.Field]

theorem wall_takes {w : Yaml × Yaml} (hw : w ∈ [ann, eve]) (name : String) : Takes number w (wall name) 7200 :=
  Crew.takes "2h" (ordinary hw) (by simp [Doc.Field, wall, Sample.obj, Sample.str]) (d := 7200) (by decide +kernel) (by norm_num)

theorem lower_takes {w : Yaml × Yaml} (hw : w ∈ [ann, eve]) : Takes number w lower 3600 :=
  Crew.takes "1h" (ordinary hw) (by simp [Doc.Field, lower, Sample.obj, Sample.str]) (d := 3600) (by decide +kernel) (by norm_num)

theorem upper_takes {w : Yaml × Yaml} (hw : w ∈ [ann, eve]) : Takes number w upper 3600 :=
  Crew.takes "1h" (ordinary hw) (by simp [Doc.Field, upper, Sample.obj, Sample.str]) (d := 3600) (by decide +kernel) (by norm_num)

theorem wall_free (name : String) : ¬ ∃ v, Doc.Field (wall name) "agent" v := by simp [Doc.Field, wall, Sample.obj, Sample.str]
theorem lower_free : ¬ ∃ v, Doc.Field lower "agent" v := by simp [Doc.Field, lower, Sample.obj, Sample.str]
theorem upper_free : ¬ ∃ v, Doc.Field upper "agent" v := by simp [Doc.Field, upper, Sample.obj, Sample.str]

theorem whole_task {k : Nat} {q : List Nat × Yaml} (hq : (tasks whole)[k]? = some q) : ∃ name, q.2 = wall name := by
  rw [whole_tasks] at hq
  match k, hq with
  | 0, hq => cases hq; exact ⟨_, rfl⟩
  | 1, hq => cases hq; exact ⟨_, rfl⟩
  | 2, hq => cases hq; exact ⟨_, rfl⟩

theorem whole_takes {k : Nat} {q : List Nat × Yaml} (hq : (tasks whole)[k]? = some q) {w : Yaml × Yaml} (hw : w ∈ [ann, eve]) {x : ℚ} (hx : Takes number w q.2 x) :
    x = 7200 := by
  obtain ⟨name, e⟩ := whole_task hq
  exact takes_one whole_loads hq (by rw [whole_agents]; exact hw) hx (e ▸ wall_takes hw name)

/-- The west wall is split into halves. -/
theorem walls_split : SplitOf number whole parts (fun k => min k 2) (fun k => if k = 3 then 1 / 2 else 0) (fun k => if k = 2 then 1 / 2 else 1) := by
  refine ⟨rfl, fun k _ => ?_, ?_, ?_, ?_⟩
  · split <;> split <;> norm_num
  · simp only [parts_tasks]
    exact (by decide +kernel : ∀ k < 4, ∀ l < 4, k ≠ l → min k 2 = min l 2 →
      (if k = 2 then (1 / 2 : ℚ) else 1) ≤ (if l = 3 then 1 / 2 else 0) ∨ (if l = 2 then (1 / 2 : ℚ) else 1) ≤ if k = 3 then 1 / 2 else 0)
  · intro k q' hq'
    rw [parts_tasks] at hq'
    have hx : ∀ (l : Nat) q (c : ℚ) (n : Yaml), (tasks whole)[l]? = some q → (¬ ∃ v, Doc.Field n "agent" v) →
        (∀ w ∈ [ann, eve], Takes number w n (7200 * c)) →
        ∀ w ∈ agents whole, MayDo w q.2 → MayDo w n ∧ ∀ x, Takes number w q.2 x → Takes number w n (x * c) := by
      intro l q c n hq hn ht w hw _
      rw [whole_agents] at hw
      refine ⟨anybody hw hn, fun x hx => ?_⟩
      rw [whole_takes hq hw hx]
      exact ht w hw
    match k, hq' with
    | 0, hq' =>
      cases hq'
      refine ⟨_, by rw [whole_tasks]; rfl, hx 0 _ _ _ (by rw [whole_tasks]; rfl) (wall_free _) fun w hw => ?_⟩
      norm_num
      exact wall_takes hw _
    | 1, hq' =>
      cases hq'
      refine ⟨_, by rw [whole_tasks]; rfl, hx 1 _ _ _ (by rw [whole_tasks]; rfl) (wall_free _) fun w hw => ?_⟩
      norm_num
      exact wall_takes hw _
    | 2, hq' =>
      cases hq'
      refine ⟨_, by rw [whole_tasks]; rfl, hx 2 _ _ _ (by rw [whole_tasks]; rfl) lower_free fun w hw => ?_⟩
      norm_num
      exact lower_takes hw
    | 3, hq' =>
      cases hq'
      refine ⟨_, by rw [whole_tasks]; rfl, hx 2 _ _ _ (by rw [whole_tasks]; rfl) upper_free fun w hw => ?_⟩
      norm_num
      exact upper_takes hw
  · rw [depends_loaded parts_loads]
    rintro k d ⟨t, ht, hd⟩
    match k, ht with
    | 0, ht => cases ht; cases hd
    | 1, ht => cases ht; cases hd
    | 2, ht => cases ht; cases hd
    | 3, ht =>
      cases ht
      obtain rfl : d = 2 := by simpa using hd
      exact .inr ⟨rfl, by norm_num⟩

theorem whole_fine : wholeProject.Sound ∧ wholeProject.TakesBetween 2 (2 ^ 30) ∧ wholeProject.Moderate := by
  refine ⟨loaded_sound whole_loads (by simp [wholeProject, wallTask]) ?_ ?_, ⟨⟨_, List.mem_cons_self, ?_⟩, ?_⟩, ⟨⟨_, List.mem_cons_self, ?_⟩, ?_⟩⟩
  · intro a ha
    simp only [wholeProject, agents₂, List.mem_cons, List.not_mem_nil, or_false] at ha
    rcases ha with rfl | rfl <;> exact ⟨_, _, rfl, rfl⟩
  · intro t ht
    simp only [wholeProject, List.mem_cons, List.not_mem_nil, or_false] at ht
    rcases ht with rfl | rfl | rfl <;> simp [wholeProject, wallTask, agents₂, Eligible]
  all_goals
    intro a ha q hq
    simp only [wholeProject, agents₂, List.mem_cons, List.not_mem_nil, or_false] at ha
    rcases ha with rfl | rfl <;> (cases hq; decide +kernel)

theorem parts_fine : partsProject.Sound ∧ partsProject.TakesBetween 2 (2 ^ 30) ∧ partsProject.Moderate := by
  refine ⟨loaded_sound parts_loads (by simp [partsProject, wallTask]) ?_ ?_, ⟨⟨_, List.mem_cons_self, ?_⟩, ?_⟩, ⟨⟨_, List.mem_cons_self, ?_⟩, ?_⟩⟩
  · intro a ha
    simp only [partsProject, agents₂, List.mem_cons, List.not_mem_nil, or_false] at ha
    rcases ha with rfl | rfl <;> exact ⟨_, _, rfl, rfl⟩
  · intro t ht
    simp only [partsProject, List.mem_cons, List.not_mem_nil, or_false] at ht
    rcases ht with rfl | rfl | rfl | rfl <;> simp [partsProject, wallTask, agents₂, Eligible]
  all_goals
    intro a ha q hq
    simp only [partsProject, agents₂, List.mem_cons, List.not_mem_nil, or_false] at ha
    rcases ha with rfl | rfl <;> (cases hq; decide +kernel)

theorem walls_inRange : wholeProject.InRange ∧ partsProject.InRange := by
  refine ⟨⟨by decide, by decide, by decide, ?_⟩, ⟨by decide, by decide, by decide, ?_⟩⟩ <;>
  · intro a ha q hq
    simp only [wholeProject, partsProject, agents₂, List.mem_cons, List.not_mem_nil, or_false] at ha
    rcases ha with rfl | rfl <;> rcases hq with hq | hq <;> cases hq <;> norm_num

/-- Splitting can help: three walls take two masons four hours, but three hours if the west wall is split, even though its halves are built one after the other. -/
theorem splitting_can_help : IsBestEnd number whole (14400 : ℚ) ∧
    ∃ (agent : Nat → Nat) (start finish : Nat → ℚ), Doc.Plan number parts agent start finish ∧ ∀ k < (tasks parts).length, finish k ≤ 10800 := by
  refine ⟨⟨⟨fun k => if k = 1 then 1 else 0, fun k => if k = 2 then 7200 else 0, fun k => if k = 2 then 14400 else 7200, ⟨?_, ?_, ?_⟩, ?_⟩, ?_⟩,
    fun k => if k = 0 ∨ k = 2 then 0 else 1, fun k => if k = 0 then 3600 else if k = 3 then 7200 else 0,
    fun k => if k = 0 ∨ k = 3 then 10800 else if k = 1 then 7200 else 3600, ⟨?_, ?_, ?_⟩, ?_⟩
  · intro k q hq
    obtain ⟨name, e⟩ := whole_task hq
    have hk : k < 3 := by simpa [whole_tasks] using (List.getElem?_eq_some_iff.1 hq).1
    refine ⟨by split <;> norm_num, if k = 1 then eve else ann, 7200, ?_, ?_, ?_, ?_⟩
    · rw [whole_agents]; split <;> rfl
    · rw [e]; exact anybody (by split <;> simp) (wall_free _)
    · rw [e]; exact wall_takes (by split <;> simp) _
    · split <;> norm_num
  · rw [depends_loaded whole_loads]
    rintro k d ⟨t, ht, hd⟩
    match k, ht with
    | 0, ht => cases ht; cases hd
    | 1, ht => cases ht; cases hd
    | 2, ht => cases ht; cases hd
  · rw [whole_tasks]
    exact (by decide +kernel : ∀ k < 3, ∀ l < 3, k ≠ l → (if k = 1 then 1 else 0) = (if l = 1 then 1 else 0) →
      (if k = 2 then (14400 : ℚ) else 7200) ≤ (if l = 2 then 7200 else 0) ∨ (if l = 2 then (14400 : ℚ) else 7200) ≤ if k = 2 then 7200 else 0)
  · intro k _
    dsimp only
    split <;> norm_num
  · intro agent start finish W hp hW
    have hlen : (tasks whole).length = 3 := by rw [whole_tasks]; rfl
    have hk : ∀ k < 3, 0 ≤ start k ∧ agent k < 2 ∧ finish k = start k + 7200 := by
      intro k hk
      have hq := List.getElem?_eq_getElem (hlen.symm ▸ hk : k < (tasks whole).length)
      obtain ⟨h0, w, x, hw, _, hx, e⟩ := hp.time k _ hq
      rw [whole_agents] at hw
      have := whole_takes hq (List.mem_of_getElem? hw) hx
      subst this
      exact ⟨h0, (List.getElem?_eq_some_iff.1 hw).1, by rw [e]; norm_num⟩
    have two : ∀ k < 3, ∀ l < 3, k ≠ l → agent k = agent l → 14400 ≤ W := by
      intro k hk' l hl' hne e
      obtain ⟨a0, _, a2⟩ := hk k hk'
      obtain ⟨b0, _, b2⟩ := hk l hl'
      have c1 := hW k (hlen.symm ▸ hk')
      have c2 := hW l (hlen.symm ▸ hl')
      rcases hp.alone k (hlen.symm ▸ hk') l (hlen.symm ▸ hl') hne e with h | h <;> linarith
    have h0 := (hk 0 (by omega)).2.1
    have h1 := (hk 1 (by omega)).2.1
    have h2 := (hk 2 (by omega)).2.1
    by_cases e1 : agent 0 = agent 1
    · exact two 0 (by omega) 1 (by omega) (by omega) e1
    · by_cases e2 : agent 0 = agent 2
      · exact two 0 (by omega) 2 (by omega) (by omega) e2
      · exact two 1 (by omega) 2 (by omega) (by omega) (by omega)
  · intro k q hq
    rw [parts_tasks] at hq
    match k, hq with
    | 0, hq => cases hq; exact ⟨by norm_num, ann, 7200, rfl, anybody (by simp) (wall_free _), wall_takes (by simp) _, by norm_num⟩
    | 1, hq => cases hq; exact ⟨by norm_num, eve, 7200, rfl, anybody (by simp) (wall_free _), wall_takes (by simp) _, by norm_num⟩
    | 2, hq => cases hq; exact ⟨by norm_num, ann, 3600, rfl, anybody (by simp) lower_free, lower_takes (by simp), by norm_num⟩
    | 3, hq => cases hq; exact ⟨by norm_num, eve, 3600, rfl, anybody (by simp) upper_free, upper_takes (by simp), by norm_num⟩
  · rw [depends_loaded parts_loads]
    rintro k d ⟨t, ht, hd⟩
    match k, ht with
    | 0, ht => cases ht; cases hd
    | 1, ht => cases ht; cases hd
    | 2, ht => cases ht; cases hd
    | 3, ht =>
      cases ht
      obtain rfl : d = 2 := by simpa using hd
      norm_num
  · rw [parts_tasks]
    exact (by decide +kernel : ∀ k < 4, ∀ l < 4, k ≠ l → (if k = 0 ∨ k = 2 then 0 else 1) = (if l = 0 ∨ l = 2 then 0 else 1) →
      (if k = 0 ∨ k = 3 then (10800 : ℚ) else if k = 1 then 7200 else 3600) ≤ (if l = 0 then 3600 else if l = 3 then 7200 else 0) ∨
      (if l = 0 ∨ l = 3 then (10800 : ℚ) else if l = 1 then 7200 else 3600) ≤ if k = 0 then 3600 else if k = 3 then 7200 else 0)
  · rw [parts_tasks]
    exact (by decide +kernel : ∀ k < 4, (if k = 0 ∨ k = 3 then (10800 : ℚ) else if k = 1 then 7200 else 3600) ≤ 10800)

/-- C124 for the walls, in exact arithmetic: all the conditions are met. -/
example : ∃ (o : Cli.Options ℚ) (mk mk' : Int), mk' ≤ mk ∧ ∀ r n, (r = whole ∧ n = mk ∨ r = parts ∧ n = mk') →
    (∃ draws, WritesMakespan FloatEnv.rat { exampleMachine draws with source := .doc r } o "schedule.json" n) ∧
    ∀ draws n', WritesMakespan FloatEnv.rat { exampleMachine draws with source := .doc r } o "schedule.json" n' → n ≤ n' := by
  obtain ⟨o, hpar, hidle⟩ := plan_accepted
  obtain ⟨mk, mk', h⟩ := splitting_never_hurts (m := exampleMachine (fun _ _ _ => ⟨0, 0, 0, 0⟩))
    (fun _ => rfl) exampleRead_signs (by decide) hpar (by simp) (by simp) (by simp) whole_loads parts_loads
    (sound_schedulable whole_loads whole_fine.1 whole_fine.2.2) (sound_schedulable parts_loads parts_fine.1 parts_fine.2.2)
    (example_canWrite (draws := fun _ _ _ => ⟨0, 0, 0, 0⟩)) (by exact (by decide : 0 < 4)) (by rw [hidle]; decide) walls_split
  exact ⟨o, mk, mk', h⟩

/-- C124 for the walls, in single precision -/
example : ∃ (o : Cli.Options ℚ) (V V' : ℚ), V' ≤ V ∧ WritesAbout ratFloat (exampleMachine fun _ _ _ => ⟨0, 0, 0, 0⟩) o "schedule.json" whole V ∧
    WritesAbout ratFloat (exampleMachine fun _ _ _ => ⟨0, 0, 0, 0⟩) o "schedule.json" parts V' := by
  obtain ⟨o, h⟩ := example_command
  obtain ⟨V, V', hV⟩ := splitting_float h whole_loads parts_loads (sound_schedulable whole_loads whole_fine.1 whole_fine.2.1)
    (sound_schedulable parts_loads parts_fine.1 parts_fine.2.1) (document_inRange whole_loads walls_inRange.1) (document_inRange parts_loads walls_inRange.2) walls_split
  exact ⟨o, V, V', hV⟩

end Walls

end Angonoka.Props
