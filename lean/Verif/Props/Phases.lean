import Verif.Props.Split

/-!
# C125: One phase after the other
-/

set_option linter.unusedSectionVars false

namespace Angonoka.Props
open Outcome Stun Cli CommandLine Doc

variable {K : Type} [_root_.Field K] [LinearOrder K] [IsStrictOrderedRing K] [FloorRing K] {E : FloatEnv K}
variable {rf : String → Option XFloat} {root part₁ part₂ : Yaml} {p p₁ p₂ : Project} {f₁ g₁ f₂ g₂ : Nat → Nat}

/-- In a plan tasks start after all tasks they depend on, directly or not. -/
theorem plan_after (hl : load rf root = ok p) {agent : Nat → Nat} {start finish : Nat → K} (hp : Doc.Plan rf root agent start finish) {k d : Nat}
    (h : Relation.TransGen (DependsOn root) k d) : finish d ≤ start k := by
  induction h using Relation.TransGen.head_induction_on with
  | single hn => exact hp.deps _ _ hn
  | @head k c hn _ ih =>
    obtain ⟨-, q, -, hq, -⟩ := id hn
    obtain ⟨-, w, x, hw, -, hx, e⟩ := hp.time c q hq
    have h0 : (0 : K) ≤ (x : K) := by exact_mod_cast takes_nonneg hl (List.mem_of_getElem? hw) hx
    have := hp.deps _ _ hn
    linarith

/-- A plan can begin earlier, if nothing starts before. -/
theorem plan_earlier {agent : Nat → Nat} {start finish : Nat → K} (hp : Doc.Plan rf root agent start finish) {c : K}
    (h : ∀ k < (tasks root).length, c ≤ start k) : Doc.Plan rf root agent (fun k => start k - c) fun k => finish k - c := by
  refine ⟨fun k q hq => ?_, fun k d hd => sub_le_sub_right (hp.deps k d hd) c, fun k hk l hl hne e => ?_⟩
  · obtain ⟨-, w, x, h1, h2, h3, e⟩ := hp.time k q hq
    exact ⟨sub_nonneg.2 (h k (List.getElem?_eq_some_iff.1 hq).1), w, x, h1, h2, h3, by rw [e]; ring⟩
  · rcases hp.alone k hk l hl hne e with h | h
    · exact .inl (sub_le_sub_right h c)
    · exact .inr (sub_le_sub_right h c)

/-- C125, plans: a plan of the first phase that ends at `V`, followed by a plan of the second, is a plan of the document. -/
theorem phases_plan (hl : load rf root = ok p) (h : TwoPhases rf root part₁ part₂ f₁ g₁ f₂ g₂) {agent₁ agent₂ : Nat → Nat} {start₁ start₂ finish₁ finish₂ : Nat → K}
    (hp₁ : Doc.Plan rf part₁ agent₁ start₁ finish₁) (hp₂ : Doc.Plan rf part₂ agent₂ start₂ finish₂) {V : K} (hV0 : 0 ≤ V)
    (hV : ∀ k < (tasks part₁).length, finish₁ k ≤ V) :
    ∃ (agent : Nat → Nat) (start finish : Nat → K), Doc.Plan rf root agent start finish ∧
      (∀ k < (tasks part₁).length, agent (g₁ k) = f₁ (agent₁ k) ∧ start (g₁ k) = start₁ k ∧ finish (g₁ k) = finish₁ k) ∧
      ∀ k < (tasks part₂).length, agent (g₂ k) = f₂ (agent₂ k) ∧ start (g₂ k) = V + start₂ k ∧ finish (g₂ k) = V + finish₂ k := by
  classical
  have hac := (load_faithful hl).2.acyclic
  have apart : ∀ k < (tasks part₁).length, ∀ l < (tasks part₂).length, g₁ k ≠ g₂ l := by
    intro k hk l hl' e
    have := h.after k hk l hl'
    rw [e] at this
    exact hac _ this
  have hall : ∀ n, ∃ r : Nat × K × K, (∀ k < (tasks part₁).length, n = g₁ k → r = (f₁ (agent₁ k), start₁ k, finish₁ k)) ∧
      ∀ k < (tasks part₂).length, n = g₂ k → r = (f₂ (agent₂ k), V + start₂ k, V + finish₂ k) := by
    intro n
    by_cases h1 : ∃ k < (tasks part₁).length, n = g₁ k
    · obtain ⟨k, hk, rfl⟩ := h1
      refine ⟨(f₁ (agent₁ k), start₁ k, finish₁ k), fun l hl e => ?_, fun l hl e => absurd e (apart k hk l hl)⟩
      rw [h.first.tasks_apart k hk l hl e]
    · by_cases h2 : ∃ k < (tasks part₂).length, n = g₂ k
      · obtain ⟨k, hk, rfl⟩ := h2
        refine ⟨(f₂ (agent₂ k), V + start₂ k, V + finish₂ k), fun l hl e => absurd e.symm (apart l hl k hk), fun l hl e => ?_⟩
        rw [h.second.tasks_apart k hk l hl e]
      · exact ⟨(0, 0, 0), fun k hk e => absurd ⟨k, hk, e⟩ h1, fun k hk e => absurd ⟨k, hk, e⟩ h2⟩
  choose r hr₁ hr₂ using hall
  have e₁ : ∀ k < (tasks part₁).length, r (g₁ k) = (f₁ (agent₁ k), start₁ k, finish₁ k) := fun k hk => hr₁ _ k hk rfl
  have e₂ : ∀ k < (tasks part₂).length, r (g₂ k) = (f₂ (agent₂ k), V + start₂ k, V + finish₂ k) := fun k hk => hr₂ _ k hk rfl
  -- what holds of both phases; `c` is when they start
  have phase : ∀ {part : Yaml} {f g agent' : Nat → Nat} {start' finish' : Nat → K} (c : K), 0 ≤ c → Doc.PartOf rf root part f g →
      Doc.Plan rf part agent' start' finish' → (∀ k < (tasks part).length, r (g k) = (f (agent' k), c + start' k, c + finish' k)) →
      (∀ l < (tasks part).length, ∀ q', (tasks root)[g l]? = some q' →
        0 ≤ (r (g l)).2.1 ∧ ∃ w x, (agents root)[(r (g l)).1]? = some w ∧ MayDo w q'.2 ∧ Takes rf w q'.2 x ∧ (r (g l)).2.2 = (r (g l)).2.1 + x) ∧
      (∀ k < (tasks part).length, ∀ l < (tasks part).length, DependsOn root (g k) (g l) → (r (g l)).2.2 ≤ (r (g k)).2.1) ∧
      ∀ k < (tasks part).length, ∀ l < (tasks part).length, g k ≠ g l → (r (g k)).1 = (r (g l)).1 →
        (r (g k)).2.2 ≤ (r (g l)).2.1 ∨ (r (g l)).2.2 ≤ (r (g k)).2.1 := by
    intro part f g agent' start' finish' c hc hpart hplan hr
    refine ⟨fun l hl q' hq' => ?_, fun k hk l hl hd => ?_, fun k hk l hl hne e => ?_⟩
    · obtain ⟨q'', e, hsame, -⟩ := hpart.tasks l _ (List.getElem?_eq_getElem hl)
      obtain rfl : q'' = q' := Option.some.inj (e.symm.trans hq')
      obtain ⟨h0, w, x, hw, hm, hx, ef⟩ := hplan.time l _ (List.getElem?_eq_getElem hl)
      obtain ⟨w', hw'⟩ := hpart.agents _ _ hw
      obtain ⟨s1, s2⟩ := hsame _ _ _ hw hw'
      rw [hr l hl]
      exact ⟨add_nonneg hc h0, w', x, hw', s1.2 hm, (s2 x).2 hx, by rw [ef]; ring⟩
    · rw [hr k hk, hr l hl]
      exact add_le_add_right (hplan.deps _ _ ((hpart.deps k l hk hl).1 hd)) c
    · rw [hr k hk, hr l hl] at e ⊢
      obtain ⟨-, w, -, hw, -⟩ := hplan.time k _ (List.getElem?_eq_getElem hk)
      obtain ⟨-, w', -, hw', -⟩ := hplan.time l _ (List.getElem?_eq_getElem hl)
      rcases hplan.alone k hk l hl (fun e => hne (by rw [e])) (hpart.agents_apart _ (List.getElem?_eq_some_iff.1 hw).1 _ (List.getElem?_eq_some_iff.1 hw').1 e) with h | h
      · exact .inl (add_le_add_right h c)
      · exact .inr (add_le_add_right h c)
  obtain ⟨time₁, deps₁, alone₁⟩ := phase 0 le_rfl h.first hp₁ (by simpa using e₁)
  obtain ⟨time₂, deps₂, alone₂⟩ := phase V hV0 h.second hp₂ e₂
  have before : ∀ k < (tasks part₁).length, ∀ l < (tasks part₂).length, (r (g₁ k)).2.2 ≤ (r (g₂ l)).2.1 := by
    intro k hk l hl'
    rw [e₁ k hk, e₂ l hl']
    have := (hp₂.time l _ (List.getElem?_eq_getElem hl')).1
    have := hV k hk
    change finish₁ k ≤ V + start₂ l
    linarith
  refine ⟨fun n => (r n).1, fun n => (r n).2.1, fun n => (r n).2.2, ⟨?_, ?_, ?_⟩, ?_, ?_⟩
  · intro n q hq
    rcases h.tasks n (List.getElem?_eq_some_iff.1 hq).1 with ⟨l, hl, rfl⟩ | ⟨l, hl, rfl⟩
    · exact time₁ l hl q hq
    · exact time₂ l hl q hq
  · intro n d hd
    obtain ⟨_, _, hn, hd', _⟩ := id hd
    rcases h.tasks n (List.getElem?_eq_some_iff.1 hn).1 with ⟨k, hk, rfl⟩ | ⟨k, hk, rfl⟩ <;>
      rcases h.tasks d (List.getElem?_eq_some_iff.1 hd').1 with ⟨l, hl, rfl⟩ | ⟨l, hl, rfl⟩
    · exact deps₁ k hk l hl hd
    · exact absurd (Relation.TransGen.tail (h.after k hk l hl) hd) (hac _)
    · exact before l hl k hk
    · exact deps₂ k hk l hl hd
  · intro n hn d hd' hne e
    rcases h.tasks n hn with ⟨k, hk, rfl⟩ | ⟨k, hk, rfl⟩ <;> rcases h.tasks d hd' with ⟨l, hl, rfl⟩ | ⟨l, hl, rfl⟩
    · exact alone₁ k hk l hl hne e
    · exact .inl (before k hk l hl)
    · exact .inr (before l hl k hk)
    · exact alone₂ k hk l hl hne e
  · intro k hk
    simp only [e₁ k hk, and_self]
  · intro k hk
    simp only [e₂ k hk, and_self]

/-- Two phases need the time of the first and the time of the second. -/
theorem phases_end (hl : load rf root = ok p) (hl₁ : load rf part₁ = ok p₁) (h : TwoPhases rf root part₁ part₂ f₁ g₁ f₂ g₂) {V₁ V₂ : K}
    (h₁ : IsBestEnd rf part₁ V₁) (h₂ : IsBestEnd rf part₂ V₂) : IsBestEnd rf root (V₁ + V₂) := by
  have hlt : ∀ {part f g}, PartOf rf root part f g → ∀ k < (tasks part).length, g k < (tasks root).length := by
    intro part f g hpart k hk
    obtain ⟨_, hq, -⟩ := hpart.tasks k _ (List.getElem?_eq_getElem hk)
    exact (List.getElem?_eq_some_iff.1 hq).1
  refine ⟨?_, fun agent start finish W hp hW => ?_⟩
  · obtain ⟨agent₁, start₁, finish₁, a1, a2⟩ := h₁.reached
    obtain ⟨agent₂, start₂, finish₂, b1, b2⟩ := h₂.reached
    have hn : 0 < (tasks part₁).length := by
      rw [← (load_faithful hl₁).2.tasks_length]
      exact List.length_pos_iff.2 (load_faithful hl₁).2.tasks_ne
    have h0 : ∀ {part q} {agent : Nat → Nat} {start finish : Nat → K}, load rf part = ok q → Doc.Plan rf part agent start finish →
        ∀ k < (tasks part).length, 0 ≤ finish k := by
      intro part q agent start finish hlp hp k hk
      obtain ⟨c0, w, y, hw', -, hy, e⟩ := hp.time k _ (List.getElem?_eq_getElem hk)
      have hy0 : (0 : K) ≤ (y : K) := by exact_mod_cast takes_nonneg hlp (List.mem_of_getElem? hw') hy
      rw [e]
      linarith
    have hV0 : 0 ≤ V₁ := (h0 hl₁ a1 0 hn).trans (a2 0 hn)
    have hV2 : 0 ≤ V₂ := by
      by_contra hneg
      have hne : (tasks part₂).length = 0 ∨ 0 < (tasks part₂).length := Nat.eq_zero_or_pos _
      rcases hne with he | hpos
      · have := h₂.least _ _ _ (V₂ - 1) b1 (fun k hk => by omega)
        linarith
      · obtain ⟨c0, w, y, hw', -, hy, e⟩ := b1.time 0 _ (List.getElem?_eq_getElem hpos)
        obtain ⟨q', hq', hsame, -⟩ := h.second.tasks 0 _ (List.getElem?_eq_getElem hpos)
        obtain ⟨w', hw''⟩ := h.second.agents _ _ hw'
        have hy' := ((hsame _ _ _ hw' hw'').2 y).2 hy
        have hy0 : (0 : K) ≤ (y : K) := by exact_mod_cast takes_nonneg hl (List.mem_of_getElem? hw'') hy'
        have := b2 0 hpos
        rw [e] at this
        linarith
    obtain ⟨agent, start, finish, d1, d2, d3⟩ := phases_plan hl h a1 b1 hV0 a2
    refine ⟨agent, start, finish, d1, fun n hn' => ?_⟩
    rcases h.tasks n hn' with ⟨k, hk, rfl⟩ | ⟨k, hk, rfl⟩
    · rw [(d2 k hk).2.2]
      linarith [a2 k hk]
    · rw [(d3 k hk).2.2]
      linarith [b2 k hk]
  · obtain ⟨_, d₁⟩ := part_plan h.first hp
    obtain ⟨_, d₂⟩ := part_plan h.second hp
    have hge : ∀ l < (tasks part₂).length, V₁ ≤ (start ∘ g₂) l := fun l hl' =>
      h₁.least _ _ _ _ d₁ fun k hk => plan_after hl hp (h.after k hk l hl')
    have := h₂.least _ _ _ (W - V₁) (plan_earlier d₂ hge) fun l hl' => sub_le_sub_right (hW _ (hlt h.second l hl')) V₁
    linarith

variable {m : Machine K} {o : Cli.Options K} {read : ReadReal} {isFile : String → Bool} {terminal : Bool} {a : Arguments}

/-- C125, the command `schedule` for exact arithmetic, under the conditions of C91 for the document and both phases. The least makespan that the program can write for
the document is the sum of the least makespans it can write for the phases; makespans are in whole seconds, so it may be one second more. -/
theorem phases_add (hE : E.IsExact) (hsig : SignsAgree read) (hnof : isFile "" = false)
    (h : parse E read isFile terminal .schedule a = .accepted o)
    (hz : ∀ t, a.restartPeriod = some t → ¬ LeadingZero t)
    (hb : ∀ t q, a.betaScale = some t → read t = some (.fin q) → ModerateBeta E q)
    (hout : a.output ≠ some "") (hl : load m.readFloat root = ok p) (hl₁ : load m.readFloat part₁ = ok p₁) (hl₂ : load m.readFloat part₂ = ok p₂)
    (hs : Schedulable m.readFloat root 1 (2 ^ 31)) (hs₁ : Schedulable m.readFloat part₁ 1 (2 ^ 31)) (hs₂ : Schedulable m.readFloat part₂ 1 (2 ^ 31))
    (hw : CanWrite m o) (ht : 0 < m.threads) (hidle : 8255 ≤ o.opt.maxIdleIters)
    (hphases : TwoPhases m.readFloat root part₁ part₂ f₁ g₁ f₂ g₂) :
    ∃ mk mk₁ mk₂ : Int, (mk = mk₁ + mk₂ ∨ mk = mk₁ + mk₂ + 1) ∧ ∀ r n, (r = part₁ ∧ n = mk₁ ∨ r = part₂ ∧ n = mk₂ ∨ r = root ∧ n = mk) →
      (∃ draws, WritesMakespan E { m with source := .doc r, draws := draws } o (a.output.getD "schedule.json") n) ∧
      ∀ draws n', WritesMakespan E { m with source := .doc r, draws := draws } o (a.output.getD "schedule.json") n' → n ≤ n' := by
  obtain ⟨mk, V, a1, a2, a3, a4⟩ := least_written hE hsig hnof h hz hb hout hl hs hw ht hidle
  obtain ⟨mk₁, V₁, b1, b2, b3, b4⟩ := least_written hE hsig hnof h hz hb hout hl₁ hs₁ hw ht hidle
  obtain ⟨mk₂, V₂, c1, c2, c3, c4⟩ := least_written hE hsig hnof h hz hb hout hl₂ hs₂ hw ht hidle
  have e : V = V₁ + V₂ := IsBestEnd_unique ⟨a2, a3⟩ (phases_end hl hl₁ hphases ⟨b2, b3⟩ ⟨c2, c3⟩)
  refine ⟨mk, mk₁, mk₂, ?_, ?_⟩
  · have h1 : (mk : K) < (mk₁ + mk₂ + 2 : Int) := by
      push_cast
      linarith [a1.1, b1.2, c1.2]
    have h2 : ((mk₁ + mk₂ : Int) : K) < (mk + 1 : Int) := by
      push_cast
      linarith [a1.2, b1.1, c1.1]
    have h1 : mk < mk₁ + mk₂ + 2 := by exact_mod_cast h1
    have h2 : mk₁ + mk₂ < mk + 1 := by exact_mod_cast h2
    omega
  · rintro r n (⟨rfl, rfl⟩ | ⟨rfl, rfl⟩ | ⟨rfl, rfl⟩)
    · exact b4
    · exact c4
    · exact a4

/-- C125 in single precision -/
theorem phases_float (hcmd : FloatCommand E m o read isFile terminal a) (hl : load m.readFloat root = ok p) (hl₁ : load m.readFloat part₁ = ok p₁)
    (hl₂ : load m.readFloat part₂ = ok p₂) (hs : Schedulable m.readFloat root 2 (2 ^ 30)) (hs₁ : Schedulable m.readFloat part₁ 2 (2 ^ 30))
    (hs₂ : Schedulable m.readFloat part₂ 2 (2 ^ 30)) (hr : Doc.InRange m.readFloat root) (hr₁ : Doc.InRange m.readFloat part₁)
    (hr₂ : Doc.InRange m.readFloat part₂) (hphases : TwoPhases m.readFloat root part₁ part₂ f₁ g₁ f₂ g₂) :
    ∃ V₁ V₂ : K, ∀ r V, (r = part₁ ∧ V = V₁ ∨ r = part₂ ∧ V = V₂ ∨ r = root ∧ V = V₁ + V₂) →
      IsBestEnd m.readFloat r V ∧ WritesAbout E m o (a.output.getD "schedule.json") r V := by
  obtain ⟨V₁, h₁⟩ := best_end (unrounded_exact E) hl₁ (schedulable_sound hl₁ hs₁).1
  obtain ⟨V₂, h₂⟩ := best_end (unrounded_exact E) hl₂ (schedulable_sound hl₂ hs₂).1
  have h := phases_end hl hl₁ hphases h₁ h₂
  refine ⟨V₁, V₂, ?_⟩
  rintro r V (⟨rfl, rfl⟩ | ⟨rfl, rfl⟩ | ⟨rfl, rfl⟩)
  · exact ⟨h₁, writes_about hcmd hl₁ hs₁ hr₁ h₁⟩
  · exact ⟨h₂, writes_about hcmd hl₂ hs₂ hr₂ h₂⟩
  · exact ⟨h, writes_about hcmd hl hs hr h⟩

/-! ### Example -/

namespace Walls
open Sample

def built (name id : String) : Yaml := obj [("name", str name), ("id", str id), ("duration", str "2h")]
def after (name : String) : Yaml := obj [("name", str name), ("duration", str "1h"), ("depends_on", .seq [str "n", str "e"])]
def alone (name : String) : Yaml := obj [("name", str name), ("duration", str "1h")]

/-- Walls first, then a roof and windows -/
def hut : Yaml := obj [("agents", .map [ann, eve]), ("tasks", .seq [after "roof", built "north" "n", built "east" "e", after "windows"])]
def walls : Yaml := obj [("agents", .map [ann, eve]), ("tasks", .seq [built "north" "n", built "east" "e"])]
def rest : Yaml := obj [("agents", .map [ann, eve]), ("tasks", .seq [alone "roof", alone "windows"])]

def builtTask (name id : String) : Task := { wallTask name with id := id }
def hourTask (name : String) (deps : List Nat) : Task := { wallTask name with durMin := 3600, durMax := 3600, dependencies := deps }

def hutProject : Project where
  agents := agents₂
  groups := []
  tasks := [hourTask "roof" [1, 2], builtTask "north" "n", builtTask "east" "e", hourTask "windows" [1, 2]]
def wallsProject : Project where
  agents := agents₂
  groups := []
  tasks := [builtTask "north" "n", builtTask "east" "e"]
def restProject : Project where
  agents := agents₂
  groups := []
  tasks := [hourTask "roof" [], hourTask "windows" []]

theorem hut_loads : load number hut = ok hutProject := by
  rw [Load.load_eval 20 _ _ (by decide)]
  decide +kernel
theorem walls_loads : load number walls = ok wallsProject := by
  rw [Load.load_eval 20 _ _ (by decide)]
  decide +kernel
theorem rest_loads : load number rest = ok restProject := by
  rw [Load.load_eval 20 _ _ (by decide)]
  decide +kernel

theorem hut_tasks : tasks hut = [([0], after "roof"), ([1], built "north" "n"), ([2], built "east" "e"), ([3], after "windows")] := by
  simp [hut, built, after, tasks, Sample.obj, Sample.str, Yaml.get, Yaml.lookup, listAt, tasksAt]
theorem walls_tasks : tasks walls = [([0], built "north" "n"), ([1], built "east" "e")] := by
  simp [walls, built, tasks, Sample.obj, Sample.str, Yaml.get, Yaml.lookup, listAt, tasksAt]
theorem rest_tasks : tasks rest = [([0], alone "roof"), ([1], alone "windows")] := by
  simp [rest, alone, tasks, Sample.obj, Sample.str, Yaml.get, Yaml.lookup, listAt, tasksAt]

theorem alone_after (w : Yaml × Yaml) (name : String) : (MayDo w (after name) ↔ MayDo w (alone name)) ∧
    ∀ x, Takes number w (after name) x ↔ Takes number w (alone name) x := by
  have : ∀ key v, key ≠ "depends_on" → (Doc.Field (after name) key v ↔ Doc.Field (alone name) key v) := by
    intro key v h
    simp [Doc.Field, after, alone, Sample.obj, Sample.str, h]
  refine ⟨?_, fun x => ?_⟩
  · simp only [MayDo, TaskGroup, this _ _ (by decide : "agent" ≠ "depends_on"), this _ _ (by decide : "groups" ≠ "depends_on"),
      this _ _ (by decide : "group" ≠ "depends_on")]
  · simp only [Takes, Duration, this _ _ (by decide : "duration" ≠ "depends_on")]

/-- The hut is built in two phases. -/
theorem hut_phases : TwoPhases number hut walls rest id (fun k => k + 1) id (fun k => 3 * k) := by
  have ha : agents hut = [ann, eve] := rfl
  have hw : agents walls = [ann, eve] := rfl
  have hr : agents rest = [ann, eve] := rfl
  refine ⟨⟨fun _ _ _ _ e => e, fun _ _ _ _ e => by omega, ?_, ?_, ?_⟩, ⟨fun _ _ _ _ e => e, fun _ _ _ _ e => by omega, ?_, ?_, ?_⟩, ?_, ?_⟩
  · intro i w h
    exact ⟨w, h⟩
  · intro k q h
    rw [walls_tasks] at h
    have same : ∀ (n : Yaml) (i : Nat) w w', (agents walls)[i]? = some w → (agents hut)[i]? = some w' →
        (MayDo w' n ↔ MayDo w n) ∧ ∀ x, Takes number w' n x ↔ Takes number w n x := by
      intro n i w w' h1 h2
      obtain rfl : w = w' := Option.some.inj (h1.symm.trans h2)
      exact ⟨Iff.rfl, fun _ => Iff.rfl⟩
    match k, h with
    | 0, h =>
      cases h
      exact ⟨([1], built "north" "n"), by rw [hut_tasks]; rfl, same _, fun j w' h1 _ => ⟨j, (List.getElem?_eq_some_iff.1 h1).1, rfl⟩⟩
    | 1, h =>
      cases h
      exact ⟨([2], built "east" "e"), by rw [hut_tasks]; rfl, same _, fun j w' h1 _ => ⟨j, (List.getElem?_eq_some_iff.1 h1).1, rfl⟩⟩
  · rw [depends_loaded hut_loads, depends_loaded walls_loads]
    simp only [walls_tasks]
    intro k d hk hd
    have hk : k < 2 := hk
    have hd : d < 2 := hd
    interval_cases k <;> interval_cases d <;> simp [Project.DependsOn, hutProject, wallsProject, builtTask, wallTask]
  · intro i w h
    exact ⟨w, h⟩
  · intro k q h
    rw [rest_tasks] at h
    have same : ∀ (name : String) (i : Nat) w w', (agents rest)[i]? = some w → (agents hut)[i]? = some w' →
        (MayDo w' (after name) ↔ MayDo w (alone name)) ∧ ∀ x, Takes number w' (after name) x ↔ Takes number w (alone name) x := by
      intro name i w w' h1 h2
      obtain rfl : w = w' := Option.some.inj (h1.symm.trans h2)
      exact alone_after w name
    match k, h with
    | 0, h =>
      cases h
      exact ⟨([0], after "roof"), by rw [hut_tasks]; rfl, same "roof", fun j w' h1 _ => ⟨j, (List.getElem?_eq_some_iff.1 h1).1, rfl⟩⟩
    | 1, h =>
      cases h
      exact ⟨([3], after "windows"), by rw [hut_tasks]; rfl, same "windows", fun j w' h1 _ => ⟨j, (List.getElem?_eq_some_iff.1 h1).1, rfl⟩⟩
  · rw [depends_loaded hut_loads, depends_loaded rest_loads]
    simp only [rest_tasks]
    intro k d hk hd
    have hk : k < 2 := hk
    have hd : d < 2 := hd
    interval_cases k <;> interval_cases d <;> simp [Project.DependsOn, hutProject, restProject, hourTask, wallTask]
  · simp only [hut_tasks, walls_tasks, rest_tasks]
    intro k hk
    have hk : k < 4 := hk
    interval_cases k
    · exact .inr ⟨0, by simp, rfl⟩
    · exact .inl ⟨0, by simp, rfl⟩
    · exact .inl ⟨1, by simp, rfl⟩
    · exact .inr ⟨1, by simp, rfl⟩
  · rw [depends_loaded hut_loads]
    simp only [walls_tasks, rest_tasks]
    intro k hk l hl
    have hk : k < 2 := hk
    have hl : l < 2 := hl
    refine .single ?_
    interval_cases k <;> interval_cases l <;> simp [Project.DependsOn, hutProject, hourTask, wallTask]

theorem hut_fine : Schedulable number hut 1 (2 ^ 31) ∧ Schedulable number hut 2 (2 ^ 30) ∧ Doc.InRange number hut := by
  have hs : hutProject.Sound := by
    refine loaded_sound hut_loads (by simp [hutProject, builtTask, hourTask, wallTask]) ?_ ?_
    · intro a ha
      simp only [hutProject, agents₂, List.mem_cons, List.not_mem_nil, or_false] at ha
      rcases ha with rfl | rfl <;> exact ⟨_, _, rfl, rfl⟩
    · intro t ht
      simp only [hutProject, List.mem_cons, List.not_mem_nil, or_false] at ht
      rcases ht with rfl | rfl | rfl | rfl <;> simp [hutProject, builtTask, hourTask, wallTask, agents₂, Eligible]
  refine ⟨sound_schedulable hut_loads hs ⟨⟨_, List.mem_cons_self, ?_⟩, ?_⟩, sound_schedulable hut_loads hs ⟨⟨_, List.mem_cons_self, ?_⟩, ?_⟩,
    document_inRange hut_loads ⟨by decide, by decide, by decide, ?_⟩⟩
  iterate 4
    · intro a ha q hq
      simp only [hutProject, agents₂, List.mem_cons, List.not_mem_nil, or_false] at ha
      rcases ha with rfl | rfl <;> (cases hq; decide +kernel)
  · intro a ha q hq
    simp only [hutProject, agents₂, List.mem_cons, List.not_mem_nil, or_false] at ha
    rcases ha with rfl | rfl <;> rcases hq with hq | hq <;> cases hq <;> norm_num

theorem walls_fine : Schedulable number walls 1 (2 ^ 31) ∧ Schedulable number walls 2 (2 ^ 30) ∧ Doc.InRange number walls := by
  have hs : wallsProject.Sound := by
    refine loaded_sound walls_loads (by simp [wallsProject, builtTask, hourTask, wallTask]) ?_ ?_
    · intro a ha
      simp only [wallsProject, agents₂, List.mem_cons, List.not_mem_nil, or_false] at ha
      rcases ha with rfl | rfl <;> exact ⟨_, _, rfl, rfl⟩
    · intro t ht
      simp only [wallsProject, List.mem_cons, List.not_mem_nil, or_false] at ht
      rcases ht with rfl | rfl <;> simp [wallsProject, builtTask, hourTask, wallTask, agents₂, Eligible]
  refine ⟨sound_schedulable walls_loads hs ⟨⟨_, List.mem_cons_self, ?_⟩, ?_⟩, sound_schedulable walls_loads hs ⟨⟨_, List.mem_cons_self, ?_⟩, ?_⟩,
    document_inRange walls_loads ⟨by decide, by decide, by decide, ?_⟩⟩
  iterate 4
    · intro a ha q hq
      simp only [wallsProject, agents₂, List.mem_cons, List.not_mem_nil, or_false] at ha
      rcases ha with rfl | rfl <;> (cases hq; decide +kernel)
  · intro a ha q hq
    simp only [wallsProject, agents₂, List.mem_cons, List.not_mem_nil, or_false] at ha
    rcases ha with rfl | rfl <;> rcases hq with hq | hq <;> cases hq <;> norm_num

theorem rest_fine : Schedulable number rest 1 (2 ^ 31) ∧ Schedulable number rest 2 (2 ^ 30) ∧ Doc.InRange number rest := by
  have hs : restProject.Sound := by
    refine loaded_sound rest_loads (by simp [restProject, builtTask, hourTask, wallTask]) ?_ ?_
    · intro a ha
      simp only [restProject, agents₂, List.mem_cons, List.not_mem_nil, or_false] at ha
      rcases ha with rfl | rfl <;> exact ⟨_, _, rfl, rfl⟩
    · intro t ht
      simp only [restProject, List.mem_cons, List.not_mem_nil, or_false] at ht
      rcases ht with rfl | rfl <;> simp [restProject, builtTask, hourTask, wallTask, agents₂, Eligible]
  refine ⟨sound_schedulable rest_loads hs ⟨⟨_, List.mem_cons_self, ?_⟩, ?_⟩, sound_schedulable rest_loads hs ⟨⟨_, List.mem_cons_self, ?_⟩, ?_⟩,
    document_inRange rest_loads ⟨by decide, by decide, by decide, ?_⟩⟩
  iterate 4
    · intro a ha q hq
      simp only [restProject, agents₂, List.mem_cons, List.not_mem_nil, or_false] at ha
      rcases ha with rfl | rfl <;> (cases hq; decide +kernel)
  · intro a ha q hq
    simp only [restProject, agents₂, List.mem_cons, List.not_mem_nil, or_false] at ha
    rcases ha with rfl | rfl <;> rcases hq with hq | hq <;> cases hq <;> norm_num

/-- C125 for the hut, in exact arithmetic: all the conditions are met. -/
example : ∃ (o : Cli.Options ℚ) (mk mk₁ mk₂ : Int), (mk = mk₁ + mk₂ ∨ mk = mk₁ + mk₂ + 1) ∧ ∀ r n, (r = walls ∧ n = mk₁ ∨ r = rest ∧ n = mk₂ ∨ r = hut ∧ n = mk) →
    (∃ draws, WritesMakespan FloatEnv.rat { exampleMachine draws with source := .doc r } o "schedule.json" n) ∧
    ∀ draws n', WritesMakespan FloatEnv.rat { exampleMachine draws with source := .doc r } o "schedule.json" n' → n ≤ n' := by
  obtain ⟨o, hpar, hidle⟩ := plan_accepted
  obtain ⟨mk, mk₁, mk₂, h⟩ := phases_add (m := exampleMachine (fun _ _ _ => ⟨0, 0, 0, 0⟩))
    (fun _ => rfl) exampleRead_signs (by decide) hpar (by simp) (by simp) (by simp) hut_loads walls_loads rest_loads hut_fine.1 walls_fine.1 rest_fine.1
    (example_canWrite (draws := fun _ _ _ => ⟨0, 0, 0, 0⟩)) (by exact (by decide : 0 < 4)) (by rw [hidle]; decide) hut_phases
  exact ⟨o, mk, mk₁, mk₂, h⟩

/-- C125 for the hut, in single precision -/
example : ∃ (o : Cli.Options ℚ) (V₁ V₂ : ℚ), ∀ r V, (r = walls ∧ V = V₁ ∨ r = rest ∧ V = V₂ ∨ r = hut ∧ V = V₁ + V₂) →
    WritesAbout ratFloat (exampleMachine fun _ _ _ => ⟨0, 0, 0, 0⟩) o "schedule.json" r V := by
  obtain ⟨o, h⟩ := example_command
  obtain ⟨V₁, V₂, hV⟩ := phases_float h hut_loads walls_loads rest_loads hut_fine.2.1 walls_fine.2.1 rest_fine.2.1 hut_fine.2.2 walls_fine.2.2 rest_fine.2.2 hut_phases
  exact ⟨o, V₁, V₂, fun r V hr => (hV r V hr).2⟩

end Walls

end Angonoka.Props
