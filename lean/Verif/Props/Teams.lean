import Verif.Spec.Teams
import Verif.Props.Implied

/-!
# C117: Independent teams
-/

namespace Angonoka.Props
open Angonoka Outcome Stun Doc Cli CommandLine

section
variable {K : Type} [_root_.Field K] [LinearOrder K] [IsStrictOrderedRing K]
  {rf : String → Option XFloat} {root part part₁ part₂ : Yaml} {f g f₁ g₁ f₂ g₂ : Nat → Nat}

/-- A plan of a document contains a plan of each part. -/
theorem part_plan (h : Doc.PartOf rf root part f g) {agent : Nat → Nat} {start finish : Nat → K} (hp : Doc.Plan rf root agent start finish) :
    ∃ agent' : Nat → Nat, Doc.Plan rf part agent' (start ∘ g) (finish ∘ g) := by
  classical
  have hag : ∀ k, ∃ i, k < (tasks part).length → i < (agents part).length ∧ agent (g k) = f i := by
    intro k
    by_cases hk : k < (tasks part).length
    · obtain ⟨q', hq', -, hall⟩ := h.tasks k _ (List.getElem?_eq_getElem hk)
      obtain ⟨-, w', -, hw', hm, -⟩ := hp.time _ _ hq'
      obtain ⟨i, hi, e⟩ := hall _ _ hw' hm
      exact ⟨i, fun _ => ⟨hi, e⟩⟩
    · exact ⟨0, fun hk' => absurd hk' hk⟩
  choose agent' hagent using hag
  refine ⟨agent', ?_, ?_, ?_⟩
  · intro k q hq
    have hk := (List.getElem?_eq_some_iff.1 hq).1
    obtain ⟨q', hq', hsame, -⟩ := h.tasks k q hq
    obtain ⟨h0, w', x, hw', hm, hx, e⟩ := hp.time _ _ hq'
    obtain ⟨hi, ea⟩ := hagent k hk
    rw [ea] at hw'
    obtain ⟨s1, s2⟩ := hsame _ _ w' (List.getElem?_eq_getElem hi) hw'
    exact ⟨h0, _, x, List.getElem?_eq_getElem hi, s1.1 hm, (s2 x).1 hx, e⟩
  · intro k d hd
    obtain ⟨_, _, hk, hd', _⟩ := id hd
    exact hp.deps _ _ ((h.deps k d (List.getElem?_eq_some_iff.1 hk).1 (List.getElem?_eq_some_iff.1 hd').1).2 hd)
  · intro k hk l hl hne e
    obtain ⟨q, hq, -⟩ := h.tasks k _ (List.getElem?_eq_getElem hk)
    obtain ⟨r, hr, -⟩ := h.tasks l _ (List.getElem?_eq_getElem hl)
    refine hp.alone _ (List.getElem?_eq_some_iff.1 hq).1 _ (List.getElem?_eq_some_iff.1 hr).1 (fun e' => hne (h.tasks_apart k hk l hl e')) ?_
    rw [(hagent k hk).2, (hagent l hl).2, e]

/-- C117, plans: two plans of the parts, put together, are a plan of the document. -/
theorem teams_plan (h : Doc.TwoTeams rf root part₁ part₂ f₁ g₁ f₂ g₂) {agent₁ agent₂ : Nat → Nat} {start₁ start₂ finish₁ finish₂ : Nat → K}
    (hp₁ : Doc.Plan rf part₁ agent₁ start₁ finish₁) (hp₂ : Doc.Plan rf part₂ agent₂ start₂ finish₂) :
    ∃ (agent : Nat → Nat) (start finish : Nat → K), Doc.Plan rf root agent start finish ∧
      (∀ k < (tasks part₁).length, agent (g₁ k) = f₁ (agent₁ k) ∧ start (g₁ k) = start₁ k ∧ finish (g₁ k) = finish₁ k) ∧
      ∀ k < (tasks part₂).length, agent (g₂ k) = f₂ (agent₂ k) ∧ start (g₂ k) = start₂ k ∧ finish (g₂ k) = finish₂ k := by
  classical
  have hall : ∀ n, ∃ r : Nat × K × K, (∀ k < (tasks part₁).length, n = g₁ k → r = (f₁ (agent₁ k), start₁ k, finish₁ k)) ∧
      ∀ k < (tasks part₂).length, n = g₂ k → r = (f₂ (agent₂ k), start₂ k, finish₂ k) := by
    intro n
    by_cases h1 : ∃ k < (tasks part₁).length, n = g₁ k
    · obtain ⟨k, hk, rfl⟩ := h1
      refine ⟨(f₁ (agent₁ k), start₁ k, finish₁ k), fun l hl e => ?_, fun l hl e => absurd e (h.tasks_apart k hk l hl)⟩
      rw [h.first.tasks_apart k hk l hl e]
    · by_cases h2 : ∃ k < (tasks part₂).length, n = g₂ k
      · obtain ⟨k, hk, rfl⟩ := h2
        refine ⟨(f₂ (agent₂ k), start₂ k, finish₂ k), fun l hl e => absurd e.symm (h.tasks_apart l hl k hk), fun l hl e => ?_⟩
        rw [h.second.tasks_apart k hk l hl e]
      · exact ⟨(0, 0, 0), fun k hk e => absurd ⟨k, hk, e⟩ h1, fun k hk e => absurd ⟨k, hk, e⟩ h2⟩
  choose r hr₁ hr₂ using hall
  -- the parts, in a form in which they can be exchanged
  have time : ∀ {part : Yaml} {f g agent' : Nat → Nat} {start' finish' : Nat → K}, Doc.PartOf rf root part f g → Doc.Plan rf part agent' start' finish' →
      (∀ k < (tasks part).length, r (g k) = (f (agent' k), start' k, finish' k)) → ∀ l < (tasks part).length, ∀ q', (tasks root)[g l]? = some q' →
      0 ≤ (r (g l)).2.1 ∧ ∃ w x, (agents root)[(r (g l)).1]? = some w ∧ MayDo w q'.2 ∧ Takes rf w q'.2 x ∧ (r (g l)).2.2 = (r (g l)).2.1 + x := by
    intro part f g agent' start' finish' hpart hplan hr l hl q' hq'
    obtain ⟨q'', e, hsame, -⟩ := hpart.tasks l _ (List.getElem?_eq_getElem hl)
    obtain rfl : q'' = q' := Option.some.inj (e.symm.trans hq')
    obtain ⟨h0, w, x, hw, hm, hx, ef⟩ := hplan.time l _ (List.getElem?_eq_getElem hl)
    obtain ⟨w', hw'⟩ := hpart.agents _ _ hw
    obtain ⟨s1, s2⟩ := hsame _ _ _ hw hw'
    rw [hr l hl]
    exact ⟨h0, w', x, hw', s1.2 hm, (s2 x).2 hx, ef⟩
  have alone : ∀ {part : Yaml} {f g agent' : Nat → Nat} {start' finish' : Nat → K}, Doc.PartOf rf root part f g → Doc.Plan rf part agent' start' finish' →
      (∀ k < (tasks part).length, r (g k) = (f (agent' k), start' k, finish' k)) → ∀ k < (tasks part).length, ∀ l < (tasks part).length,
      g k ≠ g l → (r (g k)).1 = (r (g l)).1 → (r (g k)).2.2 ≤ (r (g l)).2.1 ∨ (r (g l)).2.2 ≤ (r (g k)).2.1 := by
    intro part f g agent' start' finish' hpart hplan hr k hk l hl hne e
    rw [hr k hk, hr l hl] at e ⊢
    obtain ⟨-, w, -, hw, -⟩ := hplan.time k _ (List.getElem?_eq_getElem hk)
    obtain ⟨-, w', -, hw', -⟩ := hplan.time l _ (List.getElem?_eq_getElem hl)
    exact hplan.alone k hk l hl (fun e => hne (by rw [e])) (hpart.agents_apart _ (List.getElem?_eq_some_iff.1 hw).1 _ (List.getElem?_eq_some_iff.1 hw').1 e)
  have deps : ∀ {part : Yaml} {f g agent' : Nat → Nat} {start' finish' : Nat → K}, Doc.PartOf rf root part f g → Doc.Plan rf part agent' start' finish' →
      (∀ k < (tasks part).length, r (g k) = (f (agent' k), start' k, finish' k)) → ∀ k < (tasks part).length, ∀ l < (tasks part).length,
      DependsOn root (g k) (g l) → (r (g l)).2.2 ≤ (r (g k)).2.1 := by
    intro part f g agent' start' finish' hpart hplan hr k hk l hl hd
    rw [hr k hk, hr l hl]
    exact hplan.deps _ _ ((hpart.deps k l hk hl).1 hd)
  have e₁ : ∀ k < (tasks part₁).length, r (g₁ k) = (f₁ (agent₁ k), start₁ k, finish₁ k) := fun k hk => hr₁ _ k hk rfl
  have e₂ : ∀ k < (tasks part₂).length, r (g₂ k) = (f₂ (agent₂ k), start₂ k, finish₂ k) := fun k hk => hr₂ _ k hk rfl
  have apart : ∀ k < (tasks part₁).length, ∀ l < (tasks part₂).length, (r (g₁ k)).1 ≠ (r (g₂ l)).1 := by
    intro k hk l hl
    rw [e₁ k hk, e₂ l hl]
    obtain ⟨-, w, -, hw, -⟩ := hp₁.time k _ (List.getElem?_eq_getElem hk)
    obtain ⟨-, w', -, hw', -⟩ := hp₂.time l _ (List.getElem?_eq_getElem hl)
    exact h.agents_apart _ (List.getElem?_eq_some_iff.1 hw).1 _ (List.getElem?_eq_some_iff.1 hw').1
  refine ⟨fun n => (r n).1, fun n => (r n).2.1, fun n => (r n).2.2, ⟨?_, ?_, ?_⟩, ?_, ?_⟩
  · intro n q hq
    rcases h.tasks n (List.getElem?_eq_some_iff.1 hq).1 with ⟨l, hl, rfl⟩ | ⟨l, hl, rfl⟩
    · exact time h.first hp₁ e₁ l hl q hq
    · exact time h.second hp₂ e₂ l hl q hq
  · intro n d hd
    obtain ⟨_, _, hn, hd', _⟩ := id hd
    rcases h.tasks n (List.getElem?_eq_some_iff.1 hn).1 with ⟨k, hk, rfl⟩ | ⟨k, hk, rfl⟩ <;>
      rcases h.tasks d (List.getElem?_eq_some_iff.1 hd').1 with ⟨l, hl, rfl⟩ | ⟨l, hl, rfl⟩
    · exact deps h.first hp₁ e₁ k hk l hl hd
    · exact absurd hd (h.deps k hk l hl).1
    · exact absurd hd (h.deps l hl k hk).2
    · exact deps h.second hp₂ e₂ k hk l hl hd
  · intro n hn d hd' hne e
    rcases h.tasks n hn with ⟨k, hk, rfl⟩ | ⟨k, hk, rfl⟩ <;> rcases h.tasks d hd' with ⟨l, hl, rfl⟩ | ⟨l, hl, rfl⟩
    · exact alone h.first hp₁ e₁ k hk l hl hne e
    · exact absurd e (apart k hk l hl)
    · exact absurd e.symm (apart l hl k hk)
    · exact alone h.second hp₂ e₂ k hk l hl hne e
  · intro k hk
    simp only [e₁ k hk, and_self]
  · intro k hk
    simp only [e₂ k hk, and_self]

end

section
variable {K : Type} [_root_.Field K] [LinearOrder K] [IsStrictOrderedRing K] [FloorRing K]
  {E : FloatEnv K} {p p₁ p₂ : Project} {root part₁ part₂ : Yaml} {f₁ g₁ f₂ g₂ : Nat → Nat}
  {m : Machine K} {o : Cli.Options K} {read : ReadReal} {isFile : String → Bool} {terminal : Bool} {a : Arguments}

/-- C117, the command `schedule` for exact arithmetic, under the conditions of C91 for the document and both parts. The least makespan that the program can write for
the document is the greater of the least makespans it can write for the parts. -/
theorem teams_independent (hE : E.IsExact) (hsig : SignsAgree read) (hnof : isFile "" = false)
    (h : parse E read isFile terminal .schedule a = .accepted o)
    (hz : ∀ t, a.restartPeriod = some t → ¬ LeadingZero t)
    (hb : ∀ t q, a.betaScale = some t → read t = some (.fin q) → ModerateBeta E q)
    (hout : a.output ≠ some "") (hl : load m.readFloat root = ok p) (hl₁ : load m.readFloat part₁ = ok p₁) (hl₂ : load m.readFloat part₂ = ok p₂)
    (hs : Schedulable m.readFloat root 1 (2 ^ 31)) (hs₁ : Schedulable m.readFloat part₁ 1 (2 ^ 31)) (hs₂ : Schedulable m.readFloat part₂ 1 (2 ^ 31))
    (hw : CanWrite m o) (ht : 0 < m.threads) (hidle : 8255 ≤ o.opt.maxIdleIters)
    (hteams : Doc.TwoTeams m.readFloat root part₁ part₂ f₁ g₁ f₂ g₂) :
    ∃ mk₁ mk₂ : Int, ∀ r n, (r = part₁ ∧ n = mk₁ ∨ r = part₂ ∧ n = mk₂ ∨ r = root ∧ n = max mk₁ mk₂) →
      (∃ draws, WritesMakespan E { m with source := .doc r, draws := draws } o (a.output.getD "schedule.json") n) ∧
      ∀ draws n', WritesMakespan E { m with source := .doc r, draws := draws } o (a.output.getD "schedule.json") n' → n ≤ n' := by
  obtain ⟨mk, V, a1, ⟨agent, start, finish, a2, a3⟩, a4, a5, a6⟩ := least_written hE hsig hnof h hz hb hout hl hs hw ht hidle
  obtain ⟨mk₁, V₁, b1, ⟨agent₁, start₁, finish₁, b2, b3⟩, b4, b5, b6⟩ := least_written hE hsig hnof h hz hb hout hl₁ hs₁ hw ht hidle
  obtain ⟨mk₂, V₂, c1, ⟨agent₂, start₂, finish₂, c2, c3⟩, c4, c5, c6⟩ := least_written hE hsig hnof h hz hb hout hl₂ hs₂ hw ht hidle
  have hle : V ≤ max V₁ V₂ := by
    obtain ⟨agent', start', finish', d1, d2, d3⟩ := teams_plan hteams b2 c2
    refine a4 _ _ _ _ d1 fun n hn => ?_
    rcases hteams.tasks n hn with ⟨k, hk, rfl⟩ | ⟨k, hk, rfl⟩
    · rw [(d2 k hk).2.2]
      exact (b3 k hk).trans (le_max_left _ _)
    · rw [(d3 k hk).2.2]
      exact (c3 k hk).trans (le_max_right _ _)
  have part : ∀ {part : Yaml} {f g : Nat → Nat} {W : K}, Doc.PartOf m.readFloat root part f g →
      (∀ (agent : Nat → Nat) (start finish : Nat → K) U, Doc.Plan m.readFloat part agent start finish → (∀ k < (tasks part).length, finish k ≤ U) → W ≤ U) →
      W ≤ V := by
    intro part f g W hpart hleast
    obtain ⟨agent', d⟩ := part_plan hpart a2
    refine hleast _ _ _ _ d fun k hk => ?_
    obtain ⟨q, hq, -⟩ := hpart.tasks k _ (List.getElem?_eq_getElem hk)
    exact a3 _ (List.getElem?_eq_some_iff.1 hq).1
  have hV : V = max V₁ V₂ := le_antisymm hle (max_le (part hteams.first b4) (part hteams.second c4))
  have e : mk = max mk₁ mk₂ := by
    have e0 : ⌊V⌋ = mk := Int.floor_eq_iff.2 a1
    have e1 : ⌊V₁⌋ = mk₁ := Int.floor_eq_iff.2 b1
    have e2 : ⌊V₂⌋ = mk₂ := Int.floor_eq_iff.2 c1
    rw [← e0, ← e1, ← e2, hV]
    exact Monotone.map_max Int.floor_mono
  refine ⟨mk₁, mk₂, ?_⟩
  rintro r n (⟨rfl, rfl⟩ | ⟨rfl, rfl⟩ | ⟨rfl, rfl⟩)
  · exact ⟨b5, b6⟩
  · exact ⟨c5, c6⟩
  · rw [← e]; exact ⟨a5, a6⟩

end

/-! ### Example -/

namespace Crew
open Sample

def frame : Yaml := obj [("name", str "frame"), ("id", str "f"), ("duration", str "2h"), ("group", str "wood")]
def roof : Yaml := obj [("name", str "roof"), ("duration", str "1h"), ("group", str "wood"), ("depends_on", str "f")]
def wires : Yaml := obj [("name", str "wires"), ("duration", str "90m"), ("group", str "power")]
def ann : Yaml × Yaml := (str "Ann", obj [("groups", .seq [str "wood"])])
def eve : Yaml × Yaml := (str "Eve", obj [("groups", .seq [str "power"]), ("performance", str "2")])

/-- A house -/
def house : Yaml := obj [("agents", .map [eve, ann]), ("tasks", .seq [frame, wires, roof])]
/-- The carpenter's part -/
def wood : Yaml := obj [("agents", .map [ann]), ("tasks", .seq [frame, roof])]
/-- The electrician's part -/
def power : Yaml := obj [("agents", .map [eve]), ("tasks", .seq [wires])]

def frameTask : Task := { name := "frame", id := "f", durMin := 7200, durMax := 7200, groupIds := [0], agentId := none, dependencies := [] }
def wiresTask : Task := { name := "wires", id := "", durMin := 5400, durMax := 5400, groupIds := [0], agentId := none, dependencies := [] }
def roofTask : Task := { name := "roof", id := "", durMin := 3600, durMax := 3600, groupIds := [0], agentId := none, dependencies := [1] }
def annAgent : Agent := { name := "Ann", id := 0, groupIds := [0], perfMin := .fin 1, perfMax := .fin 1 }
def eveAgent : Agent := { name := "Eve", id := 0, groupIds := [0], perfMin := .fin 2, perfMax := .fin 2 }

def houseProject : Project where
  agents := [eveAgent, { annAgent with id := 1, groupIds := [1] }]
  groups := ["power", "wood"]
  tasks := [{ frameTask with groupIds := [1] }, wiresTask, { roofTask with groupIds := [1], dependencies := [0] }]

def woodProject : Project where
  agents := [annAgent]
  groups := ["wood"]
  tasks := [frameTask, { roofTask with dependencies := [0] }]

def powerProject : Project where
  agents := [eveAgent]
  groups := ["power"]
  tasks := [wiresTask]

theorem house_loads : load number house = ok houseProject := by
  rw [Load.load_eval 20 _ _ (by decide)]
  decide +kernel

theorem wood_loads : load number wood = ok woodProject := by
  rw [Load.load_eval 20 _ _ (by decide)]
  decide +kernel

theorem power_loads : load number power = ok powerProject := by
  rw [Load.load_eval 20 _ _ (by decide)]
  decide +kernel

theorem house_tasks : tasks house = [([0], frame), ([1], wires), ([2], roof)] := by
  simp [house, frame, wires, roof, tasks, Sample.obj, Sample.str, Yaml.get, Yaml.lookup, listAt, tasksAt]

theorem wood_tasks : tasks wood = [([0], frame), ([1], roof)] := by
  simp [wood, frame, roof, tasks, Sample.obj, Sample.str, Yaml.get, Yaml.lookup, listAt, tasksAt]

theorem power_tasks : tasks power = [([0], wires)] := by
  simp [power, wires, tasks, Sample.obj, Sample.str, Yaml.get, Yaml.lookup, listAt, tasksAt]

theorem eve_not_frame : ¬ MayDo eve frame := by
  simp [MayDo, Doc.Field, eve, frame, AgentGroup, TaskGroup, Sample.obj, Sample.str]

theorem eve_not_roof : ¬ MayDo eve roof := by
  simp [MayDo, Doc.Field, eve, roof, AgentGroup, TaskGroup, Sample.obj, Sample.str]

theorem ann_not_wires : ¬ MayDo ann wires := by
  simp [MayDo, Doc.Field, ann, wires, AgentGroup, TaskGroup, Sample.obj, Sample.str]

/-- Ann and Eve are two teams. -/
theorem crew : Doc.TwoTeams number house wood power (fun _ => 1) (fun k => 2 * k) (fun _ => 0) (fun _ => 1) := by
  have ha : agents house = [eve, ann] := rfl
  have hw : agents wood = [ann] := rfl
  have hp : agents power = [eve] := rfl
  refine ⟨⟨?_, ?_, ?_, ?_, ?_⟩, ⟨?_, ?_, ?_, ?_, ?_⟩, ?_, ?_, ?_, ?_⟩
  · simp only [hw, List.length_singleton]
    omega
  · simp only [wood_tasks]
    intro k _ l _ e
    omega
  · intro i w h
    exact ⟨ann, rfl⟩
  · intro k q h
    rw [wood_tasks] at h
    have same : ∀ (n : Yaml) (i : Nat) w w', (agents wood)[i]? = some w → (agents house)[1]? = some w' →
        (MayDo w' n ↔ MayDo w n) ∧ ∀ x, Takes number w' n x ↔ Takes number w n x := by
      intro n i w w' h1 h2
      rw [hw] at h1
      rw [ha] at h2
      match i, h1 with
      | 0, h1 => cases h1; cases h2; exact ⟨Iff.rfl, fun _ => Iff.rfl⟩
    match k, h with
    | 0, h =>
      cases h
      refine ⟨([0], frame), by rw [house_tasks]; rfl, same _, fun j w' h1 h2 => ?_⟩
      rw [ha] at h1
      match j, h1 with
      | 0, h1 => cases h1; exact absurd h2 eve_not_frame
      | 1, h1 => exact ⟨0, by simp [hw], rfl⟩
    | 1, h =>
      cases h
      refine ⟨([2], roof), by rw [house_tasks]; rfl, same _, fun j w' h1 h2 => ?_⟩
      rw [ha] at h1
      match j, h1 with
      | 0, h1 => cases h1; exact absurd h2 eve_not_roof
      | 1, h1 => exact ⟨0, by simp [hw], rfl⟩
  · rw [depends_loaded house_loads, depends_loaded wood_loads]
    simp only [wood_tasks]
    intro k d hk hd
    have hk : k < 2 := hk
    have hd : d < 2 := hd
    interval_cases k <;> interval_cases d <;> simp [Project.DependsOn, houseProject, woodProject, frameTask, roofTask]
  · simp only [hp, List.length_singleton]
    omega
  · simp only [power_tasks, List.length_singleton]
    omega
  · intro i w h
    exact ⟨eve, rfl⟩
  · intro k q h
    rw [power_tasks] at h
    match k, h with
    | 0, h =>
      cases h
      refine ⟨([1], wires), by rw [house_tasks]; rfl, fun i w w' h1 h2 => ?_, fun j w' h1 h2 => ?_⟩
      · rw [hp] at h1
        rw [ha] at h2
        match i, h1 with
        | 0, h1 => cases h1; cases h2; exact ⟨Iff.rfl, fun _ => Iff.rfl⟩
      · rw [ha] at h1
        match j, h1 with
        | 0, h1 => exact ⟨0, by simp [hp], rfl⟩
        | 1, h1 => cases h1; exact absurd h2 ann_not_wires
  · rw [depends_loaded house_loads, depends_loaded power_loads]
    simp only [power_tasks]
    intro k d hk hd
    have hk : k < 1 := hk
    have hd : d < 1 := hd
    interval_cases k; interval_cases d; simp [Project.DependsOn, houseProject, powerProject, wiresTask]
  · simp only [house_tasks, wood_tasks, power_tasks]
    intro k hk
    have hk : k < 3 := hk
    interval_cases k
    · exact .inl ⟨0, by simp, rfl⟩
    · exact .inr ⟨0, by simp, rfl⟩
    · exact .inl ⟨1, by simp, rfl⟩
  · intro k _ l _
    omega
  · intro i _ j _
    omega
  · rw [depends_loaded house_loads]
    simp only [wood_tasks]
    intro k hk l _
    have hk : k < 2 := hk
    interval_cases k <;> simp [Project.DependsOn, houseProject, frameTask, roofTask, wiresTask]

theorem house_fine : houseProject.Sound ∧ houseProject.Moderate := by
  refine ⟨loaded_sound house_loads (by simp [houseProject, frameTask, roofTask, wiresTask]) ?_ ?_, ⟨⟨_, List.mem_cons_self, ?_⟩, ?_⟩⟩
  · intro a ha
    simp only [houseProject, List.mem_cons, List.not_mem_nil, or_false] at ha
    rcases ha with rfl | rfl <;> exact ⟨_, _, rfl, rfl⟩
  · intro t ht
    simp only [houseProject, List.mem_cons, List.not_mem_nil, or_false] at ht
    rcases ht with rfl | rfl | rfl <;> simp [houseProject, frameTask, roofTask, wiresTask, annAgent, eveAgent, Eligible]
  all_goals
    intro a ha q hq
    simp only [houseProject, List.mem_cons, List.not_mem_nil, or_false] at ha
    rcases ha with rfl | rfl <;> (cases hq; simp [houseProject, Task.meanDuration, frameTask, roofTask, wiresTask]; try norm_num)

theorem wood_fine : woodProject.Sound ∧ woodProject.Moderate := by
  refine ⟨loaded_sound wood_loads (by simp [woodProject, frameTask, roofTask]) ?_ ?_, ⟨⟨_, List.mem_cons_self, ?_⟩, ?_⟩⟩
  · intro a ha
    simp only [woodProject, List.mem_cons, List.not_mem_nil, or_false] at ha
    rcases ha with rfl; exact ⟨_, _, rfl, rfl⟩
  · intro t ht
    simp only [woodProject, List.mem_cons, List.not_mem_nil, or_false] at ht
    rcases ht with rfl | rfl <;> simp [woodProject, frameTask, roofTask, annAgent, Eligible]
  all_goals
    intro a ha q hq
    simp only [woodProject, List.mem_cons, List.not_mem_nil, or_false] at ha
    rcases ha with rfl; (cases hq; simp [woodProject, Task.meanDuration, frameTask, roofTask]; try norm_num)

theorem power_fine : powerProject.Sound ∧ powerProject.Moderate := by
  refine ⟨loaded_sound power_loads (by simp [powerProject, wiresTask]) ?_ ?_, ⟨⟨_, List.mem_cons_self, ?_⟩, ?_⟩⟩
  · intro a ha
    simp only [powerProject, List.mem_cons, List.not_mem_nil, or_false] at ha
    rcases ha with rfl; exact ⟨_, _, rfl, rfl⟩
  · intro t ht
    simp only [powerProject, List.mem_cons, List.not_mem_nil, or_false] at ht
    rcases ht with rfl; simp [powerProject, wiresTask, eveAgent, Eligible]
  all_goals
    intro a ha q hq
    simp only [powerProject, List.mem_cons, List.not_mem_nil, or_false] at ha
    rcases ha with rfl; (cases hq; simp [powerProject, Task.meanDuration, wiresTask]; try norm_num)

/-- C117 for the example: all the conditions are met. -/
example : ∃ (o : Cli.Options ℚ) (mk₁ mk₂ : Int), ∀ r n, (r = wood ∧ n = mk₁ ∨ r = power ∧ n = mk₂ ∨ r = house ∧ n = max mk₁ mk₂) →
    (∃ draws, WritesMakespan FloatEnv.rat { exampleMachine draws with source := .doc r } o "schedule.json" n) ∧
    ∀ draws n', WritesMakespan FloatEnv.rat { exampleMachine draws with source := .doc r } o "schedule.json" n' → n ≤ n' := by
  obtain ⟨o, hpar, hidle⟩ := plan_accepted
  obtain ⟨mk₁, mk₂, h⟩ := teams_independent (m := exampleMachine (fun _ _ _ => ⟨0, 0, 0, 0⟩))
    (fun _ => rfl) exampleRead_signs (by decide) hpar (by simp) (by simp) (by simp) house_loads wood_loads power_loads
    (sound_schedulable house_loads house_fine.1 house_fine.2) (sound_schedulable wood_loads wood_fine.1 wood_fine.2)
    (sound_schedulable power_loads power_fine.1 power_fine.2)
    (example_canWrite (draws := fun _ _ _ => ⟨0, 0, 0, 0⟩)) (by exact (by decide : 0 < 4)) (by rw [hidle]; decide) crew
  exact ⟨o, mk₁, mk₂, h⟩

end Crew

end Angonoka.Props
