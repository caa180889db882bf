import Verif.Spec.Loading
import Verif.Spec.Json

/-!
# The timetable in terms of the document

What the output file says about the configuration file, with nothing in between: documents are those of `Verif/Spec/Loading.lean`, and of
the output only the entries of the file are used.
-/

namespace Angonoka.Doc
open Angonoka

/-- Who may work on a task according to the documentation (`/repo/README.md:116-147`, `185-215`): the agent that the task names; if
it names none, agents without groups, and agents that have all groups of the task (so any agent if the task has no groups). -/
def MayDoDocumented (w : Yaml × Yaml) (n : Yaml) : Prop :=
  (∃ s, Field n "agent" (.scalar s) ∧ w.1 = .scalar s) ∨
    (¬ ∃ v, Field n "agent" v) ∧ ((∀ g, ¬ AgentGroup w g) ∨ ∀ g, TaskGroup n g → AgentGroup w g)

/-- Who may work on a task according to the program: as documented, but a task without groups is only for agents without groups. -/
def MayDo (w : Yaml × Yaml) (n : Yaml) : Prop :=
  (∃ s, Field n "agent" (.scalar s) ∧ w.1 = .scalar s) ∨
    (¬ ∃ v, Field n "agent" v) ∧ ((∀ g, ¬ AgentGroup w g) ∨
      (∃ g, TaskGroup n g) ∧ ∀ g, TaskGroup n g → AgentGroup w g)

/-- The agent is expected to need `x` seconds for the task: the mean of the bounds of the task's duration, in whole seconds, divided by the mean of
the bounds of the agent's performance. -/
def Takes (rf : String → Option XFloat) (w : Yaml × Yaml) (n : Yaml) (x : ℚ) : Prop :=
  ∃ (lo hi : Nat) (slow fast : ℚ), Duration n lo hi ∧ Performance rf w.2 (.fin slow) (.fin fast) ∧
    x = ((lo + hi) / 2 : Nat) / ((slow + fast) / 2)

/-- The document describes a project that can be scheduled and takes at least `a` seconds and less than `b`: somebody may do each task, no
duration is 0, the sum of a duration's bounds fits 64 bits, performances are finite, every agent needs at least `a` seconds for some task and could do all tasks in less than
`b` seconds. -/
structure Schedulable (rf : String → Option XFloat) (root : Yaml) (a b : ℚ) : Prop where
  somebody : ∀ q ∈ tasks root, ∃ w ∈ agents root, MayDo w q.2
  durations : ∀ q ∈ tasks root, ∀ lo hi, Duration q.2 lo hi → 0 < lo ∧ lo + hi < 2 ^ 63
  finite : ∀ w ∈ agents root, ∀ x y, Performance rf w.2 x y → ∃ slow fast, x = .fin slow ∧ y = .fin fast
  longer : ∃ q ∈ tasks root, ∀ lo hi, Duration q.2 lo hi →
    ∀ w ∈ agents root, ∀ x (fast : ℚ), Performance rf w.2 x (.fin fast) → a * fast ≤ ((lo + hi) / 2 : Nat)
  shorter : ∀ ds : List Nat,
    List.Forall₂ (fun q d => ∃ lo hi, Duration q.2 lo hi ∧ d = (lo + hi) / 2) (tasks root) ds →
    ∀ w ∈ agents root, ∀ (slow : ℚ) y, Performance rf w.2 (.fin slow) y → (ds.sum : ℚ) < b * slow

/-- The document has no extreme numbers: at most 127 agents, durations that fit 62 bits, and performances between 2⁻⁴⁰ and 2⁴⁰ -/
structure InRange (rf : String → Option XFloat) (root : Yaml) : Prop where
  agents : (agents root).length ≤ 127
  durations : ∀ q ∈ tasks root, ∀ lo hi, Duration q.2 lo hi → hi < 2 ^ 62
  performance : ∀ w ∈ Doc.agents root, ∀ x y, Performance rf w.2 x y →
    ∀ q : ℚ, x = .fin q ∨ y = .fin q → 1 / 2 ^ 40 ≤ q ∧ q ≤ 2 ^ 40

/-- The entries `es` are a timetable of the document, where entry `i` is for task number `of[i]` of the document. `R` says how a time
is written as a whole number. -/
structure Timetable (rf : String → Option XFloat) (root : Yaml) (R : Int → ℚ → Prop) (of : List Nat)
    (es : List TaskEntry) : Prop where
  /-- every task of the document has exactly one entry -/
  once : of.Perm (List.range (tasks root).length)
  length : es.length = of.length
  /-- a task comes after the tasks it depends on -/
  ordered : ∀ i j k d : Nat, of[i]? = some k → of[j]? = some d → DependsOn root k d → j < i
  /-- the entry has the task's name -/
  task : ∀ (i k : Nat) e q, of[i]? = some k → es[i]? = some e → (tasks root)[k]? = some q → Field q.2 "name" (.scalar e.task)
  /-- the entry has the name of an agent that may do the task, and the time this agent needs -/
  agent : ∀ (i k : Nat) e q, of[i]? = some k → es[i]? = some e → (tasks root)[k]? = some q →
    ∃ w ∈ agents root, w.1 = .scalar e.agent ∧ MayDo w q.2 ∧ ∃ x, Takes rf w q.2 x ∧ R e.duration x
  /-- the entries of an agent are numbered -/
  priority : ∀ (i : Nat) e, es[i]? = some e → e.priority = (es.take i).countP fun x => x.agent = e.agent
  nonneg : ∀ e ∈ es, 0 ≤ e.start ∧ 0 ≤ e.duration

/-- Entry `i` has to wait for entry `j`: it is for a task that depends on the other's, or the same agent does both, the other first. -/
def MustWait (root : Yaml) (of : List Nat) (es : List TaskEntry) (i j : Nat) : Prop :=
  (∃ k d : Nat, of[i]? = some k ∧ of[j]? = some d ∧ DependsOn root k d) ∨
    j < i ∧ ∃ e f, es[i]? = some e ∧ es[j]? = some f ∧ e.agent = f.agent

end Angonoka.Doc
