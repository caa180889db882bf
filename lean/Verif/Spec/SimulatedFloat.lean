import Verif.Spec.DocumentedRun
import Verif.Spec.Rounding

/-!
# Runs of the simulation in single precision, in terms of the document

As `Spec/DocumentedRun`, with rounding to single precision. Nothing of the simulation is used.
-/

namespace Angonoka.Doc
open Angonoka

variable {K : Type} [_root_.Field K] [LinearOrder K] [IsStrictOrderedRing K] [FloorRing K]

/-- `normal`, when the result of every operation is rounded to single precision -/
def roundedNormal (lo hi z : K) : K := Binary32.round (Binary32.round (z * Binary32.round (Binary32.round (hi - lo) / 4)) + Binary32.round (Binary32.round (lo + hi) / 2))

/-- As `Sampled`, in single precision -/
def SampledFloat (lo hi : K) (x : K × List K) : Prop :=
  0 < x.1 ∧ (lo = hi ∧ x = (lo, []) ∨
    lo ≠ hi ∧ ∃ rejected z, x = (roundedNormal lo hi z, rejected ++ [z]) ∧ ∀ r ∈ rejected, roundedNormal lo hi r ≤ 0)

/-- `v` is the result of a random run of the timetable in single precision, which takes the standard normal numbers `zs`. The random performances and durations are
rounded. `V` is the time until the last entry has finished, if each entry takes exactly the duration of its task divided by the performance of its agent, and all entries
finish as early as possible. Then `v` is not negative, and it is `V` up to 0.0061 % and a second, unless a performance or a duration is extreme. -/
def SimulatedFloat (rf : String → Option XFloat) (root : Yaml) (of : List Nat) (es : List TaskEntry) (zs : List K) (v : Int) : Prop :=
  ∃ (perf dur : List (K × List K)) (time start finish : Nat → K) (V : K),
    List.Forall₂ (fun w x => ∃ slow fast : ℚ, Performance rf w.2 (.fin slow) (.fin fast) ∧
      SampledFloat (slow : K) (fast : K) x) (agents root) perf ∧
    List.Forall₂ (fun q x => ∃ lo hi : Nat, Duration q.2 lo hi ∧ SampledFloat (Binary32.round (lo : K)) (Binary32.round (hi : K)) x) (tasks root) dur ∧
    zs = (perf ++ dur).flatMap Prod.snd ∧
    (∀ (i k j : Nat) e w x y, es[i]? = some e → of[i]? = some k → dur[k]? = some x →
      (agents root)[j]? = some w → w.1 = .scalar e.agent → perf[j]? = some y → time i = x.1 / y.1) ∧
    Execution root of es time start finish ∧
    (∀ start' finish', Execution root of es time start' finish' → ∀ i < es.length, finish i ≤ finish' i) ∧
    (∀ i < es.length, finish i ≤ V) ∧ (∃ i < es.length, finish i = V) ∧ 0 ≤ v ∧
    ((∀ y ∈ perf, 1 / 2 ^ 40 ≤ y.1 ∧ y.1 ≤ 2 ^ 40) → (∀ x ∈ dur, 1 / 2 ^ 62 ≤ x.1 ∧ x.1 ≤ 2 ^ 62) → CloseTo v V)

/-- `vs` are the results of successive random runs of the timetable in single precision, which take their numbers from the front of `zs`. -/
def SimulationsFloat (rf : String → Option XFloat) (root : Yaml) (of : List Nat) (es : List TaskEntry) (zs : List K) (vs : List Int) :
    Prop :=
  ∃ runs : List (Int × List K), (∀ r ∈ runs, SimulatedFloat rf root of es r.2 r.1) ∧ vs = runs.map Prod.fst ∧
    runs.flatMap Prod.snd <+: zs

/-- The bounds in the document are not extreme: the greatest duration of a task is at most 256 times its least one, and the greatest performance of an agent at
most 256 times its least one. -/
structure Narrow (rf : String → Option XFloat) (root : Yaml) : Prop where
  durations : ∀ q ∈ tasks root, ∀ lo hi, Duration q.2 lo hi → 1 ≤ lo ∧ lo ≤ hi ∧ hi ≤ 256 * lo ∧ hi < 2 ^ 60
  performance : ∀ w ∈ agents root, ∀ slow fast : ℚ, Performance rf w.2 (.fin slow) (.fin fast) →
    1 / 2 ^ 39 ≤ slow ∧ slow ≤ fast ∧ fast ≤ 256 * slow ∧ fast ≤ 2 ^ 39

/-- Entry `i` takes `best i` if its task takes its least duration and its agent has its greatest performance, and `worst i` in the opposite case. -/
def CaseTimes (rf : String → Option XFloat) (root : Yaml) (of : List Nat) (es : List TaskEntry) (best worst : Nat → K) : Prop :=
  ∀ (i k : Nat) e q w (lo hi : Nat) (slow fast : ℚ), of[i]? = some k → es[i]? = some e → (tasks root)[k]? = some q → w ∈ agents root →
    w.1 = .scalar e.agent → Duration q.2 lo hi → Performance rf w.2 (.fin slow) (.fin fast) → best i = lo / fast ∧ worst i = hi / slow

/-- If entry `i` takes `time i`, and all entries finish as early as possible, the last one finishes after `V`. -/
def EarliestEnd (root : Yaml) (of : List Nat) (es : List TaskEntry) (time : Nat → K) (V : K) : Prop :=
  ∃ start finish, Execution root of es time start finish ∧ (∀ s f, Execution root of es time s f → ∀ i < es.length, finish i ≤ f i) ∧
    (∀ i < es.length, finish i ≤ V) ∧ ∃ i < es.length, finish i = V

end Angonoka.Doc
