import Verif.Spec.Documented

/-!
# Runs of the simulation in terms of the document

What a run of the simulation means for the configuration file and the entries of the output file. Nothing of the simulation is used.
-/

namespace Angonoka.Doc
open Angonoka

variable {K : Type} [_root_.Field K] [LinearOrder K] [IsStrictOrderedRing K]

/-- The value that the standard normal number `z` stands for, in the normal distribution with the middle of the bounds as its mean and a
quarter of their difference as its standard deviation -/
def normal (lo hi z : K) : K := (lo + hi) / 2 + z * ((hi - lo) / 4)

/-- `x.1` is a random value for the bounds `lo` and `hi`, and `x.2` are the standard normal numbers it took. If the bounds are equal it is
their value, and takes no number; otherwise it is the first positive value that the numbers stand for. -/
def Sampled (lo hi : K) (x : K × List K) : Prop :=
  0 < x.1 ∧ (lo = hi ∧ x = (lo, []) ∨
    lo ≠ hi ∧ ∃ rejected z, x = (normal lo hi z, rejected ++ [z]) ∧ ∀ r ∈ rejected, normal lo hi r ≤ 0)

/-- The times at which the entries of a timetable start and finish if entry `i` takes `time i`, and entries wait for those they have to
wait for. -/
structure Execution (root : Yaml) (of : List Nat) (es : List TaskEntry) (time start finish : Nat → K) : Prop where
  nonneg : ∀ i < es.length, 0 ≤ start i
  time : ∀ i < es.length, finish i = start i + time i
  waits : ∀ i < es.length, ∀ j < es.length, MustWait root of es i j → finish j ≤ start i

/-- `v` is the result of a random run of the timetable, which takes the standard normal numbers `zs`. Every agent of the document gets a
random performance, and then every task a random duration; each entry takes the duration of its task divided by the performance of its
agent; `v` are the whole seconds until the last entry has finished, if all entries finish as early as possible. -/
def Simulated (rf : String → Option XFloat) (root : Yaml) (of : List Nat) (es : List TaskEntry) (zs : List K) (v : Int) : Prop :=
  ∃ (perf dur : List (K × List K)) (time start finish : Nat → K) (V : K),
    List.Forall₂ (fun w x => ∃ slow fast : ℚ, Performance rf w.2 (.fin slow) (.fin fast) ∧
      Sampled (slow : K) (fast : K) x) (agents root) perf ∧
    List.Forall₂ (fun q x => ∃ lo hi : Nat, Duration q.2 lo hi ∧ Sampled (lo : K) (hi : K) x) (tasks root) dur ∧
    zs = (perf ++ dur).flatMap Prod.snd ∧
    (∀ (i k j : Nat) e w x y, es[i]? = some e → of[i]? = some k → dur[k]? = some x →
      (agents root)[j]? = some w → w.1 = .scalar e.agent → perf[j]? = some y → time i = x.1 / y.1) ∧
    Execution root of es time start finish ∧
    (∀ start' finish', Execution root of es time start' finish' → ∀ i < es.length, finish i ≤ finish' i) ∧
    (∀ i < es.length, finish i ≤ V) ∧ (∃ i < es.length, finish i = V) ∧ IsWholePart v V

/-- `vs` are the results of successive random runs of the timetable, which take their numbers from the front of `zs`. -/
def Simulations (rf : String → Option XFloat) (root : Yaml) (of : List Nat) (es : List TaskEntry) (zs : List K) (vs : List Int) :
    Prop :=
  ∃ runs : List (Int × List K), (∀ r ∈ runs, Simulated rf root of es r.2 r.1) ∧ vs = runs.map Prod.fst ∧
    runs.flatMap Prod.snd <+: zs

end Angonoka.Doc
