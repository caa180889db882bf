import Verif.Base.Outcome

/-!
# Histogram

Model of `/repo/src/histogram.{h,cpp}`. `int32` is `safe<std::int_fast32_t>`, 64 bits wide on
the supported platform, and modelled as unbounded. An iterator is a position in the array of bins;
its arithmetic is that of array indices.
-/

namespace Angonoka
open Outcome

/-- `Bin` (`histogram.h:17-57`) -/
structure Bin where
  count : Int
  low : Int
  middle : Int
  high : Int
  deriving DecidableEq, Repr

/-- `Histogram` (`histogram.h:62-109`): the bins are a `boost::container::flat_map`, an
array of key and count sorted by key. -/
structure Histogram where
  binSize : Int
  bins : List (Int × Int)
  deriving DecidableEq, Repr

namespace Histogram

/-- Constructor (`histogram.cpp:6-10`) -/
def new (binSize : Int) : Outcome Histogram := do
  expects (decide (1 ≤ binSize)) "Histogram: bin_size >= 1"
  return ⟨binSize, []⟩

/-- `++bins.try_emplace(key, 0).first->second` (`histogram.cpp:18`): insert at the sorted position
unless present, then increment. -/
def increment (key : Int) : List (Int × Int) → List (Int × Int)
  | [] => [(key, 1)]
  | (k, c) :: rest =>
    if key < k then (key, 1) :: (k, c) :: rest
    else if k < key then (k, c) :: increment key rest
    else (k, c + 1) :: rest

/-- `Histogram::operator()(value)` (`histogram.cpp:12-19`); integer division truncates. -/
def insert (h : Histogram) (value : Int) : Outcome Histogram := do
  expects (decide (1 ≤ h.binSize)) "Histogram: bin_size >= 1"
  expects (decide (0 ≤ value)) "Histogram: value >= 0"
  return { h with bins := increment (value.tdiv h.binSize) h.bins }

/-- `clear` (`histogram.cpp:21`) -/
def clear (h : Histogram) : Histogram := { h with bins := [] }

/-- `size` (`histogram.cpp:23`) -/
def size (h : Histogram) : Nat := h.bins.length

/-- `Iterator::to_bin` (`histogram.cpp:142-154`), with the contract of the iterator's constructor
(`histogram.cpp:51`), which is the same as its last one. -/
def toBin (h : Histogram) (v : Int × Int) : Outcome Bin := do
  expects (decide (0 ≤ v.1)) "to_bin: key >= 0"
  expects (decide (0 ≤ v.2)) "to_bin: count >= 0"
  expects (decide (1 ≤ h.binSize)) "to_bin: bin_size >= 1"
  let start := v.1 * h.binSize
  return { count := v.2, low := start, middle := start + h.binSize.tdiv 2, high := start + h.binSize }

/-- `operator[]` (`histogram.cpp:38-43`) -/
def binAt (h : Histogram) (index : Nat) : Outcome Bin := do
  expects (!h.bins.isEmpty) "Histogram: not empty"
  match h.bins[index]? with
  | some v => h.toBin v
  | none => ub "Histogram: index"

/-- Iteration from `begin()` to `end()` (`histogram.cpp:28-36, 56-62`). -/
def toList (h : Histogram) : Outcome (List Bin) := h.bins.mapM h.toBin

end Histogram
end Angonoka
