import Verif.Outcome
import Mathlib.Analysis.SpecialFunctions.Exp
/-
Model of dynamic parameters: src/core/DynamicParameter.h, src/core/dynamic_parameters/*.

Simplifications: `double` is ℝ, `std::size_t` is ℕ (values below 2^64 are a hypothesis of theorems where it matters), shared
pointers are values (`none` is a null pointer).
-/
namespace Rampack

/-- `std::numeric_limits<std::size_t>::max()`. -/
def sizeMax : Nat := 2 ^ 64 - 1

/-- Dynamic parameters; src/core/dynamic_parameters/{Constant,Linear,Exponential,Shifted,Piecewise}DynamicParameter.h. -/
inductive Param where
  /-- ConstantDynamicParameter.h:16-18 -/
  | const (value : ℝ)
  /-- LinearDynamicParameter.h:15-18 -/
  | linear (slope initialValue : ℝ)
  /-- ExponentialDynamicParameter.h:18-21 -/
  | exponential (initialValue rate : ℝ)
  /-- ShiftedDynamicParameter.h:18-22 -/
  | shifted (isShiftNegative : Bool) (cycleShift : Nat) (underlying : Param)
  /-- PiecewiseDynamicParameter.h:24-25 -/
  | piecewise (updaters : List (Nat × Param))

mutual

/-- `getValueForCycle`; ConstantDynamicParameter.h:25-29, LinearDynamicParameter.h:26-30, ExponentialDynamicParameter.h:30-34,
ShiftedDynamicParameter.cpp:26-42, PiecewiseDynamicParameter.cpp:25-38. -/
noncomputable def Param.value : Param → Nat → Nat → Outcome ℝ
  | .const v, _, _ => .ok v
  | .linear slope initial, cycle, _ => .ok (initial + (cycle : ℝ) * slope)
  | .exponential initial rate, cycle, _ => .ok (initial * Real.exp (rate * (cycle : ℝ)))
  | .shifted true shift p, cycle, total => do
    Outcome.require (decide (cycle ≤ sizeMax - shift)) "Expects(currentCycle <= max - cycleShift)"
    p.value (cycle + shift) (if total > sizeMax - shift then sizeMax else total + shift)
  | .shifted false shift p, cycle, total => do
    Outcome.require (decide (cycle ≥ shift)) "Expects(currentCycle >= this->cycleShift)"
    Outcome.require (decide (total ≥ shift)) "Expects(totalCycles >= this->cycleShift)"
    p.value (cycle - shift) (total - shift)
  | .piecewise l, cycle, total => do
    Outcome.require (decide (cycle ≤ total)) "Expects(currentCycle <= totalCycles)"
    match l.getLast? with
    | none => .ub
    | some last => do
      Outcome.require (decide (total ≥ last.1)) "Expects(totalCycles >= this->updaters.back().first)"
      piecesValue l cycle total

/-- `std::upper_bound` and `std::prev` in `getValueForCycle` of a piecewise parameter: the last piece before the first one
which starts after the cycle; PiecewiseDynamicParameter.cpp:29-37. The binary search is written as a linear one (the list
is sorted). `std::prev` of the beginning is undefined behaviour. -/
noncomputable def piecesValue : List (Nat × Param) → Nat → Nat → Outcome ℝ
  | [], _, _ => .ub
  | [(start, p)], cycle, total => if cycle < start then .ub else p.value cycle total
  | (start, p) :: (start', p') :: rest, cycle, total =>
    if cycle < start then .ub
    else if cycle < start' then p.value cycle start'
    else piecesValue ((start', p') :: rest) cycle total

end

/-- The constructor of shifted parameters; ShiftedDynamicParameter.cpp:11-24. The shift is a `long`; changing the sign of the
smallest one is undefined. -/
def Param.mkShifted (shift : Int) (p : Option Param) : Outcome Param :=
  if shift = -2 ^ 63 then .ub
  else
    match p with
    | none => .throw "Expects(this->underlyingParameter != nullptr)"
    | some p => .ok (if shift > 0 then .shifted false shift.toNat p else .shifted true (-shift).toNat p)

/-- The conversion of a `std::size_t` to `long`. -/
def toLong (n : Nat) : Int := if n < 2 ^ 63 then n else (n : Int) - 2 ^ 64

/-- `std::is_sorted` with the comparison of starts; PiecewiseDynamicParameter.cpp:15-17. -/
def startsSorted : List (Nat × Option Param) → Bool
  | [] => true
  | [_] => true
  | a :: b :: l => !decide (b.1 < a.1) && startsSorted (b :: l)

/-- The constructor of piecewise parameters; PiecewiseDynamicParameter.cpp:12-23. -/
def Param.mkPiecewise (l : List (Nat × Option Param)) : Outcome Param :=
  match l.head? with
  | none => .throw "Expects(!updaters.empty())"
  | some a => do
    Outcome.require (decide (a.1 = 0)) "Expects(updaters.front().first == 0)"
    Outcome.require (startsSorted l) "Expects(std::is_sorted(...))"
    let us ← l.mapM fun u => do
      let q ← Param.mkShifted (toLong u.1) u.2
      return (u.1, q)
    return .piecewise us

end Rampack
