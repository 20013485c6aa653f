import Verif.Observables.Smectic
import Mathlib.Order.WithBot
/-
Model of the bond order parameter: /repo/src/core/observables/BondOrder.{h,cpp}.

Numbers are exact; `normalized()` of the zero vector, which gives NaN's in the code, is undefined here.
-/
namespace Rampack

open Grid

noncomputable section

/-- `std::round`: the nearest integer, halves away from zero. -/
def roundAway (x : ℝ) : ℤ := if 0 ≤ x then ⌊x + 1 / 2⌋ else ⌈x - 1 / 2⌉

namespace BondOrder

/-- The constructor: sorted ranks; BondOrder.cpp:13-28. -/
def create (ranks : List Nat) (hkl : Vec3 ℤ) : Outcome (List Nat) := do
  Outcome.require (decide (ranks ≠ [])) "Expects(!this->ranks.empty())"
  Outcome.require (decide (∀ r ∈ ranks, r ≥ 2)) "Expects(rank >= 2)"
  Outcome.require (decide (hkl.x ≠ 0 ∨ hkl.y ≠ 0 ∨ hkl.z ≠ 0)) "Expects(n != 0)"
  return ranks.mergeSort fun a b => decide (a ≤ b)

/-- `kVector`, `planeVector1`, `planeVector2`, `tauAngle`; BondOrder.h:37-40. -/
structure Layers where
  k : Vec3 ℝ
  p1 : Vec3 ℝ
  p2 : Vec3 ℝ
  angle : ℝ

/-- `std::min_element` over components: the first of the least ones; BondOrder.cpp:34. -/
def minIndex (v : Vec3 ℝ) : Fin 3 := if v.y < v.x then (if v.z < v.y then 2 else 1) else (if v.z < v.x then 2 else 0)

/-- `kVector`; BondOrder.cpp:31-32. -/
def kVector (b : Box) (hkl : Vec3 ℤ) : Vec3 ℝ := (2 * Real.pi) • b.dims.inverse.transpose.mulVec ⟨hkl.x, hkl.y, hkl.z⟩

/-- `tau`; BondOrder.cpp:41-45. -/
def tau (k : Vec3 ℝ) (points : List (Vec3 ℝ)) : ℂ := points.foldl (fun t p => t + Complex.exp (Complex.I * (k.dot p : ℝ))) 0

/-- `calculateLayerGeometry`; BondOrder.cpp:30-47. -/
def layerGeometry (b : Box) (hkl : Vec3 ℤ) (points : List (Vec3 ℝ)) : Outcome Layers := do
  let k := kVector b hkl
  let p1 ← normalize (k.cross (Geometry.reference (minIndex k)))
  let p2 ← normalize (k.cross p1)
  return ⟨k, p1, p2, Complex.arg (tau k points)⟩

/-- An element of `KnnVector`: the number of a particle and a squared distance, `⊤` being infinity; BondOrder.h:25. -/
abbrev Entry := Nat × WithTop ℝ

/-- The loop of `insertDistance`, for elements from the last one; BondOrder.cpp:140-145. -/
def bubble : List Entry → List Entry
  | x :: y :: l => if x.2 < y.2 then y :: bubble (x :: l) else x :: y :: l
  | l => l

/-- `insertDistance`; BondOrder.cpp:133-146. -/
def insertDistance (v : List Entry) (j : Nat) (d : ℝ) : Outcome (List Entry) :=
  match v.reverse with
  | [] => .ub
  | last :: l => if last.2 < (d : WithTop ℝ) then .ok v else .ok (bubble ((j, (d : WithTop ℝ)) :: l)).reverse

/-- `layer1`, `layer2`; BondOrder.cpp:114-115. -/
def layerOf (L : Layers) (p : Vec3 ℝ) : ℤ := roundAway ((p.dot L.k - L.angle) / (2 * Real.pi))

/-- The condition on layers of two particles; BondOrder.cpp:110-117. -/
def sameLayer (b : Box) (L : Layers) (p q : Vec3 ℝ) : Prop := layerOf L p = layerOf L (q + PBC.getTranslation b p q)

/-- `distance2`; BondOrder.cpp:119-124. `kn` is `kVectorNormalized`. -/
def distance2 (b : Box) (kn : Vec3 ℝ) (p q : Vec3 ℝ) : ℝ :=
  let diff := q + PBC.getTranslation b p q - p
  max 0 (diff.norm2 - (diff.dot kn) ^ 2)

open Classical in
/-- The body of the loops of `constructKnn`; BondOrder.cpp:109-127. -/
def link (b : Box) (L : Layers) (kn : Vec3 ℝ) (layering bond : List (Vec3 ℝ)) (knn : List (List Entry)) (ij : Nat × Nat) : Outcome (List (List Entry)) := do
  let l1 ← vget layering ij.1
  let l2 ← vget layering ij.2
  if sameLayer b L l1 l2 then do
    let b1 ← vget bond ij.1
    let b2 ← vget bond ij.2
    let v1 ← vget knn ij.1
    let v1 ← insertDistance v1 ij.2 (distance2 b kn b1 b2)
    let knn ← vset knn ij.1 v1
    let v2 ← vget knn ij.2
    let v2 ← insertDistance v2 ij.1 (distance2 b kn b1 b2)
    vset knn ij.2 v2
  else return knn

/-- Pairs in the order of the loops; BondOrder.cpp:107-108. -/
def pairs (n : Nat) : List (Nat × Nat) := (List.range n).flatMap fun i => (List.range (n - (i + 1))).map fun j => (i, i + 1 + j)

/-- `constructKnn`; BondOrder.cpp:95-131. -/
def constructKnn (b : Box) (L : Layers) (rank : Nat) (layering bond : List (Vec3 ℝ)) : Outcome (List (List Entry)) := do
  Outcome.require (decide (layering.length = bond.length)) "Expects(layeringPoints.size() == bondOrderPoints.size())"
  let kn ← normalize L.k
  (pairs layering.length).foldlM (link b L kn layering bond) (List.replicate layering.length (List.replicate rank (0, ⊤)))

/-- `exp(i rank angle)` for the vector to a neighbour; BondOrder.cpp:75-82. `atan2(y, x)` is the argument of `x + iy`. -/
def bondTerm (L : Layers) (rank : Nat) (diff : Vec3 ℝ) : ℂ := Complex.exp (Complex.I * rank * (Complex.arg ⟨L.p1.dot diff, L.p2.dot diff⟩ : ℝ))

/-- The loop over neighbours; BondOrder.cpp:70-83. -/
def localPsi (b : Box) (L : Layers) (rank : Nat) (bond : List (Vec3 ℝ)) (pos : Vec3 ℝ) : List Entry → ℂ → Outcome ℂ
  | [], t => .ok t
  | e :: l, t => do
    let q ← vget bond e.1
    localPsi b L rank bond pos l (t + bondTerm L rank (q - pos + PBC.getTranslation b pos q))

/-- The body of the loop over particles; BondOrder.cpp:64-89. The first argument is the particle with its neighbours. -/
def addPsi (b : Box) (L : Layers) (rank : Nat) (isLocal : Bool) (bond : List (Vec3 ℝ)) (psi : ℂ) (p : Vec3 ℝ × List Entry) : Outcome ℂ :=
  if p.2.length < rank then .ok psi
  else do
    let t ← localPsi b L rank bond p.1 (p.2.take rank) 0
    return if isLocal then psi + ((‖t‖ / rank : ℝ) : ℂ) else psi + t / rank

/-- `doCalculateBondOrder`; BondOrder.cpp:60-93. Without particles it is 0/0. -/
def doCalculate (b : Box) (L : Layers) (rank : Nat) (isLocal : Bool) (bond : List (Vec3 ℝ)) (knn : List (List Entry)) : Outcome ℝ := do
  let psi ← (bond.zip knn).foldlM (addPsi b L rank isLocal bond) 0
  if bond.length = 0 then .ub else return ‖psi‖ / bond.length

/-- `calculate`; BondOrder.cpp:49-58. `ranks` is sorted and not empty. -/
def calculate (ranks : List Nat) (hkl : Vec3 ℤ) (layeringName bondName : String) (isLocal : Bool) (V : View) (G : Geometry) : Outcome (List ℝ) := do
  let layering ← V.namedPoints G layeringName
  let bond ← V.namedPoints G bondName
  let L ← layerGeometry V.box hkl layering
  match ranks.getLast? with
  | none => .ub
  | some rank => do
    let knn ← constructKnn V.box L rank layering bond
    ranks.mapM fun r => doCalculate V.box L r isLocal bond knn

end BondOrder

end

end Rampack
