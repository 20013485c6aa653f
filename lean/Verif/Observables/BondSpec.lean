import Verif.Observables.Bond
import Verif.Observables.NematicSpec
/-
Specification for the bond order parameter (C93).
-/
namespace Rampack.Spec

open BondOrder

/-- `exp(i r θ)` where `θ` is the angle of the vector in the plane spanned by `u` and `v`, measured from `u`. -/
noncomputable def bondPhase (u v : Vec3 ℝ) (r : Nat) (d : Vec3 ℝ) : ℂ := Complex.exp (Complex.I * r * (Complex.arg ⟨u.dot d, v.dot d⟩ : ℝ))

/-- `1/r ∑ exp(i r θ)` over vectors to neighbours. -/
noncomputable def bondOf (u v : Vec3 ℝ) (r : Nat) (ds : List (Vec3 ℝ)) : ℂ := (ds.map (bondPhase u v r)).sum / r

/-- The local parameter for particles whose vectors to neighbours are given. -/
noncomputable def localBond (u v : Vec3 ℝ) (r : Nat) (particles : List (List (Vec3 ℝ))) : ℝ := averageOf (fun ds => ‖bondOf u v r ds‖) particles

/-- The global parameter for particles whose vectors to neighbours are given. -/
noncomputable def globalBond (u v : Vec3 ℝ) (r : Nat) (particles : List (List (Vec3 ℝ))) : ℝ := ‖(particles.map (bondOf u v r)).sum‖ / particles.length

/-- `u`, `v` and the direction of `k` are perpendicular unit vectors. -/
def PlaneFrame (k u v : Vec3 ℝ) : Prop := u.norm2 = 1 ∧ v.norm2 = 1 ∧ u.dot v = 0 ∧ k.dot u = 0 ∧ k.dot v = 0

/-- The list has the `r` nearest of the candidates, from the nearest one; if there are fewer than `r` of them, it is completed with fillers at infinity. -/
def NearestOf (r : Nat) (filler : Nat) (candidates chosen : List (Nat × WithTop ℝ)) : Prop :=
  chosen.length = r ∧ chosen.Pairwise (fun a b => a.2 ≤ b.2) ∧
    ∃ left, (chosen ++ left).Perm (candidates ++ List.replicate r (filler, ⊤)) ∧ ∀ a ∈ chosen, ∀ b ∈ left, a.2 ≤ b.2

/-- The vector to the nearest image of a neighbour. -/
noncomputable def vectorTo (b : Box) (bond : List (Vec3 ℝ)) (pos : Vec3 ℝ) (j : Nat) : Vec3 ℝ := bond.getD j 0 - pos + PBC.getTranslation b pos (bond.getD j 0)

end Rampack.Spec
