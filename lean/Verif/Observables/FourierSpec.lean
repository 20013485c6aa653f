import Verif.Observables.Fourier
import Verif.Box.Lemmas
import Verif.Box.Spec
/-
Specification for the tracker of the system's origin (C99).
-/
namespace Rampack.Spec

noncomputable section

/-- Relative positions of particles and values of the function for them. -/
def Sampled (f : Shape → Outcome ℝ) (V : View) (l : List (Vec3 ℝ × ℝ)) : Prop :=
  List.Forall₂ (fun (s : Shape) (q : Vec3 ℝ × ℝ) => s.pos = combo V.box q.1 ∧ f s = .ok q.2) V.shapes l

/-- Each particle is replaced by the standing wave with given wavenumbers which has a maximum in its position, multiplied by the value of the function. -/
def waves (n : Vec3 Nat) (l : List (Vec3 ℝ × ℝ)) (s : Vec3 ℝ) : ℝ :=
  (l.map fun q => q.2 * (Real.cos (2 * Real.pi * n.x * (s.x - q.1.x)) * Real.cos (2 * Real.pi * n.y * (s.y - q.1.y)) * Real.cos (2 * Real.pi * n.z * (s.z - q.1.z)))).sum

/-- The sine or the cosine. -/
def trig : Bool → ℝ → ℝ
  | true => Real.cos
  | false => Real.sin

/-- The first-order Fourier expansion as given in the documentation, without the common factor `1/N`; docs/observables.md, FourierTracker.h:23-39. -/
def expansion (n : Vec3 Nat) (l : List (Vec3 ℝ × ℝ)) (s : Vec3 ℝ) : ℝ :=
  ∑ i : Bool, ∑ j : Bool, ∑ k : Bool,
    (l.map fun q => q.2 * trig i (2 * Real.pi * n.x * q.1.x) * trig j (2 * Real.pi * n.y * q.1.y) * trig k (2 * Real.pi * n.z * q.1.z)).sum *
      trig i (2 * Real.pi * n.x * s.x) * trig j (2 * Real.pi * n.y * s.y) * trig k (2 * Real.pi * n.z * s.z)

/-- The waves have their global maximum in the point. -/
def Peak (n : Vec3 Nat) (l : List (Vec3 ℝ × ℝ)) (s : Vec3 ℝ) : Prop := ∀ p, waves n l p ≤ waves n l s

/-- Travelling waves with wave vectors `(n.x, n.y, n.z)` of given signs. -/
def diagonal (n : Vec3 ℤ) (l : List (Vec3 ℝ × ℝ)) (s : Vec3 ℝ) : ℝ :=
  (l.map fun q => q.2 * Real.cos (2 * Real.pi * (n.x * (s.x - q.1.x) + n.y * (s.y - q.1.y) + n.z * (s.z - q.1.z)))).sum

/-- Points which differ by integers. -/
def Congruent (p q : Vec3 ℝ) : Prop := ∃ m : Vec3 ℤ, q = p + (⟨m.x, m.y, m.z⟩ : Vec3 ℝ)

/-- Previously found origins are on axes which are tracked. -/
def OnAxes (n : Vec3 Nat) (p : Vec3 ℝ) : Prop := ∀ i, n.get i = 0 → p.get i = 0

/-- Each of travelling waves of which the standing wave consists has an amplitude which is not negligible. -/
def Resolved (n : Vec3 Nat) (l : List (Vec3 ℝ × ℝ)) : Prop :=
  ∀ σ : Vec3 ℤ, (∀ a, (σ.get a).natAbs = n.get a) → ∃ p, 1 / 10 ^ 8 ≤ diagonal σ l p

/-- The part of the displacement along tracked axes. -/
def along (n : Vec3 Nat) (t : Vec3 ℝ) : Vec3 ℝ := ⟨if n.x = 0 then 0 else t.x, if n.y = 0 then 0 else t.y, if n.z = 0 then 0 else t.z⟩

/-- All particles are displaced by the same relative vector; particles which leave the box come back on the other side. -/
def Displaced (t : Vec3 ℝ) (l l' : List (Vec3 ℝ × ℝ)) : Prop := List.Forall₂ (fun q q' => q'.2 = q.2 ∧ Congruent (q.1 + t) q'.1) l l'

/-- The displacement is less than half of the distance between any two maxima. -/
def Slow (n : Vec3 Nat) (l : List (Vec3 ℝ × ℝ)) (t : Vec3 ℝ) : Prop :=
  ∀ p q, Peak n l p → Peak n l q → (∃ a, n.get a ≠ 0 ∧ p.get a ≠ q.get a) → 4 * (along n t).norm2 < dist2 p q

/-- The system is displaced between snapshots: displacements, packings and positions of particles. -/
def Drifting (n : Vec3 Nat) (f : Shape → Outcome ℝ) : List (Vec3 ℝ × ℝ) → List (Vec3 ℝ × View × List (Vec3 ℝ × ℝ)) → Prop
  | _, [] => True
  | l, (t, V, l') :: rest => V.box.WF ∧ Sampled f V l' ∧ Displaced t l l' ∧ Slow n l t ∧ Drifting n f l' rest

/-- The value of the polynomial with coefficients given from the highest power. -/
def polyValue (c : List ℝ) (x : ℝ) : ℝ := c.foldl (fun v a => v * x + a) 0

/-- What is known of the external solver: it finds all real roots of each polynomial which is not zero. -/
def Solver (solve : List ℝ → List ℝ) : Prop := ∀ c : List ℝ, (∃ a ∈ c, a ≠ 0) → ∀ x, x ∈ solve c ↔ polyValue c x = 0

end

end Rampack.Spec
