import Verif.Packing.Model
/-
Model of the functions for whole molecules: /repo/src/core/Interaction.cpp. Numbers are real.
-/
namespace Rampack

namespace Interaction

/-- `getTotalRangeRadius`, from the interaction centres and the range radius; Interaction.cpp:57-72. -/
noncomputable def totalRangeRadius (centres : List (Vec3 ℝ)) (range : ℝ) : ℝ :=
  if centres.isEmpty then range
  else 2 * Real.sqrt (centres.foldl (fun m c => if c.norm2 > m then c.norm2 else m) 0) + range

/-- `getCentrePositionForShape`; Interaction.cpp:53-55. -/
def centrePosition (s : Shape) (c : Vec3 ℝ) : Vec3 ℝ := s.pos + s.rot.mulVec c

/-- The arguments of `overlapBetween`, `calculateEnergyBetween` and `overlapWithWall` for a whole molecule, for each of its centres in turn; Interaction.cpp:12-27, 36-50, 76-87. -/
noncomputable def shapeSites (I : Interaction) (s : Shape) : List Site :=
  if I.centres.isEmpty then [⟨s.pos, s.rot, 0⟩]
  else I.centres.zipIdx.map fun c => ⟨centrePosition s c.1, s.rot, c.2⟩

/-- `overlapBetweenShapes`; Interaction.cpp:34-51. -/
noncomputable def overlapBetweenShapes (I : Interaction) (s1 s2 : Shape) (bc : BC) : Bool :=
  (I.shapeSites s1).any fun x => (I.shapeSites s2).any fun y => I.overlap x y bc

/-- `overlapWithWallForShape`; Interaction.cpp:74-88. -/
noncomputable def overlapWithWallForShape (I : Interaction) (s : Shape) (origin normal : Vec3 ℝ) : Bool :=
  (I.shapeSites s).any fun x => I.wall x origin normal

/-- `calculateEnergyBetweenShapes`; Interaction.cpp:7-32. -/
noncomputable def energyBetweenShapes (I : Interaction) (s1 s2 : Shape) (bc : BC) : ℝ :=
  (I.shapeSites s1).foldl (fun e x => (I.shapeSites s2).foldl (fun e' y => e' + I.energy x y bc) e) 0

end Interaction

end Rampack
