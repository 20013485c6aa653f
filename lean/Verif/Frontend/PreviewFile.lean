import Verif.Frontend.Input
import Verif.Utils.Strings
/-
Model of the formats of shape previews: /repo/src/frontend/matchers/FileShapePrinterMatcher.cpp with `getPrinter` of shapes
(/repo/src/core/shapes/{XenoCollideTraits.h,SphereTraits.cpp,PolysphereTraits.cpp,SpherocylinderTraits.cpp,PolyspherocylinderTraits.cpp,SmoothWedgeTraits.cpp,PolyhedralWedgeTraits.cpp}).

Simplification: what is made is the name of the file, the format and the number of divisions of the mesh; printers made of these are in Verif/Geometry/Mesh.lean and
Verif/IO/Wolfram.lean.
-/
namespace Rampack.PreviewFile

open Pyon Rampack.Input

/-- The formats. -/
inductive Format where
  | wolfram
  | obj
  deriving DecidableEq

/-- `FileShapePrinter` with the arguments of `getPrinter`; FileShapePrinter.h:14-27. -/
structure Preview where
  filename : Text
  format : Format
  divisions : Nat
  deriving DecidableEq

/-- The beginning of `getPrinter`, the same for all shapes; SphereTraits.cpp:38-42, PolysphereTraits.cpp:52-56, SpherocylinderTraits.cpp:77-81, PolyspherocylinderTraits.cpp:176-180,
XenoCollideTraits.h:110-114, SmoothWedgeTraits.cpp:85-89, PolyhedralWedgeTraits.cpp:52-56. -/
def divisions (params : List (Text × Text)) : Outcome Nat :=
  match params.find? fun e => e.1 == "mesh_divisions".toList with
  | none => .ok 3
  | some e => do
    let (n, _) ← Version.stoul e.2
    Outcome.require (decide (n ≥ 1)) "Expects(meshSubdivisions >= 1)"
    return n

/-- `create_wolfram` and `create_obj`; FileShapePrinterMatcher.cpp:14-39. -/
def createFormat (name : String) (format : Format) : Outcome (ClassMatcher ℝ (Value Preview)) := do
  let c ← createClass name.toList [required "filename" filename]
  return ClassMatcher.mapTo
    { c with keyword := some ⟨[], some (matcherString [] (fun s => .ok (.value (.text s)))), [], fun es => .ok (.dictionary es)⟩ } fun d => do
    let filename ← get d "filename" >>= asText
    let params ← d.keyword.mapM entryText
    let n ← construct (divisions params)
    return .object ⟨filename, format, n⟩

/-- `FileShapePrinterMatcher::create`; FileShapePrinterMatcher.cpp:43-45. -/
def createPreview : Outcome (Choice ℝ (Value Preview)) := do
  let wolfram ← createFormat "wolfram" .wolfram
  let obj ← createFormat "obj" .obj
  return .join (.dataclass wolfram) (.dataclass obj)

/-- `FileShapePrinterMatcher::match`; FileShapePrinterMatcher.cpp:47-56. -/
noncomputable def matchPreview (conv : ℚ → Option ℝ) (expression : Text) : Outcome Preview := do
  let c ← createPreview
  let n ← parse conv expression
  match c.toMatcher.run n with
  | .matched (.value (.object p)) => .ok p
  | .matched _ => .throw "pyon::Any::as"
  | .unmatched _ => .throw "ValidationException"
  | .thrown m => .throw m

end Rampack.PreviewFile
