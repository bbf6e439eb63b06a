import Verif.Spec.Compare
/-!
# Specification for C182: what the reported parameters tell
-/

namespace Verif.Reported
open Verif

/-- Two image pairs report the same generation parameters: seeding density and ranges of diameters, intensities and correlations. -/
def SameReport (p p' : Synthetic.Pair) : Prop :=
  p'.density = p.density ∧ p'.diameterRange = p.diameterRange ∧ p'.intensityRange = p.intensityRange ∧ p'.rhoRange = p.rhoRange

/-- Arguments with other ranges to choose from. The highest density stays. -/
def withRanges (lo : ℚ) (ds is rs : List (ℚ × ℚ)) (a : Synthetic.Args) : Synthetic.Args :=
  { a with spec := { a.spec with densityRange := (lo, a.spec.densityRange.2), diameterRanges := ds, intensityRanges := is, rhoRanges := rs } }

/-- `d` is the greatest diameter that occurs in the ranges. -/
def Greatest (d : ℚ) (ds : List (ℚ × ℚ)) : Prop := (∃ r ∈ ds, r.2 = d) ∧ ∀ r ∈ ds, r.2 ≤ d

end Verif.Reported
