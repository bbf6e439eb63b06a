import Verif.Model.Types
/-!
# Calling the specification class (`src/synthpix/types.py`, lines 158-307)
-/

namespace Verif.Types
open Verif

/-- The sixteen fields in the order in which they are declared (types.py lines 186-207). -/
def Field.all : List Field :=
  [.batchSize, .imageShape, .imgOffset, .seedingDensityRange, .pHide1, .pHide2, .diameterRanges, .diameterVar,
    .intensityRanges, .intensityVar, .rhoRanges, .rhoVar, .dt, .noiseUniform, .noiseGaussianMean, .noiseGaussianStd]

/-- The arguments a call binds (the `__init__` that `@dataclass` makes of types.py lines 186-207): positional arguments go
to the fields in order; too many of them, a keyword that is not the name of a field, and a keyword for a field that has its
value already are `TypeError`s. The keywords of a call are distinct, Python sees to that. -/
def bindArgs : List Field → List Val → Kwargs → Except Exc Kwargs
  | _, [], kw => if kw.all (fun q => Field.all.any (fun f => f.name == q.1)) then .ok kw else .error .typeError
  | [], _ :: _, _ => .error .typeError
  | f :: fs, v :: vs, kw =>
    if (kw.lookup f.name).isSome then .error .typeError
    else match bindArgs fs vs kw with
      | .error e => .error e
      | .ok bound => .ok ((f.name, v) :: bound)

/-- `ImageGenerationSpecification(*args, **kw)` (types.py lines 158-307): the fields without a value take their default, and
`__post_init__` checks the result. -/
def Spec.call (args : List Val) (kw : Kwargs) : Except Exc Spec :=
  match bindArgs Field.all args kw with
  | .error e => .error e
  | .ok bound => Spec.default.update bound

end Verif.Types
