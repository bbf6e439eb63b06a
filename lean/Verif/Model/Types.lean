import Verif.Model.PyVal
/-!
# The data classes (`src/synthpix/types.py`)
-/

namespace Verif.Types
open Verif

/-! ## `ImageGenerationSpecification` (lines 158-341) -/

/-- The fields of `ImageGenerationSpecification` (lines 186-207), in order. -/
inductive Field where
  | batchSize | imageShape | imgOffset | seedingDensityRange | pHide1 | pHide2 | diameterRanges | diameterVar
  | intensityRanges | intensityVar | rhoRanges | rhoVar | dt | noiseUniform | noiseGaussianMean | noiseGaussianStd
  deriving DecidableEq, Repr

/-- The Python names of the fields (lines 186-207). -/
def Field.name : Field → String
  | .batchSize => "batch_size" | .imageShape => "image_shape" | .imgOffset => "img_offset"
  | .seedingDensityRange => "seeding_density_range" | .pHide1 => "p_hide_img1" | .pHide2 => "p_hide_img2"
  | .diameterRanges => "diameter_ranges" | .diameterVar => "diameter_var" | .intensityRanges => "intensity_ranges"
  | .intensityVar => "intensity_var" | .rhoRanges => "rho_ranges" | .rhoVar => "rho_var" | .dt => "dt"
  | .noiseUniform => "noise_uniform" | .noiseGaussianMean => "noise_gaussian_mean" | .noiseGaussianStd => "noise_gaussian_std"

/-- An `ImageGenerationSpecification` (lines 186-207). -/
structure Spec where
  batchSize : Val
  imageShape : Val
  imgOffset : Val
  seedingDensityRange : Val
  pHide1 : Val
  pHide2 : Val
  diameterRanges : Val
  diameterVar : Val
  intensityRanges : Val
  intensityVar : Val
  rhoRanges : Val
  rhoVar : Val
  dt : Val
  noiseUniform : Val
  noiseGaussianMean : Val
  noiseGaussianStd : Val

/-- Attribute access. -/
def Spec.get (s : Spec) : Field → Val
  | .batchSize => s.batchSize | .imageShape => s.imageShape | .imgOffset => s.imgOffset
  | .seedingDensityRange => s.seedingDensityRange | .pHide1 => s.pHide1 | .pHide2 => s.pHide2
  | .diameterRanges => s.diameterRanges | .diameterVar => s.diameterVar | .intensityRanges => s.intensityRanges
  | .intensityVar => s.intensityVar | .rhoRanges => s.rhoRanges | .rhoVar => s.rhoVar | .dt => s.dt
  | .noiseUniform => s.noiseUniform | .noiseGaussianMean => s.noiseGaussianMean | .noiseGaussianStd => s.noiseGaussianStd

/-- The default values (lines 186-207). -/
def Spec.default : Spec where
  batchSize := .int 300
  imageShape := .tuple [.int 256, .int 256]
  imgOffset := .tuple [.int 128, .int 128]
  seedingDensityRange := .tuple [.float (.fin (1/100)), .float (.fin (2/100))]
  pHide1 := .float (.fin (1/100))
  pHide2 := .float (.fin (1/100))
  diameterRanges := .list [.tuple [.float (.fin (1/10)), .float (.fin 1)]]
  diameterVar := .float (.fin 1)
  intensityRanges := .list [.tuple [.int 50, .int 200]]
  intensityVar := .float (.fin 1)
  rhoRanges := .list [.tuple [.float (.fin (-99/100)), .float (.fin (99/100))]]
  rhoVar := .float (.fin 1)
  dt := .float (.fin 1)
  noiseUniform := .float (.fin 0)
  noiseGaussianMean := .float (.fin 0)
  noiseGaussianStd := .float (.fin 0)

/-- `isinstance(v, int) and v > 0` (lines 211, 216). -/
def posInt (v : Val) : Bool :=
  match v.asInt with
  | some z => decide (0 < z)
  | none => false

/-- `isinstance(v, (int, float)) and v >= 0`, equally `0 <= v` (lines 234, 242, 282-298). -/
def nonnegNum (v : Val) : Bool :=
  match v.asNum with
  | some x => (Num.fin 0).le x
  | none => false

/-- `isinstance(v, tuple) and len(v) == 2 and all(p(s) for s in v)` (lines 213-217, 231-235, 238-245). -/
def pairOf (p : Val → Bool) : Val → Bool
  | .tuple [a, b] => p a && p b
  | _ => false

/-- `0.0 <= p <= 1.0` (lines 219, 221). -/
def probability (v : Val) : Except Exc Bool := andE (Val.leNum (.fin 0) v) (Val.numLe v (.fin 1))

/-- `isinstance(l, list) and len(l) > 0 and all(isinstance(r, tuple) and len(r) == 2 for r in l)`, and the pairs
(lines 254-258, 263-267, 272-276). -/
def pairs : Val → Option (List (Val × Val))
  | .list l => if l.isEmpty then none else l.mapM (fun v => match v with | .tuple [a, b] => some (a, b) | _ => none)
  | _ => none

/-- `all(0 < d1 <= d2 for d1, d2 in ranges)` (lines 260, 269). -/
def posRanges (l : List (Val × Val)) : Except Exc Bool :=
  allE (fun q => andE (Val.ltNum (.fin 0) q.1) (Val.le q.1 q.2)) l

/-- `all(-1 < r1 <= r2 < 1 for r1, r2 in ranges)` (line 279). -/
def rhoOK (l : List (Val × Val)) : Except Exc Bool :=
  allE (fun q => andE (Val.ltNum (.fin (-1)) q.1) (andE (Val.le q.1 q.2) (Val.numLt q.2 (.fin 1)))) l

/-- `self.seeding_density_range[0] > self.seeding_density_range[1]` (line 250) for a pair of numbers. -/
def inverted : Val → Bool
  | .tuple [a, b] =>
    match a.asNum, b.asNum with
    | some x, some y => y.lt x
    | _, _ => false
  | _ => false

/-- `isinstance(v, (int, float))` and not `v < 0` (lines 301-304). -/
def notNegNum (v : Val) : Bool :=
  match v.asNum with
  | some x => !(x.lt (.fin 0))
  | none => false

/-- `isinstance(v, (int, float))` and not `v <= 0` (line 306). -/
def notNonposNum (v : Val) : Bool :=
  match v.asNum with
  | some x => !(x.le (.fin 0))
  | none => false

/-- `if not cond: raise ValueError(...)` where evaluating the condition may raise. -/
def require (c : Except Exc Bool) (rest : Except Exc Unit) : Except Exc Unit :=
  match c with
  | .error e => .error e
  | .ok false => .error .valueError
  | .ok true => rest

/-- `require` for the list-of-ranges checks. -/
def requirePairs (v : Val) (check : List (Val × Val) → Except Exc Bool) (rest : Except Exc Unit) : Except Exc Unit :=
  match pairs v with
  | none => .error .valueError
  | some l => require (check l) rest

/-- `__post_init__` (lines 209-307), in the order of the code. -/
def Spec.validate (s : Spec) : Except Exc Unit :=
  require (.ok (posInt s.batchSize)) <|
  require (.ok (pairOf posInt s.imageShape)) <|
  require (probability s.pHide1) <|
  require (probability s.pHide2) <|
  require (.ok (pairOf posInt s.imageShape)) <|
  require (.ok (pairOf nonnegNum s.imgOffset)) <|
  require (.ok (pairOf nonnegNum s.seedingDensityRange)) <|
  require (.ok (!inverted s.seedingDensityRange)) <|
  requirePairs s.diameterRanges posRanges <|
  requirePairs s.intensityRanges posRanges <|
  requirePairs s.rhoRanges rhoOK <|
  require (.ok (nonnegNum s.diameterVar)) <|
  require (.ok (nonnegNum s.intensityVar)) <|
  require (.ok (nonnegNum s.rhoVar)) <|
  require (.ok (nonnegNum s.noiseUniform)) <|
  require (.ok (nonnegNum s.noiseGaussianMean)) <|
  require (.ok (notNegNum s.noiseGaussianStd)) <|
  require (.ok (notNonposNum s.dt)) <| .ok ()

/-- The constructor: store the fields, then `__post_init__`. -/
def Spec.construct (s : Spec) : Except Exc Spec :=
  match s.validate with
  | .ok _ => .ok s
  | .error e => .error e

/-- Keyword arguments: a dictionary. -/
abbrev Kwargs := List (String × Val)

/-- `kwargs.get(name, old)`. -/
def kwGet (kw : Kwargs) (name : String) (old : Val) : Val := (kw.lookup name).getD old

/-- `ImageGenerationSpecification.update` (lines 309-341). -/
def Spec.update (s : Spec) (kw : Kwargs) : Except Exc Spec :=
  Spec.construct {
    batchSize := kwGet kw "batch_size" s.batchSize
    imageShape := kwGet kw "image_shape" s.imageShape
    imgOffset := kwGet kw "img_offset" s.imgOffset
    seedingDensityRange := kwGet kw "seeding_density_range" s.seedingDensityRange
    pHide1 := kwGet kw "p_hide_img1" s.pHide1
    pHide2 := kwGet kw "p_hide_img2" s.pHide2
    diameterRanges := kwGet kw "diameter_ranges" s.diameterRanges
    diameterVar := kwGet kw "diameter_var" s.diameterVar
    intensityRanges := kwGet kw "intensity_ranges" s.intensityRanges
    intensityVar := kwGet kw "intensity_var" s.intensityVar
    rhoRanges := kwGet kw "rho_ranges" s.rhoRanges
    rhoVar := kwGet kw "rho_var" s.rhoVar
    dt := kwGet kw "dt" s.dt
    noiseUniform := kwGet kw "noise_uniform" s.noiseUniform
    noiseGaussianMean := kwGet kw "noise_gaussian_mean" s.noiseGaussianMean
    noiseGaussianStd := kwGet kw "noise_gaussian_std" s.noiseGaussianStd }

/-! ## Flattening

`jax.tree_util` flattens a tree of nodes into the list of its leaves and a description of its shape. `None` is a node
without leaves; tuples, lists and registered classes are nodes with children; everything else is a leaf. -/

/-- The node types. -/
inductive NodeType where
  | none | tuple | list | params | batch
  deriving DecidableEq, Repr

/-- A Python object as `jax.tree_util` sees it: a leaf (an array, a string, ...) or a node with children. -/
inductive Tree (L : Type) where
  | leaf (l : L)
  | node (t : NodeType) (children : List (Tree L))

/-- The leaves, from left to right (`jax.tree_util.tree_leaves`). -/
def Tree.leaves {L : Type} : Tree L → List L
  | .leaf l => [l]
  | .node _ cs => go cs
where
  go : List (Tree L) → List L
    | [] => []
    | c :: cs => c.leaves ++ go cs

/-- The shape (`jax.tree_util.tree_structure`). -/
def Tree.shape {L : Type} : Tree L → Tree Unit
  | .leaf _ => .leaf ()
  | .node t cs => .node t (go cs)
where
  go : List (Tree L) → List (Tree Unit)
    | [] => []
    | c :: cs => c.shape :: go cs

/-- `jax.tree_util.tree_unflatten`: fill the shape with leaves; the second component are the leaves not needed. -/
def Tree.fill {L : Type} : Tree Unit → List L → Option (Tree L × List L)
  | .leaf _, l :: ls => some (.leaf l, ls)
  | .leaf _, [] => none
  | .node t cs, ls =>
    match go cs ls with
    | some (cs', ls') => some (.node t cs', ls')
    | none => none
where
  go : List (Tree Unit) → List L → Option (List (Tree L) × List L)
    | [], ls => some ([], ls)
    | c :: cs, ls =>
      match c.fill ls with
      | none => none
      | some (c', ls') =>
        match go cs ls' with
        | none => none
        | some (cs', ls'') => some (c' :: cs', ls'')

/-! ## `ImageGenerationParameters`, `SynthpixBatch` and `SchedulerData` (lines 15-155)

The fields are not checked by the code, so each holds an arbitrary object. -/

/-- `ImageGenerationParameters` (lines 20-23). -/
structure Params (L : Type) where
  seedingDensities : Tree L
  diameterRanges : Tree L
  intensityRanges : Tree L
  rhoRanges : Tree L

/-- `SynthpixBatch` (lines 68-74). -/
structure Batch (L : Type) where
  images1 : Tree L
  images2 : Tree L
  flowFields : Tree L
  params : Tree L
  done : Tree L
  mask : Tree L
  files : Tree L

/-- `SchedulerData` (lines 134-138). -/
structure SchedulerData (L : Type) where
  flowFields : Tree L
  images1 : Tree L
  images2 : Tree L
  mask : Tree L
  files : Tree L

/-- `kwargs.get(name, old)` for arbitrary objects. -/
def objGet {O : Type} (kw : List (String × O)) (name : String) (old : O) : O := (kw.lookup name).getD old

/-- `SynthpixBatch.update` (lines 76-93). -/
def Batch.update {L : Type} (b : Batch L) (kw : List (String × Tree L)) : Batch L where
  images1 := objGet kw "images1" b.images1
  images2 := objGet kw "images2" b.images2
  flowFields := objGet kw "flow_fields" b.flowFields
  params := objGet kw "params" b.params
  done := objGet kw "done" b.done
  mask := objGet kw "mask" b.mask
  files := objGet kw "files" b.files

/-- `SchedulerData.update` (lines 140-155). -/
def SchedulerData.update {L : Type} (b : SchedulerData L) (kw : List (String × Tree L)) : SchedulerData L where
  flowFields := objGet kw "flow_fields" b.flowFields
  images1 := objGet kw "images1" b.images1
  images2 := objGet kw "images2" b.images2
  mask := objGet kw "mask" b.mask
  files := objGet kw "files" b.files

/-- `ImageGenerationParameters.tree_flatten` (lines 25-46): the children, in order. -/
def Params.treeFlatten {L : Type} (p : Params L) : List (Tree L) :=
  [p.seedingDensities, p.diameterRanges, p.intensityRanges, p.rhoRanges]

/-- `ImageGenerationParameters.tree_unflatten` (lines 48-60): `cls(*children)`, a `TypeError` for any other number. -/
def Params.treeUnflatten {L : Type} : List (Tree L) → Option (Params L)
  | [a, b, c, d] => some ⟨a, b, c, d⟩
  | _ => none

/-- `SynthpixBatch.tree_flatten` (lines 95-116): the children, in order. -/
def Batch.treeFlatten {L : Type} (b : Batch L) : List (Tree L) :=
  [b.images1, b.images2, b.flowFields, b.params, b.done, b.mask, b.files]

/-- `SynthpixBatch.tree_unflatten` (lines 118-127): `cls(*children)`. Fewer than seven children would be filled with
defaults; `jax` always passes as many as it got, so that case is not needed. -/
def Batch.treeUnflatten {L : Type} : List (Tree L) → Option (Batch L)
  | [i1, i2, ff, p, d, m, f] => some ⟨i1, i2, ff, p, d, m, f⟩
  | _ => none

/-- `jax.tree_util.tree_flatten(batch)`: leaves and structure. -/
def Batch.flatten {L : Type} (b : Batch L) : List L × Tree Unit :=
  ((Tree.node .batch b.treeFlatten).leaves, (Tree.node .batch b.treeFlatten).shape)

/-- `jax.tree_util.tree_unflatten(structure, leaves)`: fails unless exactly all leaves are used. -/
def Batch.unflatten {L : Type} (f : List L × Tree Unit) : Option (Batch L) :=
  match f.2.fill f.1 with
  | some (.node .batch cs, []) => Batch.treeUnflatten cs
  | _ => none

/-- `jax.tree_util.tree_flatten(params)`. -/
def Params.flatten {L : Type} (p : Params L) : List L × Tree Unit :=
  ((Tree.node .params p.treeFlatten).leaves, (Tree.node .params p.treeFlatten).shape)

/-- `jax.tree_util.tree_unflatten(structure, leaves)` for parameters. -/
def Params.unflatten {L : Type} (f : List L × Tree Unit) : Option (Params L) :=
  match f.2.fill f.1 with
  | some (.node .params cs, []) => Params.treeUnflatten cs
  | _ => none

end Verif.Types
