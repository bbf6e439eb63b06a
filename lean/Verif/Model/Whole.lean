import Verif.Model.Make
import Verif.Model.FormatInit
import Verif.Model.Synthetic
import Verif.Model.Episodic
/-!
# From a configuration to a running sampler (`src/synthpix/make.py` with everything it calls)

`Model/Make.lean` leaves open whether the constructors succeed. Here they are the ones of `Model/FormatInit.lean`,
`Model/Episodic.lean` and `Model/Synthetic.lean`, and the sampler that comes out is run.
-/

namespace Verif.Whole
open Verif

/-- Everything outside the package that `make` and the sampler depend on: the file system, the files, the random generator, the
devices, rounding. `glob k d` lists `d` with the file pattern of class `k` (base.py line 76), `matFiles d` lists the `*.mat` files
(episodic.py line 237). -/
structure Env where
  pathExists : String → Bool
  isDir : String → Bool
  isFile : String → Bool
  yaml : String → Except Exc (Option Make.Dict)
  glob : Make.Kind → String → List String
  matFiles : String → List String
  os : LeafDirs.OS
  h5 : String → Formats.H5File ℚ
  mat : Formats.MatIO
  np : Formats.NpIO ℚ
  devices : Nat
  prngKey : Val → Except Exc KeyTerm
  perm : KeyTerm → Nat → List Nat
  choice : KeyTerm → Nat → Nat → List Nat
  fl : ℚ → ℚ
  fl32 : ℚ → ℚ
  rand : Generate.Rand ℚ

/-! ## Base schedulers -/

/-- A value as the checks of the base scheduler see it (base.py lines 66-105). -/
def baseVal : Val → BaseInit.Val
  | .none => .none
  | .bool b => .bool b
  | .list l => .list (l.map (fun v => match v with | .str s => some s | _ => none))
  | _ => .other

/-- A value as the check of `output_shape` sees it (mat.py lines 60-64). -/
def shapeVal : Val → FormatInit.ShapeVal
  | .tuple l => .tuple (l.map Val.asInt)
  | _ => .other

/-- The file system as a base scheduler of class `k` sees it (base.py lines 73-90). -/
def Env.fs (E : Env) (k : Make.Kind) : BaseInit.FS := ⟨E.isDir, E.isFile, E.glob k⟩

/-- The constructor of a base scheduler (hdf5.py lines 24-41, mat.py lines 36-70, numpy.py lines 32-77), with the default values of the
arguments that are not passed. -/
def buildBase (E : Env) (a : Make.BaseArgs) : Except Exc (List String × Base.Cfg) :=
  match (match a.kind with
    | .h5 => FormatInit.hdf5 (E.fs .h5) (baseVal a.fileList) (baseVal a.randomize) (baseVal a.loop)
    | .mat => FormatInit.mat (E.fs .mat) (baseVal a.fileList) (baseVal a.randomize) (baseVal a.loop)
        (baseVal (a.includeImages.getD (.bool false))) (shapeVal (a.outputShape.getD (.tuple [.int 256, .int 256])))
    | .npy => FormatInit.numpy (E.fs .npy) (baseVal a.fileList) (baseVal a.randomize) (baseVal a.loop)
        (baseVal (a.includeImages.getD (.bool false)))) with
  | .ok q => .ok (q.1, { randomize := q.2.1, loop := q.2.2 })
  | .error e => .error e

/-- The options of a MAT scheduler (mat.py lines 58-64). -/
def matCfg (a : Make.BaseArgs) : Formats.MatCfg :=
  { includeImages := match a.includeImages with | some (.bool b) => b | _ => false
    height := match a.outputShape with | some (.tuple [h, _]) => (h.asInt.getD 0).toNat | _ => 256
    width := match a.outputShape with | some (.tuple [_, w]) => (w.asInt.getD 0).toNat | _ => 256 }

/-- The schedulers of the three classes, on this environment. -/
def h5World (E : Env) : Base.World ℚ (Arr ℚ) KeyTerm := Formats.h5World E.h5 KeyTerm.split2 E.perm
/-- MAT (mat.py). -/
def matWorld (E : Env) (a : Make.BaseArgs) : Base.World ℚ (Base.Sample ℚ) KeyTerm := Formats.matWorld E.mat (matCfg a) KeyTerm.split2 E.perm
/-- NumPy (numpy.py). -/
def npWorld (E : Env) (a : Make.BaseArgs) : Base.World ℚ (Arr ℚ) KeyTerm :=
  Formats.npWorld E.np (match a.includeImages with | some (.bool b) => b | _ => false) KeyTerm.split2 E.perm

/-- The first file of a scheduler just built (base.py lines 107-114). -/
def firstFile (E : Env) (a : Make.BaseArgs) (fl : List String) (c : Base.Cfg) : String :=
  (Base.shuffle (h5World E) c fl a.usedKey).1.headD ""

/-- `get_flow_fields_shape` of a base scheduler just built (hdf5.py lines 84-102, mat.py lines 204-210, numpy.py lines 119-125). -/
def flowShape (E : Env) (a : Make.BaseArgs) : Except Exc (List Nat) :=
  match buildBase E a with
  | .error e => .error e
  | .ok (fl, c) =>
    match a.kind with
    | .h5 => Formats.h5Shape (E.h5 (firstFile E a fl c))
    | .mat => .ok (Formats.matShape (matCfg a))
    | .npy =>
      match E.np.npy (firstFile E a fl c) with
      | .ok x => .ok x.shape
      | .error e => .error e

/-- `get_flow_fields_shape` through the layers (prefetch.py lines 123-129, episodic.py lines 219-225). Simplification: episodes only over MAT
files, where the shape does not depend on the file; for the other classes the episodes would consist of MAT files all the same
(episodic.py line 237), so that those configurations cannot be used. -/
def pipeShape (E : Env) : Make.Pipe → Except Exc (List Nat)
  | .base a => flowShape E a
  | .prefetch p _ _ => pipeShape E p
  | .episodic (.base a) _ _ _ => if a.kind = .mat then flowShape E a else .error .runtimeError
  | .episodic _ _ _ _ => .error .runtimeError

/-- The constructor of the episodic scheduler (episodic.py lines 68-112), with the same simplification. -/
def episodicInit (E : Env) (p : Make.Pipe) (b l : Int) (k : KeyTerm) : Except Exc Unit :=
  match p with
  | .base a =>
    match a.kind with
    | .mat =>
      match buildBase E a with
      | .error e => .error e
      | .ok (fl, c) =>
        match Episodic.init (Base.sched 0 (matWorld E a) c 0) ⟨KeyTerm.split2, E.choice⟩ E.os E.matFiles (some b) (some l)
          (Base.init (matWorld E a) c fl a.usedKey) k with
        | .error e => .error e
        | .ok _ => .ok ()
    | _ => .error .runtimeError
  | _ => .error .runtimeError

/-- Whether the scheduler at the bottom was built with `include_images=True` (real.py lines 29-38). -/
def hasImages : Make.Pipe → Bool
  | .base a => match a.includeImages with | some (.bool b) => b | _ => false
  | .prefetch p _ _ => hasImages p
  | .episodic p _ _ _ => hasImages p

/-- The constructor of the real-image sampler (real.py lines 20-40, sampler/base.py lines 31-54). -/
def realInit (p : Make.Pipe) (b : Int) : Except Exc Unit :=
  if b ≤ 0 then .error .valueError else if hasImages p then .ok () else .error .valueError

/-! ## The arguments of the synthetic sampler -/

/-- A finite number. Simplification: infinities and NaN are not carried further (`Model/Synthetic.lean` computes with rational numbers);
configurations that contain them are outside the model and count as rejected. -/
def rat (v : Val) : Option ℚ :=
  match v.asNum with
  | some (.fin q) => some q
  | _ => none

/-- A non-negative integer. -/
def nat (v : Val) : Option Nat :=
  match v.asInt with
  | some (.ofNat n) => some n
  | _ => none

/-- A tuple of two. -/
def two {α : Type} (f : Val → Option α) : Val → Option (α × α)
  | .tuple [a, b] =>
    match f a, f b with
    | some x, some y => some (x, y)
    | _, _ => none
  | _ => none

/-- A list of pairs of numbers. -/
def ranges : Val → Option (List (ℚ × ℚ))
  | .list l => l.mapM (two rat)
  | _ => none

/-- The numbers of a specification (types.py lines 186-207); its offset, in measure units, is the second component. -/
def specOf (s : Types.Spec) : Option (Generate.Params ℚ × (ℚ × ℚ)) := do
  let b ← nat s.batchSize
  let shape ← two nat s.imageShape
  let off ← two rat s.imgOffset
  let dens ← two rat s.seedingDensityRange
  let h1 ← rat s.pHide1
  let h2 ← rat s.pHide2
  let dr ← ranges s.diameterRanges
  let dv ← rat s.diameterVar
  let ir ← ranges s.intensityRanges
  let iv ← rat s.intensityVar
  let rr ← ranges s.rhoRanges
  let rv ← rat s.rhoVar
  let dt ← rat s.dt
  let nu ← rat s.noiseUniform
  let nm ← rat s.noiseGaussianMean
  let ns ← rat s.noiseGaussianStd
  some (⟨b, shape, (0, 0), dens, h1, h2, dr, dv, ir, iv, rr, rv, dt, nu, nm, ns⟩, off)

/-- The number of devices used (synthetic.py lines 132-144): all, or those of the given indices that exist; negative indices count from
the end, and raise `IndexError` beyond the beginning. -/
def deviceCount (D : Nat) (v : Val) : Except Exc Nat :=
  match v with
  | .none => .ok D
  | .list l | .tuple l =>
    match l.mapM Val.asInt with
    | none => .error .typeError
    | some zs =>
      if (zs.filter (· < (D : Int))).any (· < -(D : Int)) then .error .indexError else .ok (zs.filter (· < (D : Int))).length
  | _ => .error .typeError

/-- `flow_field_size` (synthetic.py lines 177-183, 265-266): all items are positive numbers, the first two are used. -/
def sizeOf : Val → Option (ℚ × ℚ)
  | .tuple (a :: b :: rest) =>
    match rat a, rat b with
    | some x, some y =>
      if rest.all (fun v => match v.asNum with | some q => (Num.fin 0).lt q | none => false) then some (x, y) else none
    | _, _ => none
  | _ => none

/-- `output_units` (synthetic.py lines 223-227). -/
def unitsOf : Val → Option Bool
  | .str "pixels" => some true
  | .str "measure units per second" => some false
  | _ => none

/-- The mask, loaded (synthetic.py lines 543-546); a mask that does not have two axes is rejected by the constructor (lines 111-116). -/
def maskOf (E : Env) : Option String → Option (Option ((Nat × Nat) × (Nat → Nat → ℚ)))
  | none => some none
  | some p =>
    match E.np.npy p with
    | .ok ⟨[h, w], data⟩ => some (some ((h, w), fun j i => data.getD (j * w + i) 0))
    | _ => none

/-- The histogram, loaded (synthetic.py lines 559-560); one with other than one axis is rejected by the constructor (lines 118-126). -/
def histogramOf (E : Env) : Option String → Option (Option (List ℚ))
  | none => some none
  | some p =>
    match E.np.npy p with
    | .ok ⟨[_], data⟩ => some (some data)
    | _ => none

/-- The shape of the flow fields (synthetic.py lines 186-200). -/
def threeOf (E : Env) (p : Make.Pipe) : Option ((Nat × Nat) × Nat) :=
  match pipeShape E p with
  | .ok [h, w, c] => some ((h, w), c)
  | _ => none

/-- Whether the scheduler is an `EpisodicFlowFieldScheduler` itself (synthetic.py line 165). -/
def isEpisodic : Make.Pipe → Bool
  | .episodic _ _ _ _ => true
  | _ => false

/-- The arguments of the constructor of the synthetic sampler as the numbers it computes with (synthetic.py lines 102-256); `none` if one
of them has the wrong type, where the code raises. -/
def synthArgs (E : Env) (p : Make.Pipe) (a : Make.SynthArgs) : Option Synthetic.Args := do
  let sp ← specOf a.spec
  let nd ← (deviceCount E.devices a.deviceIds).toOption
  let bpfb ← a.batchesPerFlowBatch.asInt
  let ffpb ← a.flowFieldsPerBatch.asInt
  let seed ← a.seed.asInt
  let size ← sizeOf a.flowFieldSize
  let shape ← threeOf E p
  let res ← rat a.resolution
  let vpp ← rat a.velocitiesPerPixel
  let maxX ← rat a.maxSpeedX
  let maxY ← rat a.maxSpeedY
  let minX ← rat a.minSpeedX
  let minY ← rat a.minSpeedY
  let mask ← maskOf E a.mask
  let hist ← histogramOf E a.histogram
  some { spec := sp.1, imgOffset := sp.2, ndevices := nd, isEpisodic := isEpisodic p, bpfb := bpfb, ffpb := ffpb, seed := seed
         flowFieldSize := size, flowShape := shape.1, channels := shape.2, resolution := res, velocitiesPerPixel := vpp
         maxSpeedX := maxX, maxSpeedY := maxY, minSpeedX := minX, minSpeedY := minY, pixels := unitsOf a.outputUnits
         mask := mask, histogram := hist }

/-- The constructor of the synthetic sampler (synthetic.py lines 49-447). Which exception is raised for which argument is not kept. -/
def synthBuild (E : Env) (p : Make.Pipe) (a : Make.SynthArgs) : Except Exc (Synthetic.Args × Synthetic.Made) :=
  match synthArgs E p a with
  | none => .error .valueError
  | some s =>
    match Synthetic.make E.fl E.fl32 s with
    | .ok m => .ok (s, m)
    | .error e => .error e

/-- `np.load` of a mask and the check that it holds only 0 and 1 (synthetic.py lines 543-546). -/
def loadMask (E : Env) (p : String) : Except Exc Unit :=
  match E.np.npy p with
  | .error e => .error e
  | .ok x => if x.data.all (fun v => decide (v = 0) || decide (v = 1)) then .ok () else .error .valueError

/-- What `make` meets in this environment. -/
def world (E : Env) : Make.World where
  pathExists := E.pathExists
  isFile := E.isFile
  load := E.yaml
  prngKey := E.prngKey
  baseInit a := match buildBase E a with | .ok _ => .ok () | .error e => .error e
  episodicInit := episodicInit E
  realInit := realInit
  loadMask := loadMask E
  loadHistogram p := match E.np.npy p with | .ok _ => .ok () | .error e => .error e
  synthInit p a := match synthBuild E p a with | .ok _ => .ok () | .error e => .error e

/-! ## Running the sampler -/

/-- The outputs of a synthetic sampler directly on a base scheduler. -/
def runOn {D : Type} (E : Env) (w : Base.World ℚ D KeyTerm) (fuel : Nat) (s : Synthetic.Args) (m : Synthetic.Made) (c : Base.Cfg)
    (fl : List String) (key : KeyTerm) (ops : List Sampler.Op) :
    Option (List (Sampler.Out (Sampler.OutBatch (Adapter.Field2 ℚ) Synthetic.Pair))) :=
  (Sampler.run (Sampler.ofPlain (Synthetic.fieldSched w c fuel)) (Synthetic.gen E.fl E.fl32 E.rand s m) m.cfg ops
    (Sampler.init m.cfg (Base.init w c fl key))).map Prod.fst

/-- The outputs of the calls `ops` of a synthetic sampler made by `make` without episodes and buffer (sampler/base.py lines 73-104,
synthetic.py lines 449-513). `none` if a call does not return within `fuel` rounds of the scheduler's loop, or the sampler is of
another kind. -/
def synthRun (E : Env) (fuel : Nat) (ops : List Sampler.Op) :
    Make.Smp → Option (List (Sampler.Out (Sampler.OutBatch (Adapter.Field2 ℚ) Synthetic.Pair)))
  | .synthetic (.base a) sa =>
    match buildBase E a, synthBuild E (.base a) sa with
    | .ok (fl, c), .ok (s, m) =>
      match a.kind with
      | .h5 => runOn E (h5World E) fuel s m c fl a.usedKey ops
      | .mat => runOn E (matWorld E a) fuel s m c fl a.usedKey ops
      | .npy => runOn E (npWorld E a) fuel s m c fl a.usedKey ops
    | _, _ => none
  | _ => none

/-- The first `k` outcomes of a real-image sampler made by `make` without episodes and buffer (sampler/base.py lines 73-94, real.py
lines 42-59). -/
def realRun (E : Env) (fuel k : Nat) : Make.Smp → Option (List (Except Exc (Sampler.RealBatch ℚ)))
  | .real (.base a) b =>
    match buildBase E a with
    | .ok (fl, c) =>
      (Sampler.realRun (Sampler.ofPlain (Base.sched 0 (matWorld E a) c fuel)) b.toNat k
        (Base.init (matWorld E a) c fl a.usedKey)).map Prod.fst
    | .error _ => none
  | _ => none

/-- The outcomes of the calls `ops` on a real-image sampler made by `make` without episodes and buffer (sampler/base.py lines 73-116, real.py
lines 42-59). -/
def realCalls (E : Env) (fuel : Nat) (ops : List Sampler.Op) : Make.Smp → Option (List (Sampler.Out (Sampler.RealBatch ℚ)))
  | .real (.base a) b =>
    match buildBase E a with
    | .ok (fl, c) =>
      (Sampler.realHistory (Sampler.ofPlain (Base.sched 0 (matWorld E a) c fuel)) b.toNat ops
        (Base.init (matWorld E a) c fl a.usedKey)).map Prod.fst
    | .error _ => none
  | _ => none

end Verif.Whole
