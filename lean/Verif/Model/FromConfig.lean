import Verif.Model.Make
/-!
# The `from_config` methods called by themselves (hdf5.py lines 104-119, mat.py lines 212-229, numpy.py lines 127-143, real.py lines 61-72)

`make` calls them with all options present (`Make.baseFromConfig`). Here the configuration is the user's.
-/

namespace Verif.FromConfig
open Verif Verif.Make

/-- A configuration of a scheduler: its entries, and the random key, which is no value of the kinds of `Val`. -/
structure Config where
  entries : Dict
  key : Option KeyTerm

/-- `HDF5FlowFieldScheduler.from_config`, `MATFlowFieldScheduler.from_config`, `NumpyFlowFieldScheduler.from_config`: the arguments of the constructor
(hdf5.py lines 115-119, mat.py lines 223-229, numpy.py lines 138-143). -/
def fromConfig (kind : Kind) (c : Config) : Except Exc BaseArgs :=
  match kind with
  | .h5 => .ok { kind := .h5, fileList := getD c.entries "file_list" (.list []), randomize := getD c.entries "randomize" (.bool false),
                 loop := getD c.entries "loop" (.bool true), key := none, includeImages := none, outputShape := none }
  | .mat =>
    andThen (toTuple (getD c.entries "output_shape" (.tuple [.int 256, .int 256]))) fun shape =>
      .ok { kind := .mat, fileList := getD c.entries "file_list" (.list []), randomize := getD c.entries "randomize" (.bool false),
            loop := getD c.entries "loop" (.bool false), key := none, includeImages := some (getD c.entries "include_images" (.bool false)),
            outputShape := some shape }
  | .npy => .ok { kind := .npy, fileList := getD c.entries "file_list" (.list []), randomize := getD c.entries "randomize" (.bool false),
                  loop := getD c.entries "loop" (.bool true), key := none,
                  includeImages := some (getD c.entries "include_images" (.bool false)), outputShape := none }

/-- The names of the parameters of the constructor, apart from `key` (hdf5.py lines 24-30, mat.py lines 36-44, numpy.py lines 32-39). -/
def parameters : Kind → List String
  | .h5 => ["file_list", "randomize", "loop"]
  | .mat => ["file_list", "randomize", "loop", "include_images", "output_shape"]
  | .npy => ["file_list", "randomize", "loop", "include_images"]

/-- The constructor called with the entries as keyword arguments, `Class(**config)`, and its defaults (hdf5.py lines 24-30, mat.py lines 36-44, numpy.py
lines 32-39): `file_list` is needed, other names are a `TypeError`. -/
def construct (kind : Kind) (c : Config) : Except Exc BaseArgs :=
  if c.entries.all (fun q => (parameters kind).contains q.1) then
    match c.entries.lookup "file_list" with
    | none => .error .typeError
    | some files => .ok {
        kind := kind, fileList := files, randomize := getD c.entries "randomize" (.bool false), loop := getD c.entries "loop" (.bool false),
        key := c.key
        includeImages := if kind = .h5 then none else some (getD c.entries "include_images" (.bool false))
        outputShape := if kind = .mat then some (getD c.entries "output_shape" (.tuple [.int 256, .int 256])) else none }
  else .error .typeError

/-- `RealImageSampler.from_config` (real.py lines 61-72): the batch size the constructor is called with. -/
def realBatchSize (d : Dict) : Val := getD d "batch_size" (.int 1)

end Verif.FromConfig
