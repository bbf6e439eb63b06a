import Verif.Model.Base
import Verif.Model.ArrIx
import Mathlib.Data.Rat.Defs
/-!
# The file formats: `hdf5.py`, `mat.py`, `numpy.py` in `src/synthpix/scheduler/`

Each format supplies `load_file` and `get_next_slice` for the base scheduler, i.e. a `Base.World`.
-/

namespace Verif.Formats
open Verif Base

/-! ## HDF5 (`hdf5.py`) -/

section Hdf5
variable {V Key : Type}

/-- An HDF5 file as `h5py` presents it: its top-level items in iteration order, each a dataset (`some`) or
something else (`none`); or an exception while opening. -/
abbrev H5File (V : Type) := Except Exc (List (String × Option (Arr V)))

/-- `load_file` (hdf5.py lines 43-61): the first item, which must be a dataset. `list(file)[0]` raises
`IndexError` for an empty file. -/
def h5Load (file : H5File V) : Except Exc (Arr V) :=
  match file with
  | .error e => .error e
  | .ok [] => .error .indexError
  | .ok ((_, none) :: _) => .error .valueError
  | .ok ((_, some a) :: _) => .ok a

/-- `flow_fields[:, i, :, :]` (hdf5.py line 78): needs at least four axes (`IndexError` otherwise); the second
axis is dropped. The block of `size (Z :: C :: rest)` entries of each `x` is copied. -/
def h5Slice (a : Arr V) (i : Nat) : Except Exc (Arr V) :=
  match a.shape with
  | X :: Y :: Z :: C :: rest =>
    let k := Arr.size (Z :: C :: rest)
    .ok ⟨X :: Z :: C :: rest, (List.range X).flatMap (fun x => (a.data.drop ((x * Y + i) * k)).take k)⟩
  | _ => .error .indexError

/-- `get_next_slice` (hdf5.py lines 63-82). `shape[1]` raises `IndexError` for fewer than two axes. -/
def h5Next (p : String) (a : Arr V) (i : Nat) : SliceRes V :=
  match a.shape[1]? with
  | none => .fail .indexError
  | some Y =>
    if Y ≤ i then .ended
    else
      match h5Slice a i with
      | .ok f => .ok ⟨f, none, none, some [p]⟩
      | .error e => .fail e

/-- The world of an `HDF5FlowFieldScheduler` over a store of files. -/
def h5World (files : String → H5File V) (split : Key → Key × Key) (perm : Key → Nat → List Nat) : World V (Arr V) Key where
  load p := h5Load (files p)
  slice := h5Next
  split := split
  perm := perm

/-- `get_flow_fields_shape` (hdf5.py lines 84-102), for the first file of the list. -/
def h5Shape (file : H5File V) : Except Exc (List Nat) :=
  match h5Load file with
  | .error e => .error e
  | .ok a =>
    match a.shape[0]?, a.shape[2]? with
    | some X, some Z => .ok [X, Z, 2]
    | _, _ => .error .indexError

/-- The extra check of `HDF5FlowFieldScheduler.__init__` (hdf5.py lines 40-41); it looks at the `file_list` argument,
not at the expanded list. -/
def h5Check (arg : List String) : Except Exc Unit :=
  if arg.all (fun p => p.endsWith ".h5") then .ok () else .error .valueError

end Hdf5

/-! ## MAT (`mat.py`) -/

/-- What the MAT loader calls: SciPy's reader, `h5py.is_hdf5`, the flattened HDF5 tree, and
`np.asarray(Image.fromarray(a).resize((w, h)))` with the default and with the bilinear filter.
Values are rational numbers. -/
structure MatIO where
  scipy : String → Except Exc (List (String × Arr Rat))
  isHdf5 : String → Bool
  hdf5 : String → Except Exc (List (String × Arr Rat))
  resizeImage : Arr Rat → (width height : Nat) → Except Exc (Arr Rat)
  resizeFlow : Arr Rat → (width height : Nat) → Except Exc (Arr Rat)

/-- The scheduler's options (mat.py lines 56-64). -/
structure MatCfg where
  includeImages : Bool
  height : Nat
  width : Nat

/-- The reading part of `load_file` (mat.py lines 113-133). -/
def matRead (io : MatIO) (p : String) : Except Exc (List (String × Arr Rat)) :=
  match io.scipy p with
  | .ok d => .ok d
  | .error e =>
    if e = .notImplemented ∨ e = .valueError then
      if io.isHdf5 p then io.hdf5 p else .error .valueError
    else .error e

/-- Resizing of one image (mat.py lines 147-151): PIL's `resize` takes `(width, height)` and is given
`self.output_shape`, which is `(height, width)`. -/
def matImage (io : MatIO) (c : MatCfg) (img : Arr Rat) : Except Exc (Arr Rat) :=
  if img.shape.take 2 ≠ [c.height, c.width] then io.resizeImage img c.height c.width else .ok img

/-- `np.transpose(a, (1, 2, 0))` (mat.py line 160): `ValueError` unless there are three axes. -/
def transpose120 (a : Arr Rat) : Except Exc (Arr Rat) :=
  match a.shape with
  | [A, B, C] =>
    .ok (Arr.build [B, C, A] (fun idx =>
      match idx with
      | [b, c, i] => a.data.getD ((i * B + b) * C + c) 0
      | _ => 0))
  | _ => .error .valueError

/-- `a[..., c]` for an array with three axes (mat.py lines 171, 174). -/
def channel (a : Arr Rat) (c : Nat) : Arr Rat :=
  match a.shape with
  | [A, B, C] =>
    Arr.build [A, B] (fun idx =>
      match idx with
      | [y, x] => a.data.getD ((y * B + x) * C + c) 0
      | _ => 0)
  | _ => ⟨[], []⟩

/-- `np.stack([u * rx, v * ry], axis=-1)` for arrays of shape `(H, W)` (mat.py line 176). -/
def stackScaled (u v : Arr Rat) (rx ry : Rat) : Except Exc (Arr Rat) :=
  if u.shape = v.shape then
    .ok ⟨u.shape ++ [2], (u.data.zip v.data).flatMap (fun q => [q.1 * rx, q.2 * ry])⟩
  else .error .valueError

/-- Resizing of the flow to `output_shape` (mat.py lines 164-176): nothing if the size is right already; a zero side
raises `ZeroDivisionError`; `Image.fromarray` of a channel that is not two-dimensional raises `TypeError` (flows with
four or more axes). -/
def matFit (io : MatIO) (c : MatCfg) (flow : Arr Rat) : Except Exc (Arr Rat) :=
  if flow.shape.take 2 = [c.height, c.width] then .ok flow
  else
    match flow.shape with
    | [h, w, _] =>
      if h = 0 ∨ w = 0 then .error .zeroDivision
      else
        match io.resizeFlow (channel flow 0) c.width c.height, io.resizeFlow (channel flow 1) c.width c.height with
        | .ok u, .ok v => stackScaled u v ((c.width : Rat) / w) ((c.height : Rat) / h)
        | .error e, _ => .error e
        | _, .error e => .error e
    | _ => .error .typeError

/-- The flow part of `load_file` (mat.py lines 153-177). `flow.shape[2]` raises `IndexError` for fewer than three
axes. -/
def matFlow (io : MatIO) (c : MatCfg) (flow0 : Arr Rat) : Except Exc (Arr Rat) :=
  match flow0.shape[2]? with
  | none => .error .indexError
  | some ch =>
    if ch = 2 ∨ flow0.shape[0]? = some 2 then
      match (if ch = 2 then .ok flow0 else transpose120 flow0) with
      | .error e => .error e
      | .ok flow => matFit io c flow
    else .error .assertionError

/-- `load_file` (mat.py lines 91-185). The cached object is the sample itself. -/
def matLoad (io : MatIO) (c : MatCfg) (p : String) : Except Exc (Sample Rat) :=
  match matRead io p with
  | .error e => .error e
  | .ok data =>
    match data.lookup "V" with
    | none => .error .valueError
    | some flow0 =>
      if c.includeImages then
        match data.lookup "I0", data.lookup "I1" with
        | some i0, some i1 =>
          match matImage io c i0, matImage io c i1 with
          | .ok j0, .ok j1 =>
            match matFlow io c flow0 with
            | .ok f => .ok ⟨f, some j0, some j1, some [p]⟩
            | .error e => .error e
          | .error e, _ => .error e
          | _, .error e => .error e
        | _, _ => .error .valueError
      else
        match matFlow io c flow0 with
        | .ok f => .ok ⟨f, none, none, some [p]⟩
        | .error e => .error e

/-- `get_next_slice` (mat.py lines 187-202): one slice per file. -/
def matNext (c : MatCfg) (_ : String) (d : Sample Rat) (i : Nat) : SliceRes Rat :=
  if i ≠ 0 then .ended
  else if c.includeImages then .ok d
  else .ok { d with images1 := none, images2 := none }

/-- The world of a `MATFlowFieldScheduler`. -/
def matWorld {Key : Type} (io : MatIO) (c : MatCfg) (split : Key → Key × Key) (perm : Key → Nat → List Nat) :
    World Rat (Sample Rat) Key where
  load := matLoad io c
  slice := matNext c
  split := split
  perm := perm

/-- `get_flow_fields_shape` (mat.py lines 204-210). -/
def matShape (c : MatCfg) : List Nat := [c.height, c.width, 2]

/-! ## NumPy (`numpy.py`) -/

/-- `os.path.split`-style decomposition of a path into everything up to and including the last '/' and the rest
(`os.path.basename` is the second part). -/
def splitLast : List Char → List Char × List Char
  | [] => ([], [])
  | c :: l =>
    let r := splitLast l
    if r.1 = [] ∧ c ≠ '/' then ([], c :: r.2) else (c :: r.1, r.2)

/-- Removes trailing '/'s. -/
def rstripSlash (l : List Char) : List Char := (l.reverse.dropWhile (· = '/')).reverse

/-- `os.path.dirname` (POSIX): the head without trailing slashes, unless it consists of slashes only. -/
def dirname (p : List Char) : List Char :=
  if (splitLast p).1.all (· = '/') then (splitLast p).1 else rstripSlash (splitLast p).1

/-- `os.path.basename` (POSIX). -/
def basename (p : List Char) : List Char := (splitLast p).2

/-- `os.path.join(folder, name)` (POSIX) for a name that does not start with '/'. -/
def joinPath (folder name : List Char) : List Char :=
  if folder = [] then name
  else if folder.getLast? = some '/' then folder ++ name
  else folder ++ '/' :: name

/-- A decimal digit. Simplification: `\d` and `int` also accept other Unicode digits. -/
def isDigit (c : Char) : Bool := '0' ≤ c ∧ c ≤ '9'

/-- The value of a string of digits, most significant first: `int(...)`. -/
def digitsValue (l : List Char) : Nat := l.foldl (fun acc c => 10 * acc + (c.toNat - '0'.toNat)) 0

/-- The decimal digits of a number, most significant first. -/
def natDigits (n : Nat) : List Char :=
  if n < 10 then [Char.ofNat ('0'.toNat + n)] else natDigits (n / 10) ++ [Char.ofNat ('0'.toNat + n % 10)]
  termination_by n
  decreasing_by omega

/-- `f"{t}"` for an integer. -/
def renderInt : Int → List Char
  | .ofNat n => natDigits n
  | .negSucc n => '-' :: natDigits (n + 1)

/-- `re.match(r"flow_(\d+)\.npy$", name)` followed by `int(group(1))` (numpy.py lines 67-70 and 107-110).
Simplification: `$` also matches before a final newline. -/
def parseFlowName (name : List Char) : Option Nat :=
  if "flow_".toList <+: name then
    let rest := name.drop 5
    let ds := rest.takeWhile isDigit
    if ds ≠ [] ∧ rest.dropWhile isDigit = ".npy".toList then some (digitsValue ds) else none
  else none

/-- `os.path.join(folder, f"img_{t}.jpg")` (numpy.py lines 72-73, 113, 115). -/
def imgPath (folder : List Char) (t : Int) : List Char :=
  joinPath folder ("img_".toList ++ renderInt t ++ ".jpg".toList)

/-- The two image paths belonging to a flow file (numpy.py lines 107-115): `none` is "Bad filename". -/
def framePaths (p : List Char) : Option (List Char × List Char) :=
  match parseFlowName (basename p) with
  | none => none
  | some t => some (imgPath (dirname p) ((t : Int) - 1), imgPath (dirname p) t)

/-- The check of the constructor when images are requested (numpy.py lines 64-77), over the expanded list. -/
def npCheckImages (isFile : List Char → Bool) : List (List Char) → Except Exc Unit
  | [] => .ok ()
  | p :: l =>
    match framePaths p with
    | none => .error .valueError
    | some (a, b) => if isFile a && isFile b then npCheckImages isFile l else .error .fileNotFound

variable {V Key : Type}

/-- What the NumPy loader reads: `np.load` and `np.array(Image.open(p).convert("RGB"))`. -/
structure NpIO (V : Type) where
  npy : String → Except Exc (Arr V)
  rgb : String → Except Exc (Arr V)

/-- `get_next_slice` (numpy.py lines 90-117). -/
def npNext (io : NpIO V) (includeImages : Bool) (p : String) (a : Arr V) (i : Nat) : SliceRes V :=
  if i ≠ 0 then .ended
  else if includeImages then
    match framePaths p.toList with
    | none => .fail .valueError
    | some (q, r) =>
      match io.rgb (String.ofList q), io.rgb (String.ofList r) with
      | .ok x, .ok y => .ok ⟨a, some x, some y, some [p]⟩
      | .error e, _ => .fail e
      | _, .error e => .fail e
  else .ok ⟨a, none, none, some [p]⟩

/-- The world of a `NumpyFlowFieldScheduler` (numpy.py lines 79-117). -/
def npWorld (io : NpIO V) (includeImages : Bool) (split : Key → Key × Key) (perm : Key → Nat → List Nat) :
    World V (Arr V) Key where
  load := io.npy
  slice := npNext io includeImages
  split := split
  perm := perm

end Verif.Formats
