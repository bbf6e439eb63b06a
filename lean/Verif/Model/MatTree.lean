import Verif.Model.Formats
/-!
# What a MAT file holds (`src/synthpix/scheduler/mat.py` lines 103-133)

`Model/Formats.lean` takes the readers of MAT files as parameters. Here the files are given as data, and what the readers
return is computed from it.
-/

namespace Verif.Formats

/-- An item of an HDF5 group as h5py presents it: a dataset, a group, or something else (mat.py lines 108-111). -/
inductive H5 where
  | dataset (a : Arr Rat)
  | group (items : List (String × H5))
  | other

mutual
/-- The body of the loop of `recursively_load_hdf5_group` (mat.py lines 108-111). -/
def flattenItem (path : String) : H5 → List (String × Arr Rat)
  | .dataset a => [(path, a)]
  | .group l => flattenItems path l
  | .other => []

/-- `recursively_load_hdf5_group` (mat.py lines 103-112), the dictionary as the list of its insertions: the names in a
group are different, so that none replaces another. -/
def flattenItems (pre : String) : List (String × H5) → List (String × Arr Rat)
  | [] => []
  | (n, it) :: r => flattenItem (if pre = "" then n else pre ++ "/" ++ n) it ++ flattenItems pre r
end

/-- A MAT file: the variables of a file of version 4 to 7.2 (including the entries `__header__`, ... that SciPy adds), the tree
of an HDF5 file (written by MATLAB as version 7.3, or by another program without MATLAB's header), or something else. -/
inductive MatFile where
  | legacy (vars : List (String × Arr Rat))
  | hdf5 (matlab : Bool) (items : List (String × H5))
  | garbage

/-- `squeeze_me=True` (mat.py line 122): SciPy drops the axes of length one. -/
def squeeze (a : Arr Rat) : Arr Rat := ⟨a.shape.filter (· ≠ 1), a.data⟩

/-- `scipy.io.loadmat` and the filter of its result (mat.py lines 119-125): `NotImplementedError` for version 7.3,
`ValueError` for other content, `FileNotFoundError` for a missing file. -/
def loadmat (file : Option MatFile) : Except Exc (List (String × Arr Rat)) :=
  match file with
  | some (.legacy vars) => .ok ((vars.map (fun q => (q.1, squeeze q.2))).filter (fun q => ! "__".toList.isPrefixOf q.1.toList))
  | some (.hdf5 true _) => .error .notImplemented
  | some (.hdf5 false _) => .error .valueError
  | some .garbage => .error .valueError
  | none => .error .fileNotFound

/-- The readers of `MatIO` on a disk; opening something else as HDF5 raises `OSError`. -/
def diskIO (disk : String → Option MatFile) (resizeImage resizeFlow : Arr Rat → Nat → Nat → Except Exc (Arr Rat)) : MatIO where
  scipy p := loadmat (disk p)
  isHdf5 p := match disk p with
    | some (.hdf5 _ _) => true
    | _ => false
  hdf5 p := match disk p with
    | some (.hdf5 _ items) => .ok (flattenItems "" items)
    | _ => .error (.other 0)
  resizeImage := resizeImage
  resizeFlow := resizeFlow

end Verif.Formats
