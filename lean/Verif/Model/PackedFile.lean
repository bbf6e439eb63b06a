import Verif.Model.Convert
import Verif.Model.MatTree
/-!
# The file a triplet is packed into, as the MAT scheduler finds it (`scripts/download_piv_1.py` lines 233-237)
-/

namespace Verif.Convert
open Verif Formats

/-- The file `pack_triplet` writes (scripts/download_piv_1.py lines 233-237): an HDF5 file without MATLAB's header and with three datasets, which h5py lists in
alphabetical order. -/
def packedFile (x : Arr Rat × Arr Rat × Arr Rat) : MatFile :=
  .hdf5 false [("I0", .dataset x.2.1), ("I1", .dataset x.2.2), ("V", .dataset x.1)]

end Verif.Convert
