import Verif.Model.SplitCopy
/-!
# Packing the triplets (`convert` and `pack_triplet`, `scripts/download_piv_1.py` lines 217-274) and the whole script

A raw file is identified by the directories on the way to it, below the raw directory, and its name.
-/

namespace Verif.Convert
open Verif SplitCopy

/-- The raw files as the script reads them: `read_flow` (lines 137-170), `os.path.exists` and `read_img` of the images (lines 173-185
and 259; `none` if there is no such file), and `resize_flow` with the target shape (lines 188-214). -/
structure Src (F I : Type) where
  flow : List Name → Name → Except Exc F
  img : List Name → Name → Option (Except Exc I)
  resize : F → Except Exc F

/-- `pack_triplet` (lines 217-238) up to the opening of the output file: flow, first image, second image, resizing, in this order. -/
def packTriplet {F I : Type} (src : Src F I) (dir : List Name) (flowName : Name) (img1 img2 : Except Exc I) : Except Exc (F × I × I) :=
  match src.flow dir flowName with
  | .error e => .error e
  | .ok f =>
    match img1 with
    | .error e => .error e
    | .ok a =>
      match img2 with
      | .error e => .error e
      | .ok b =>
        match src.resize f with
        | .error e => .error e
        | .ok f' => .ok (f', a, b)

/-- The files below the packed directory. -/
abbrev Packs (α : Type) := List Name × Name → Option α

/-- The body of the loop over the flow files (lines 252-274). The name has "_flow." in it, so that the last "_flow" of the path is in
the name: `prefix` is the directory and what precedes it there. An existing file is replaced (`h5py.File(out_path, "w")`, line 234); if a
triplet fails, the output file has not been opened yet. Simplification: opening and writing succeed. -/
def convertOne {F I : Type} (src : Src F I) (fs : Packs (F × I × I)) (t : List Name × Name) : Packs (F × I × I) :=
  let stem := (Scripts.beforeLast "_flow".toList t.2).getD t.2
  match src.img t.1 (stem ++ "_img1.tif".toList), src.img t.1 (stem ++ "_img2.tif".toList) with
  | some i1, some i2 =>
    match packTriplet src t.1 t.2 i1 i2 with
    | .ok x => fun q => if q = (t.1, stem ++ ".mat".toList) then some x else fs q
    | .error _ => fs
  | _, _ => fs

/-- `convert` (lines 241-274); `flows` are the paths found by `glob`, sorted. -/
def convert {F I : Type} (src : Src F I) (flows : List (List Name × Name)) (fs : Packs (F × I × I)) : Packs (F × I × I) :=
  flows.foldl (convertOne src) fs

end Verif.Convert
