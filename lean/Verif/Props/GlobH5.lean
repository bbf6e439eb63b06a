import Verif.Props.Glob
/-!
# C112 for the HDF5 scheduler

It accepts only directories whose own names end in `.h5` (`C112_h5_directory_refuted`); those stand for the `.h5` files below them at any depth.
-/

namespace Verif.Glob
open Verif BaseInit

/-- The files the HDF5 scheduler is for: `*.h5` at any depth. -/
def h5Files : Pat := ⟨true, "", ".h5"⟩

private theorem strings_some (l : List String) : strings (l.map some) = some l := by
  induction l with
  | nil => rfl
  | cons a l ih => simp [strings, ih]

/-- C112 for the HDF5 scheduler: directories with names ending in `.h5` stand for the `.h5` files below them at any depth. -/
theorem C112_h5_directories_partial (fs : FS) (args : List (String × List (String × Node))) (r lp : Bool) (hd : ∀ a ∈ args, a.1.endsWith ".h5" = true)
    (hs : ∀ a ∈ args, Shows fs h5Pat a.1 a.2) (hn : ∀ a ∈ args, Named a.2) (hp : ∀ a ∈ args, Plain h5Files a.2)
    (hsome : ∃ a ∈ args, ∃ comps, Wanted h5Files a.2 comps) :
    ∃ parts, FormatInit.hdf5 fs (.list ((args.map Prod.fst).map some)) (.bool r) (.bool lp) = .ok (parts.flatten, r, lp) ∧
      List.Forall₂ (Part h5Files) parts args := by
  obtain ⟨parts, e, hpt⟩ := (C112_directories_partial fs h5Pat args r lp hs hn hp).1 hsome
  refine ⟨parts, ?_, hpt⟩
  have hall : Formats.h5Check (args.map Prod.fst) = .ok () := by
    unfold Formats.h5Check
    rw [if_pos]
    rw [List.all_eq_true]
    intro q hq
    obtain ⟨a, ha, rfl⟩ := List.mem_map.1 hq
    exact hd a ha
  simp only [FormatInit.hdf5, e, strings_some, hall]

/-- A directory with files at two depths. -/
def h5Tree : List (String × Node) := [("b.h5", .file), ("seq", .dir [("a.h5", .file)]), ("notes.txt", .file)]

/-- It meets the hypotheses, under the name `runs.h5`. -/
example : ("runs.h5".endsWith ".h5" = true) ∧ Shows (treeFS h5Pat "runs.h5" h5Tree) h5Pat "runs.h5" h5Tree ∧ Named h5Tree ∧ Plain h5Files h5Tree ∧
    Wanted h5Files h5Tree ["seq", "a.h5"] := by
  have hn : Named h5Tree := named_of_check (f := fun _ _ => true) (by decide +kernel) (by decide +kernel)
  refine ⟨by decide +kernel, treeFS_shows _ _ _ hn, hn, plain_of_check (by decide +kernel) (by decide +kernel), ?_⟩
  exact ⟨.down (l := [("a.h5", .file)]) (by simp [h5Tree]) (.here (by simp)), ⟨"a.h5", rfl, "a".toList, by decide +kernel⟩, Or.inl rfl⟩

end Verif.Glob
