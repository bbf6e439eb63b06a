import Verif.Model.Glob
/-!
# Specification of the files below a directory
-/

namespace Verif.Glob
open Verif

/-- `At items comps x`: going down from a directory with the entries `items` through the names `comps` leads to `x`. -/
inductive At : List (String × Node) → List String → Node → Prop
  | here {items n x} : (n, x) ∈ items → At items [n] x
  | down {items n l comps x} : (n, .dir l) ∈ items → At l comps x → At items (n :: comps) x

/-- The path of the entry reached through the names `comps` from the directory `d`: the names with `/` in between. -/
def pathOf (d : String) : List String → String
  | [] => d
  | n :: r => r.foldl (fun q m => q ++ "/" ++ m) ((if d.toList.getLast? = some '/' then d else d ++ "/") ++ n)

/-- The name `n` is of the form `pre*suf`. -/
def Matches (p : Pat) (n : String) : Prop := ∃ mid, n.toList = p.pre.toList ++ mid ++ p.suf.toList

/-- The files a MAT scheduler is to find: those named `*.mat`, at any depth. -/
def matFiles : Pat := ⟨true, "", ".mat"⟩

/-- The files a NumPy scheduler is to find: those named `flow_*.npy`, directly in the directory. -/
def flowFiles : Pat := ⟨false, "flow_", ".npy"⟩

/-- What every file system guarantees: the names in a directory are different, not empty and contain no `/`. -/
structure Named (items : List (String × Node)) : Prop where
  distinct : ∀ (l : List (String × Node)), (l = items ∨ ∃ comps, At items comps (.dir l)) → (l.map Prod.fst).Nodup
  names : ∀ comps x, At items comps x → ∀ n ∈ comps, n ≠ "" ∧ '/' ∉ n.toList

/-- The file system `fs` shows the directory `d` with the entries `items`. -/
structure Shows (fs : BaseInit.FS) (p : Pat) (d : String) (items : List (String × Node)) : Prop where
  isDir : fs.isDir d = true
  glob : fs.glob d = glob p d items
  isFile : ∀ comps x, At items comps x → fs.isFile (pathOf d comps) = x.isFile

/-- A wanted file: a file whose name matches, anywhere below for a deep pattern, directly in the directory otherwise. -/
def Wanted (p : Pat) (items : List (String × Node)) (comps : List String) : Prop :=
  At items comps .file ∧ (∃ n, comps.getLast? = some n ∧ Matches p n) ∧ (p.deep = true ∨ comps.length = 1)

/-- What has to hold of a directory for the property to hold: no name below it starts with `.`, and no directory in the range
of the pattern has a name that matches it. -/
structure Plain (p : Pat) (items : List (String × Node)) : Prop where
  visible : ∀ comps x, At items comps x → ∀ n ∈ comps, n.toList.head? ≠ some '.'
  noDir : ∀ comps l n, At items comps (.dir l) → (p.deep = true ∨ comps.length = 1) → comps.getLast? = some n → ¬ Matches p n

/-- The part of the file list a directory stands for: the wanted files, each once, in increasing order of their paths. -/
def Part (p : Pat) (part : List String) (arg : String × List (String × Node)) : Prop :=
  part.Pairwise (· < ·) ∧ ∀ q, q ∈ part ↔ ∃ comps, Wanted p arg.2 comps ∧ q = pathOf arg.1 comps

end Verif.Glob
