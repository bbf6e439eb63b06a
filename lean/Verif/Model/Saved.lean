import Verif.Model.Scripts
/-!
# The images that the main program saves (`visualize_and_save`, `src/main.py` lines 20-64)
-/

namespace Verif.Saved
open Verif Scripts

/-- The three pictures of a sample, in the order in which they are written (src/main.py lines 46-47 and 61). -/
inductive Part where
  | image1 | image2 | quiver
  deriving DecidableEq, Repr

/-- What is appended to the name of the sample (src/main.py lines 46-47 and 61). -/
def suffix : Part → List Char
  | .image1 => "_image1.png".toList
  | .image2 => "_image2.png".toList
  | .quiver => "_quiver.png".toList

/-- The name of a picture in the output directory: `f"batch_{i}_sample_{j}"` (src/main.py line 93) and the suffix. -/
def fileName (i j : Nat) (p : Part) : List Char :=
  "batch_".toList ++ Nat.toDigits 10 i ++ "_sample_".toList ++ Nat.toDigits 10 j ++ suffix p

/-- The files in the output directory. -/
abbrev Files (α : Type) := List Char → Option α

/-- `imsave` and `savefig`: an existing file is replaced. -/
def put {α : Type} (fs : Files α) (name : List Char) (x : α) : Files α := fun q => if q = name then some x else fs q

/-- `visualize_and_save` for one sample (src/main.py lines 92-98 and 37-64), `x p` being its pictures. Simplification: it succeeds. -/
def saveSample {α : Type} (fs : Files α) (i j : Nat) (x : Part → α) : Files α :=
  put (put (put fs (fileName i j .image1) (x .image1)) (fileName i j .image2) (x .image2)) (fileName i j .quiver) (x .quiver)

/-- The output directory after the events of a run (src/main.py lines 82-107); `x i j` are the pictures of sample `j` of batch `i`. -/
def saved {α : Type} (x : Nat → Nat → Part → α) : List Ev → Files α → Files α
  | [], fs => fs
  | .save i j :: evs, fs => saved x evs (saveSample fs i j (x i j))
  | .shutdown :: evs, fs => saved x evs fs

end Verif.Saved
