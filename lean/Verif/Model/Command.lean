import Verif.Model.Convert
import Verif.Model.Crash
/-!
# The command line of the script for class 1 (`scripts/download_piv_1.py` lines 425-504)

Text is a list of characters, `ws` says which of them Python treats as white space.
-/

namespace Verif.Command
open Verif Scripts

/-- `s.split(c)` for a single character (scripts/download_piv_1.py lines 434 and 494). -/
def splitOn (c : Char) : List Char → List (List Char)
  | [] => [[]]
  | x :: l =>
    if x = c then [] :: splitOn c l
    else
      match splitOn c l with
      | [] => [[x]]
      | w :: ws => (x :: w) :: ws

/-- Decimal digits, with single underscores between them, read from the left with the value `acc` so far; `more` says whether a digit must follow.
Simplification: ASCII digits only. -/
def digits (acc : Nat) (more : Bool) : List Char → Option Nat
  | [] => if more then none else some acc
  | c :: l =>
    if c.isDigit then digits (10 * acc + (c.toNat - 48)) false l
    else if c = '_' ∧ more = false then digits acc true l
    else none

/-- `int(s)` of a text (scripts/download_piv_1.py lines 434 and 494): white space around it, a sign, digits; `none` is `ValueError`. -/
def pyInt (ws : Char → Bool) (s : List Char) : Option Int :=
  match strip ws s with
  | '-' :: l => (digits 0 true l).map (fun n => -(n : Int))
  | '+' :: l => (digits 0 true l).map (fun n => (n : Int))
  | l => (digits 0 true l).map (fun n => (n : Int))

/-- `list(map(int, s.split(c)))`. -/
def pyInts (ws : Char → Bool) (c : Char) (s : List Char) : Option (List Int) := (splitOn c s).mapM (pyInt ws)

/-- What the user sees of a run: the exit status, whether the message about the split ratio was printed, whether that about the target shape was. -/
structure Report where
  status : Nat
  ratioMessage : Bool
  shapeMessage : Bool
  deriving DecidableEq, Repr

/-- The two parts of the work: `fetch_splits` with the ratios (lines 81-134), and `main` from line 442 on with the target shape (download, packing,
splitting). Each may raise, having changed something. -/
structure Steps (D : Type) where
  fetch : List Int → D → Except Exc Unit × D
  rest : List Int → D → Except Exc Unit × D

/-- `main` (scripts/download_piv_1.py lines 425-460): the flag says whether the message about the target shape was printed, in which case it
returns. -/
def main {D : Type} (ws : Char → Bool) (steps : Steps D) (shapeArg : List Char) (d : D) : Except Exc Bool × D :=
  match pyInts ws 'x' shapeArg with
  | none => (.ok true, d)
  | some shape =>
    match steps.rest shape d with
    | (.error e, d') => (.error e, d')
    | (.ok _, d') => (.ok false, d')

/-- The program (scripts/download_piv_1.py lines 463-504): every exception is caught, reported as a wrong split ratio, and leads to status 1. -/
def program {D : Type} (ws : Char → Bool) (steps : Steps D) (ratioArg shapeArg : List Char) (d : D) : Report × D :=
  match pyInts ws '/' ratioArg with
  | none => (⟨1, true, false⟩, d)
  | some ratios =>
    if ratiosOk ratios then
      match steps.fetch ratios d with
      | (.error _, d1) => (⟨1, true, false⟩, d1)
      | (.ok _, d1) =>
        match main ws steps shapeArg d1 with
        | (.error _, d2) => (⟨1, true, false⟩, d2)
        | (.ok b, d2) => (⟨0, false, b⟩, d2)
    else (⟨1, true, false⟩, d)

/-- What is on the disk: the lists of names (`splits/`), the packed files, the copies in the directories of the splits. -/
structure Disk (F I : Type) where
  lists : Crash.Disk Crash.Split (List SplitCopy.Name)
  packs : Convert.Packs (F × I × I)
  copies : SplitCopy.Files (F × I × I)

/-- `main` from line 442 on (scripts/download_piv_1.py lines 442-460) if the raw files are there: packing, then splitting. `resize` is `resize_flow` for
a target shape, `listing` the order in which `rglob` finds the packed files. -/
def rest {F I : Type} (digit : Char → Bool) (src : Convert.Src F I) (resize : List Int → F → Except Exc F) (flows : List (List SplitCopy.Name × SplitCopy.Name))
    (listing : Convert.Packs (F × I × I) → List (SplitCopy.Packed (F × I × I))) (shape : List Int) (d : Disk F I) : Except Exc Unit × Disk F I :=
  let packs := Convert.convert { src with resize := resize shape } flows d.packs
  match Crash.load d.lists with
  | .error e => (.error e, { d with packs := packs })
  | .ok sets => (.ok (), { d with packs := packs, copies := SplitCopy.perform digit sets (listing packs) d.copies })

end Verif.Command
