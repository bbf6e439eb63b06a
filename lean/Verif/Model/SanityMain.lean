import Verif.Model.Sanity
import Verif.Model.Make
/-!
# The sanity script (`main`, `src/synthpix/sanity.py` lines 207-252)
-/

namespace Verif.SanityMain
open Verif

/-- How a run ends: "Configuration file is valid", `sys.exit(1)`, or an exception of the panel, which is not caught. -/
inductive End where
  | valid
  | exit1
  | raised (e : Exc)
  deriving DecidableEq, Repr

/-- The scheduler the script tries to build (line 234). -/
def schedulerArgs (fileList : Val) : Make.BaseArgs :=
  { kind := .h5, fileList := fileList, randomize := .bool false, loop := .bool false, key := none, includeImages := none, outputShape := none }

/-- `main` (lines 207-252) for an existing file with the mapping `config`: how it ends and what is written to the file. The configuration is
loaded before the panel runs (line 226), the panel loads it again for itself. `choice` and `advance` are the user's answers. -/
def main (w : Make.World) (read : Sanity.Reader) (config : Sanity.Config) (choice advance : String) : End × Option (List (String × Val)) :=
  let panel := Sanity.panel read w.isFile config choice advance
  (match panel.result with
   | .error e => .raised e
   | .ok _ =>
     match Make.item config "file_list" with
     | .error _ => .exit1
     | .ok files =>
       match w.baseInit (schedulerArgs files) with
       | .error _ => .exit1
       | .ok () =>
         match Make.synthFromConfig w (.base (schedulerArgs files)) config with
         | .error _ => .exit1
         | .ok _ => .valid, panel.written)

end Verif.SanityMain
