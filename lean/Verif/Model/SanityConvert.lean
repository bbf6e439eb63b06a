import Verif.Model.Sanity
import Verif.Model.ArrIx
/-!
# The conversion of NumPy and JAX values in `update_config_file` (`src/synthpix/sanity.py` lines 34-50)
-/

namespace Verif.SanityConvert
open Verif Sanity

/-- A value without parts: a standard Python value, or a NumPy scalar. -/
inductive Scal where
  | std (v : Val)
  | npFloat (x : Num)
  | npInt (z : Int)
  | npBool (b : Bool)

/-- A value of a configuration or of the updates: one without parts (standard lists are standard values), a NumPy or JAX array, given by its
entries as standard values, or a Python list with NumPy scalars among its items. Simplification: no lists with such lists in them, and no
scalars of other libraries (`bfloat16`). -/
inductive Obj where
  | scal (s : Scal)
  | array (a : Arr Val)
  | seq (l : List Scal)

/-- `array.tolist()` (line 41): the entry of an array without axes, else the list of what the rows give. -/
def tolist : List Nat → List Val → Val
  | [], d => d.headD .none
  | n :: s, d => .list ((List.range n).map (fun i => tolist s ((d.drop (i * Arr.size s)).take (Arr.size s))))

/-- `convert_to_standard_type` (lines 35-42). -/
def convert : Obj → Obj
  | .scal (.npFloat x) => .scal (.std (.float x))
  | .scal (.npInt z) => .scal (.std (.int z))
  | .array a => .scal (.std (tolist a.shape a.data))
  | o => o

/-- A configuration of such values. -/
abbrev ObjConfig := List (String × Obj)

/-- `config.get(key)`. -/
def getObj (c : ObjConfig) (key : String) : Option Obj := (c.find? (fun e => e.1 == key)).map Prod.snd

/-- `config[key] = value`: in place if there is the key, else at the end. -/
def setObj (c : ObjConfig) (key : String) (o : Obj) : ObjConfig :=
  if c.any (fun e => e.1 == key) then c.map (fun e => if e.1 == key then (key, o) else e) else c ++ [(key, o)]

/-- What is written for `file_list` (lines 59-62): only a list that is not empty. -/
def listBlock (text : Obj → String) : Option Obj → Option (List String)
  | some (.scal (.std (.list (a :: l)))) => some ((a :: l).map (fun v => text (.scal (.std v))))
  | some (.seq (a :: l)) => some ((a :: l).map (fun s => text (.scal s)))
  | _ => none

/-- `update_config_file` (lines 28-62) for a loaded configuration, with the conversion; `text` is `str`. -/
def updateObj (text : Obj → String) (config updates : ObjConfig) : File :=
  let config := config.map (fun e => (e.1, convert e.2))
  let config := updates.foldl (fun c e => setObj c e.1 (convert e.2)) config
  let fileList := getObj config "file_list"
  let config := config.filter (fun e => e.1 != "file_list")
  { entries := config.map (fun e => (e.1, text e.2)), fileList := listBlock text fileList }

end Verif.SanityConvert
