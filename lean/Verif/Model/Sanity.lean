import Verif.Model.PyVal
/-!
# Checking configuration files (`src/synthpix/sanity.py`)

Configurations are association lists in the order of the Python dictionary.
-/

namespace Verif.Sanity
open Verif

/-- An entry of an HDF5 file: a group, or a dataset with its shape and, for every index except the last one in row-major order, the vector
along the last axis. -/
inductive Content where
  | group
  | data (shape : List Nat) (points : List (List Num))
  deriving DecidableEq

/-- `h5py.File(file, "r")` (line 85): the entries in the order of the keys, or an exception. -/
abbrev Reader := String → Except Exc (List Content)

/-- Python's `max(a, b)`: the second only if it is greater. -/
def pyMax (a b : Num) : Num := if a.lt b then b else a

/-- Python's `min(a, b)`. -/
def pyMin (a b : Num) : Num := if b.lt a then b else a

/-- `np.max`: NaN if there is one, `ValueError` for nothing. -/
def npMax : List Num → Except Exc Num
  | [] => .error .valueError
  | a :: l => .ok (if (a :: l).any (fun x => decide (x = .nan)) then .nan else l.foldl pyMax a)

/-- `np.min`. -/
def npMin : List Num → Except Exc Num
  | [] => .error .valueError
  | a :: l => .ok (if (a :: l).any (fun x => decide (x = .nan)) then .nan else l.foldl pyMin a)

/-- The dictionary returned by `calculate_min_and_max_speeds`. -/
structure Speeds where
  minX : Num
  maxX : Num
  minY : Num
  maxY : Num
  deriving DecidableEq

/-- `data[..., c]` (lines 102-103, 106-107). -/
def component (c : Nat) (shape : List Nat) (points : List (List Num)) : Except Exc (List Num) :=
  if c < shape.getLastD 0 then .ok (points.map (fun p => p.getD c .nan)) else .error .indexError

/-- `x_data` and `y_data` of a file (lines 85-109). -/
def components (read : Reader) (file : String) : Except Exc (List Num × List Num) :=
  match read file with
  | .error e => .error e
  | .ok [] => .error .indexError
  | .ok (.group :: _) => .error .valueError
  | .ok (.data shape points :: _) =>
    if shape.length = 4 ∨ (shape.length = 3 ∧ shape.getLast? = some 2) then
      match component 0 shape points, component 1 shape points with
      | .ok xs, .ok ys => .ok (xs, ys)
      | .error e, _ => .error e
      | _, .error e => .error e
    else .error .valueError

/-- One round of the loop (lines 84-115). -/
def speedStep (read : Reader) (s : Speeds) (file : String) : Except Exc Speeds :=
  match components read file with
  | .error e => .error e
  | .ok (xs, ys) =>
    match npMax xs, npMax ys, npMin xs, npMin ys with
    | .ok ax, .ok ay, .ok ix, .ok iy =>
      .ok { minX := pyMin s.minX ix, maxX := pyMax s.maxX ax, minY := pyMin s.minY iy, maxY := pyMax s.maxY ay }
    | _, _, _, _ => .error .valueError

/-- The loop over the files. -/
def speedLoop (read : Reader) : Speeds → List String → Except Exc Speeds
  | s, [] => .ok s
  | s, f :: fs =>
    match speedStep read s f with
    | .error e => .error e
    | .ok s' => speedLoop read s' fs

/-- `calculate_min_and_max_speeds(file_list)` (lines 65-122). -/
def speeds (read : Reader) (files : List String) : Except Exc Speeds :=
  speedLoop read { minX := .inf, maxX := .neginf, minY := .inf, maxY := .neginf } files

/-- A configuration. -/
abbrev Config := List (String × Val)

/-- `config.get(key)`. -/
def get (c : Config) (key : String) : Option Val := (c.find? (fun e => e.1 == key)).map Prod.snd

/-- `config[key] = value`: in place if there is the key, else at the end. -/
def set (c : Config) (key : String) (v : Val) : Config :=
  if c.any (fun e => e.1 == key) then c.map (fun e => if e.1 == key then (key, v) else e) else c ++ [(key, v)]

/-- The configuration file as `update_config_file` writes it (lines 56-62): lines `key: text`, and the items of `file_list` if that block is
written. -/
structure File where
  entries : List (String × String)
  fileList : Option (List String)

/-- What is written for `file_list` (lines 59-62): only a list that is not empty. -/
def fileListBlock (text : Val → String) : Option Val → Option (List String)
  | some (.list (a :: l)) => some ((a :: l).map text)
  | _ => none

/-- `update_config_file` (lines 21-62) for a loaded configuration; `text` is `str`. Simplification: the conversion of numpy scalars and arrays
to standard Python types (lines 34-47) is not modelled, all values are standard ones. -/
def update (text : Val → String) (config : Config) (updates : List (String × Val)) : File :=
  let config := updates.foldl (fun c e => set c e.1 e.2) config
  let fileList := get config "file_list"
  let config := config.filter (fun e => e.1 != "file_list")
  { entries := config.map (fun e => (e.1, text e.2)), fileList := fileListBlock text fileList }

/-- `load_configuration` on such a file; `parse` is the interpretation of the text of a value. -/
def load (parse : String → Val) (f : File) : Config :=
  f.entries.map (fun e => (e.1, parse e.2)) ++
    (match f.fileList with
     | some items => [("file_list", .list (items.map parse))]
     | none => [])

/-- The speeds in the order of the panel's result (lines 178-183, 199-204): max x, max y, min x, min y. -/
def speedKeys : List String := ["max_speed_x", "max_speed_y", "min_speed_x", "min_speed_y"]

/-- The checks of the file list (lines 137-149). `isFile` is `os.path.isfile`. -/
def filesCheck (isFile : String → Bool) : List Val → Except Exc (List String)
  | [] => .ok []
  | .str s :: l =>
    if ! isFile s then .error .valueError
    else if ! s.endsWith ".h5" then .error .valueError
    else match filesCheck isFile l with
      | .ok r => .ok (s :: r)
      | .error e => .error e
  | _ :: _ => .error .valueError

/-- What the panel does: its result and the updates written to the configuration file, if any. -/
structure Panel where
  result : Except Exc (List Val)
  written : Option (List (String × Val))

/-- `missing_speeds_panel(config_path)` (lines 125-204) for a loaded configuration; `choice` and `advance` are the user's answers. -/
def panel (read : Reader) (isFile : String → Bool) (config : Config) (choice advance : String) : Panel :=
  match get config "file_list" with
  | some (.list (a :: l)) =>
    match filesCheck isFile (a :: l) with
    | .error e => { result := .error e, written := none }
    | .ok files =>
      let values := speedKeys.map (fun k => (get config k).getD .none)
      if values.all (fun v => v.asNum.isSome) then { result := .ok values, written := none }
      else if choice = "1" then
        match speeds read files with
        | .error e => { result := .error e, written := none }
        | .ok s =>
          let written := [("min_speed_x", Val.float s.minX), ("max_speed_x", Val.float s.maxX), ("min_speed_y", Val.float s.minY), ("max_speed_y", Val.float s.maxY)]
          if advance = "y" ∨ advance = "Y" then
            { result := .ok [.float s.maxX, .float s.maxY, .float s.minX, .float s.minY], written := some written }
          else { result := .error .runtimeError, written := some written }
      else { result := .error .runtimeError, written := none }
  | _ => { result := .error .valueError, written := none }

end Verif.Sanity
