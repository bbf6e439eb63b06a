import Verif.Model.Sanity
/-!
# The configuration file while `update_config_file` writes it (`src/synthpix/sanity.py` lines 55-62)
-/

namespace Verif.SanityCrash
open Verif Sanity

/-- A line of the configuration file: `key: text` (line 58), `file_list:` (line 60), `  - text` (line 62), or a piece of a line that is none of these. -/
inductive Line where
  | entry (key text : String)
  | header
  | item (text : String)
  | junk
  deriving DecidableEq

/-- The lines that are written for the file (lines 57-62). -/
def lines (f : File) : List Line :=
  f.entries.map (fun e => .entry e.1 e.2) ++
    (match f.fileList with
     | some items => .header :: items.map .item
     | none => [])

/-- What of a line may be in the file if the program stops while it is written. Pieces of `  - ` count as nothing. -/
inductive Torn : Line → Line → Prop
  | key (k t : String) : Torn (.entry k t) .junk
  | value (k t t' : String) : t'.toList <+: t.toList → Torn (.entry k t) (.entry k t')
  | header : Torn .header .junk
  | item (t t' : String) : t'.toList <+: t.toList → Torn (.item t) (.item t')

/-- What the file may contain if the program stops at any point of `update_config_file`: the former lines before `open(config_path, "w")` (line 56), which empties the
file, then the lines written up to there, the last one perhaps in part. -/
inductive Crash (old : List Line) (f : File) : List Line → Prop
  | before : Crash old f old
  | lines (n : Nat) : Crash old f ((lines f).take n)
  | torn (n : Nat) (l t : Line) : (SanityCrash.lines f)[n]? = some l → Torn l t → Crash old f ((SanityCrash.lines f).take n ++ [t])

/-- The entries among the lines. -/
def entriesOf (ls : List Line) : List (String × String) :=
  ls.filterMap (fun l => match l with | .entry k t => some (k, t) | _ => none)

/-- The items among the lines. -/
def itemsOf (ls : List Line) : List String :=
  ls.filterMap (fun l => match l with | .item t => some t | _ => none)

/-- `load_configuration` (`src/synthpix/utils.py` line 14, of goggles) on the lines; `none` if they are not a YAML mapping. A header without items gives `None`. -/
def readLines (parse : String → Val) (ls : List Line) : Option Config :=
  if .junk ∈ ls then none
  else some ((entriesOf ls).map (fun e => (e.1, parse e.2)) ++
    (if .header ∈ ls then [("file_list", if itemsOf ls = [] then .none else .list ((itemsOf ls).map parse))] else []))

end Verif.SanityCrash
