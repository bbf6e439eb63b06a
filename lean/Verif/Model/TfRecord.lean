import Verif.Model.Scripts
import Verif.Model.ReadFlow
/-!
# The examples of a TFRecord (`process_tfrecord`, `scripts/download_piv_2.py` lines 50-96)
-/

namespace Verif.TfRecord
open Verif ReadFlow

/-- A parsed example (`parse_proto`, lines 15-32): the raw bytes of the features `target` and `flow`, empty if a feature is missing. -/
structure Example where
  target : List Byte
  flow : List Byte

/-- `np.frombuffer(bytes, dtype=np.float32)` (lines 64 and 79): `ValueError` unless the bytes are whole words; `f32` is the value of a word. -/
def frombuffer (f32 : List Byte → Rat) (bytes : List Byte) : Except Exc (List Rat) :=
  if bytes.length % 4 = 0 then .ok (words f32 (bytes.length / 4) bytes) else .error .valueError

/-- The decoding of one feature (lines 64-68 and 79-83): `none` if it is passed over, because of an exception or of its size. -/
def decode (f32 : List Byte → Rat) (side : Nat) (bytes : List Byte) : Option (Arr Rat) :=
  match frombuffer f32 bytes with
  | .error _ => none
  | .ok flat => if flat.length ≠ side * side * 2 then none else some ⟨[side, side, 2], flat⟩

/-- The body of the loop over the examples (lines 51-96); `none` is an example that cannot be parsed. The datasets of the file are in the order of their
writing. `side` is 256 in the code. -/
def record (f32 : List Byte → Rat) (side : Nat) (e : Option Example) : Scripts.Record (List (String × Arr Rat)) :=
  match e with
  | none => .skip
  | some e =>
    if e.target = [] ∨ e.flow = [] then .skip
    else
      match decode f32 side e.target with
      | none => .skip
      | some target =>
        match decode f32 side e.flow with
        | none => .skip
        | some flow => .file [("V", flow), ("I0", Formats.channel target 0), ("I1", Formats.channel target 1)]

end Verif.TfRecord
