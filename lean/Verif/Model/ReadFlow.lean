import Verif.Model.Formats
/-!
# Reading of flow files (`read_flow`, `scripts/download_piv_1.py` lines 137-170)
-/

namespace Verif.ReadFlow
open Verif

/-- A byte. -/
abbrev Byte := Fin 256

/-- `struct.unpack("i", b)[0]` on a little-endian machine (lines 149-150): a signed number of four bytes; `struct.error` for another
number of bytes. -/
def unpack : List Byte → Except Exc Int
  | [a, b, c, d] =>
    let n := a.val + 256 * b.val + 65536 * c.val + 16777216 * d.val
    .ok (if n < 2147483648 then (n : Int) else (n : Int) - 4294967296)
  | _ => .error (.other 1)

/-- `np.fromfile(f, np.float32, count=n)` (line 151): at most `n` complete words of four bytes, `f32` being the value of a word. -/
def words (f32 : List Byte → Rat) : Nat → List Byte → List Rat
  | 0, _ => []
  | n + 1, a :: b :: c :: d :: l => f32 [a, b, c, d] :: words f32 n l
  | _, _ => []

/-- The four bytes "PIEH". -/
def magic : List Byte := [80, 73, 69, 72]

/-- `np.reshape(data, (height, width, 2))` (line 152): one side may be negative, whatever the number, and is then inferred. -/
def reshape (data : List Rat) (height width : Int) : Except Exc (Arr Rat) :=
  if height < 0 ∧ width < 0 then .error .valueError
  else if height < 0 then
    if width = 0 ∨ data.length % (width.toNat * 2) ≠ 0 then .error .valueError
    else .ok ⟨[data.length / (width.toNat * 2), width.toNat, 2], data⟩
  else if width < 0 then
    if height = 0 ∨ data.length % (height.toNat * 2) ≠ 0 then .error .valueError
    else .ok ⟨[height.toNat, data.length / (height.toNat * 2), 2], data⟩
  else if data.length = height.toNat * width.toNat * 2 then .ok ⟨[height.toNat, width.toNat, 2], data⟩ else .error .valueError

/-- The `.flo` part of `read_flow` (lines 144-153). `np.fromfile` with a negative count reads all complete words. -/
def readFlo (f32 : List Byte → Rat) (bytes : List Byte) : Except Exc (Arr Rat) :=
  if bytes.take 4 ≠ magic then .error (.other 0)
  else
    match unpack ((bytes.drop 4).take 4) with
    | .error e => .error e
    | .ok width =>
      match unpack ((bytes.drop 8).take 4) with
      | .error e => .error e
      | .ok height =>
        let data := if 2 * width * height < 0 then words f32 ((bytes.drop 12).length / 4) (bytes.drop 12)
          else words f32 (2 * width * height).toNat (bytes.drop 12)
        reshape data height width

/-- The loop over the known variables of a `.mat` file (lines 160-167): `np.transpose` cannot fail for three axes. `mat` are the variables of
the file, each name once. -/
def readVars (mat : List (String × Arr Rat)) : List String → Except Exc (Arr Rat)
  | [] => .error .valueError
  | k :: ks =>
    match mat.lookup k with
    | none => readVars mat ks
    | some arr =>
      if arr.shape.length = 3 ∧ arr.shape[2]? = some 2 then .ok arr
      else if arr.shape.length = 3 ∧ arr.shape[0]? = some 2 then Formats.transpose120 arr
      else readVars mat ks

/-- The `.mat` part of `read_flow` (lines 154-166). -/
def readMat (mat : List (String × Arr Rat)) : Except Exc (Arr Rat) := readVars mat ["V", "flow", "u", "uv", "F"]

end Verif.ReadFlow
