import Verif.Model.Exc
import Mathlib.Data.Rat.Defs
import Mathlib.Algebra.Order.Ring.Rat
/-!
# Python values, as far as argument checks can tell them apart

Used for the checks in `src/synthpix/types.py`, `src/synthpix/make.py` and the samplers. A `float` is a rational number, an
infinity or NaN; rounding is not modelled here because checks only compare.
-/

namespace Verif

/-- A number with the values an IEEE float has in addition. -/
inductive Num where
  | fin (q : Rat)
  | inf
  | neginf
  | nan
  deriving DecidableEq, Repr

/-- `a < b` for Python numbers: false as soon as NaN is involved. -/
def Num.lt : Num → Num → Bool
  | .fin a, .fin b => decide (a < b)
  | .nan, _ => false
  | _, .nan => false
  | .neginf, .neginf => false
  | .neginf, _ => true
  | .inf, _ => false
  | _, .inf => true
  | _, .neginf => false

/-- `a <= b` for Python numbers. -/
def Num.le : Num → Num → Bool
  | .fin a, .fin b => decide (a ≤ b)
  | .nan, _ => false
  | _, .nan => false
  | .neginf, _ => true
  | _, .inf => true
  | .inf, _ => false
  | _, .neginf => false

/-- A Python value. `other` stands for values that are none of these (and cannot be compared with numbers);
`hashable` says whether it can be looked up in a dictionary. -/
inductive Val where
  | none
  | bool (b : Bool)
  | int (z : Int)
  | float (x : Num)
  | str (s : String)
  | tuple (l : List Val)
  | list (l : List Val)
  | dict (keys : List String)
  | other (hashable : Bool)
  deriving Repr

namespace Val

/-- `isinstance(v, int)` and the value: booleans are integers in Python. -/
def asInt : Val → Option Int
  | .bool b => some (if b then 1 else 0)
  | .int z => some z
  | _ => Option.none

/-- The number a value stands for in a comparison: `isinstance(v, (int, float))`. -/
def asNum : Val → Option Num
  | .bool b => some (.fin (if b then 1 else 0))
  | .int z => some (.fin z)
  | .float x => some x
  | _ => Option.none

/-- `a < v` for a number `a`. Comparing with something that is not a number raises `TypeError`. -/
def ltNum (a : Num) (v : Val) : Except Exc Bool :=
  match v.asNum with
  | some x => .ok (a.lt x)
  | Option.none => .error .typeError

/-- `a <= v` for a number `a`. -/
def leNum (a : Num) (v : Val) : Except Exc Bool :=
  match v.asNum with
  | some x => .ok (a.le x)
  | Option.none => .error .typeError

/-- `v <= a` for a number `a`. -/
def numLe (v : Val) (a : Num) : Except Exc Bool :=
  match v.asNum with
  | some x => .ok (x.le a)
  | Option.none => .error .typeError

/-- `v < a` for a number `a`. -/
def numLt (v : Val) (a : Num) : Except Exc Bool :=
  match v.asNum with
  | some x => .ok (x.lt a)
  | Option.none => .error .typeError

mutual
/-- Whether `hash(v)` succeeds: lists and dictionaries have no hash, and a tuple has one if its items have. -/
def hashable : Val → Bool
  | .list _ => false
  | .dict _ => false
  | .other b => b
  | .tuple l => allHashable l
  | _ => true
/-- The same for all items. -/
def allHashable : List Val → Bool
  | [] => true
  | v :: l => hashable v && allHashable l
end

/-- `v <= w` where `v` is known to be a number. -/
def le (v w : Val) : Except Exc Bool :=
  match v.asNum with
  | some x => leNum x w
  | Option.none => .error .typeError

end Val

/-- `a and b` for conditions that may raise: `b` is evaluated only if `a` holds. -/
def andE (a : Except Exc Bool) (b : Except Exc Bool) : Except Exc Bool :=
  match a with
  | .error e => .error e
  | .ok false => .ok false
  | .ok true => b

/-- `all(p(x) for x in l)`: stops at the first `False` or exception. -/
def allE {α : Type} (p : α → Except Exc Bool) : List α → Except Exc Bool
  | [] => .ok true
  | x :: l => andE (p x) (allE p l)

end Verif
