import Verif.Model.Base
/-!
# Specification vocabulary for the base scheduler

Only the abstract loader and plain list functions occur here; none of the model's step functions.
-/

namespace Verif.Base
open Verif
variable {V D Key : Type}

/-- `Yields w p l`: the file `p` contributes exactly the samples `l`. An unreadable file contributes
nothing; a readable one delivers `l[0], l[1], ...` as its slices number 0, 1, ... and then reports that
it has ended. -/
def Yields (w : World V D Key) (p : String) (l : List (Sample V)) : Prop :=
  match w.load p with
  | .error _ => l = []
  | .ok d => (∀ i (h : i < l.length), w.slice p d i = .ok l[i]) ∧ w.slice p d l.length = .ended

/-- All samples of a data set have the same layout, as `np.stack` and `np.pad` need: flow fields of one
shape with three axes, images (if any) of one shape with two axes, and file names either absent
everywhere or present everywhere (at most one per sample). -/
structure Uniform (l : List (Sample V)) (fshape : List Nat) (i1 i2 : Option (List Nat)) (named : Bool) : Prop where
  flow_rank : fshape.length = 3
  i1_rank : ∀ sh, i1 = some sh → sh.length = 2
  i2_rank : ∀ sh, i2 = some sh → sh.length = 2
  flow : ∀ x ∈ l, x.flow.shape = fshape ∧ x.flow.WF
  images1 : ∀ x ∈ l, x.images1.map Arr.shape = i1 ∧ ∀ a, x.images1 = some a → a.WF
  images2 : ∀ x ∈ l, x.images2.map Arr.shape = i2 ∧ ∀ a, x.images2 = some a → a.WF
  files : ∀ x ∈ l, if named then ∃ f, x.files = some f ∧ f.length ≤ 1 else x.files = none

/-- The list without those entries that equal their immediate predecessor. -/
def dropRepeats (l : List String) : List String :=
  match l with
  | [] => []
  | a :: l => a :: go a l
where
  /-- `go a l`: the rest of the list when the previous entry was `a`. -/
  go (a : String) : List String → List String
    | [] => []
    | b :: l => if b = a then go b l else b :: go b l

/-- What one row of a batch shows to the user: its flag, flow field, images and file name. -/
structure Row (V : Type) where
  flag : Bool
  flow : Arr V
  image1 : Option (Arr V)
  image2 : Option (Arr V)
  file : Option String

/-- The `i`-th row of a batch. -/
def Batch.row (b : Batch V) (i : Nat) : Row V :=
  { flag := b.mask.getD i false, flow := b.flow.row i, image1 := b.images1.map (·.row i),
    image2 := b.images2.map (·.row i), file := b.files.map (·.getD i "") }

/-- The row a sample should give rise to: flagged, with the sample's own arrays and file name. -/
def Sample.row (x : Sample V) : Row V :=
  { flag := true, flow := x.flow, image1 := x.images1, image2 := x.images2, file := x.files.map (·.headD "") }

/-- The rows of a call's outcome that are flagged as real, in order; an exception delivers nothing. -/
def delivered : Except Exc (Batch V) → List (Row V)
  | .ok b => ((List.range b.mask.length).map b.row).filter Row.flag
  | .error _ => []

/-- The observable history of a non-looping scheduler that has the samples `l` left, when batches of the
given sizes are requested: each call takes as many of the remaining samples as it can get. -/
def takeBatches (l : List (Sample V)) : List Nat → List (List (Sample V))
  | [] => []
  | n :: ns => l.take n :: takeBatches (l.drop n) ns

end Verif.Base

namespace Verif.Base
variable {V D Key : Type}

/-- The contract of `jax.random.permutation`: for every key and every length a permutation of the indices. -/
def PermOK (w : World V D Key) : Prop := ∀ k n, (w.perm k n).Perm (List.range n)

/-- The key in force after the first `k` shuffles: the first half of a split, `k` times. -/
def epochKey (w : World V D Key) (key : Key) : Nat → Key
  | 0 => key
  | k + 1 => (w.split (epochKey w key k)).1

/-- The file order after the first `k` shuffles of a list: each shuffle permutes the order in force with the
second half of the split of the key in force. -/
def epochOrder (w : World V D Key) (key : Key) (fl : List String) : Nat → List String
  | 0 => fl
  | k + 1 =>
    (w.perm (w.split (epochKey w key k)).2 (epochOrder w key fl k).length).map
      (fun i => (epochOrder w key fl k).getD i "")

end Verif.Base

namespace Verif.Base
open Verif
variable {V D Key : Type}

/-- Every array of the sample is well formed. -/
def Sample.WF (x : Sample V) : Prop :=
  x.flow.WF ∧ (∀ a, x.images1 = some a → a.WF) ∧ (∀ a, x.images2 = some a → a.WF)

/-- `Shows zero l n b`: the batch `b` of nominal size `n` shows exactly the samples `l`: rows `0 .. l.length - 1`
are the samples in order and flagged, the remaining rows are unflagged, all zero and nameless. Images are
`None` only if some sample has none, file names only if no sample has one. -/
structure Shows (zero : V) (l : List (Sample V)) (n : Nat) (b : Batch V) : Prop where
  mask : b.mask = List.replicate l.length true ++ List.replicate (n - l.length) false
  flow_shape : ∀ x ∈ l, b.flow.shape = n :: x.flow.shape
  flow_rows : ∀ i (hi : i < l.length), b.flow.row i = l[i].flow
  flow_pad : ∀ i, l.length ≤ i → i < n → ∀ x ∈ l, b.flow.row i = Arr.zeros zero x.flow.shape
  im1 : (b.images1 = none ∧ ∃ x ∈ l, x.images1 = none) ∨ ∃ a sh, b.images1 = some a ∧ a.shape = n :: sh ∧
    (∀ i (hi : i < l.length), l[i].images1 = some (a.row i)) ∧ (∀ x ∈ l, ∀ y, x.images1 = some y → y.shape = sh) ∧
    ∀ i, l.length ≤ i → i < n → a.row i = Arr.zeros zero sh
  im2 : (b.images2 = none ∧ ∃ x ∈ l, x.images2 = none) ∨ ∃ a sh, b.images2 = some a ∧ a.shape = n :: sh ∧
    (∀ i (hi : i < l.length), l[i].images2 = some (a.row i)) ∧ (∀ x ∈ l, ∀ y, x.images2 = some y → y.shape = sh) ∧
    ∀ i, l.length ≤ i → i < n → a.row i = Arr.zeros zero sh
  files : (b.files = none ∧ ∀ x ∈ l, x.files = none) ∨ ∃ fs, b.files = some fs ∧ fs.length = n ∧
    (∀ i (hi : i < l.length), l[i].files.map (·.headD "") = some (fs.getD i "")) ∧
    ∀ i, l.length ≤ i → i < n → fs.getD i "" = ""


/-- `Draws w cfg fuel s xs s'`: successive calls of `_get_next`, starting in `s`, deliver `xs` and end in `s'`. -/
inductive Draws (w : World V D Key) (cfg : Cfg) (fuel : Nat) : St D Key → List (Sample V) → St D Key → Prop
  | nil (s) : Draws w cfg fuel s [] s
  | cons {s s' s'' x xs} (h : getNext w cfg fuel s = some (.ret x, s')) (t : Draws w cfg fuel s' xs s'') :
      Draws w cfg fuel s (x :: xs) s''

/-- The loader only produces well-formed arrays (true of every NumPy array). -/
def WorldWF (w : World V D Key) : Prop := ∀ p d i x, w.slice p d i = .ok x → x.WF

/-- The operations a user can perform on a scheduler. -/
inductive Op where
  | getBatch (n : Nat)
  | reset

/-- A history of operations; outcomes are dropped, `none` if some call does not return within `fuel` passes. -/
def runOps (zero : V) (w : World V D Key) (cfg : Cfg) (fuel : Nat) : List Op → St D Key → Option (St D Key)
  | [], s => some s
  | .reset :: ops, s => runOps zero w cfg fuel ops (Base.reset w cfg s)
  | .getBatch n :: ops, s =>
    match Base.getBatch zero w cfg fuel n s with
    | none => none
    | some (_, s') => runOps zero w cfg fuel ops s'

end Verif.Base
