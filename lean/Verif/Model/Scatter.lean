import Verif.Model.Render
/-!
# Adding the particles to the image on a parallel machine (`src/synthpix/generate.py` lines 170-178)

`Model/Render.lean` adds all updates in exact arithmetic, one after the other. JAX leaves the order of the additions of
`image.at[...].add(...)` to the device: a CPU goes through the updates one by one, a GPU adds them in whatever order its threads run,
a different one in every run. Here the additions at a pixel form any tree, each with its own rounding.
-/

namespace Verif.Render

variable {K : Type*} [Field K] [LinearOrder K] [FloorRing K]

/-- A way to add up terms: the numbers and the order and grouping of the additions, each of which has a number. -/
inductive Sum (K : Type*) where
  | term (v : K)
  | plus (k : Nat) (a b : Sum K)

/-- The terms, from left to right (line 172). -/
def Sum.terms : Sum K → List K
  | .term v => [v]
  | .plus _ a b => a.terms ++ b.terms

/-- What a machine computes that rounds the result of addition number `k` by `r k` (line 172). -/
def Sum.value (r : Nat → K → K) : Sum K → K
  | .term v => v
  | .plus k a b => r k (a.value r + b.value r)

/-- The values of the updates at pixel `(j, i)` (line 172). -/
def hits (H W : Nat) (us : List (Int × Int × K)) (j i : Nat) : List K :=
  us.filterMap (fun u => if normIndex H u.1 = some j ∧ normIndex W u.2.1 = some i then some u.2.2 else none)

/-- A value that the pixel may have after `jnp.zeros((H, W)).at[...].add(...)` (lines 171-172). -/
def MayBe (r : Nat → K → K) (H W : Nat) (us : List (Int × Int × K)) (j i : Nat) (v : K) : Prop :=
  ∃ t : Sum K, t.terms.Perm (0 :: hits H W us j i) ∧ v = t.value r

end Verif.Render
