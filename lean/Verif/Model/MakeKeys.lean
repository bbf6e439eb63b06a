import Verif.Model.Make
import Verif.Model.Sampler
/-!
# Which random keys the components built by `make` consume

The keys are identified with their derivation (`Verif.Model.Key`). Every call of `jax.random.split` and every draw is
listed, for `make` itself, the base scheduler, the episodic layer and the synthetic sampler. How often the files are
shuffled, episodes are selected and image batches are generated is a parameter (`Rounds`): any calls the user makes lead to
some numbers.
-/

namespace Verif.MakeKeys
open Verif Verif.Make

/-- What a key is used for: `split`, the permutation of the files, the selection of episodes, or something in the
generation of images. -/
inductive Use where
  | split
  | shuffle
  | starts
  | image (u : Sampler.Use)
  deriving DecidableEq, Repr

/-- How often the files have been shuffled, episodes selected and image batches generated. -/
structure Rounds where
  shuffles : Nat
  episodes : Nat
  batches : Nat

/-- `n` times `key, k = split(key)` followed by a draw with `k`, starting from `key` (base.py lines 109-112 and 147-150,
episodic.py lines 256-259). -/
def rounds (u : Use) : Nat → KeyTerm → List (Use × KeyTerm)
  | 0, _ => []
  | n + 1, k => (.split, k) :: (u, k.split2.2) :: rounds u n k.split2.1

/-- The schedulers: the base scheduler draws only if `randomize` is set, the prefetching layer never does. -/
def pipeUses (r : Rounds) : Pipe → List (Use × KeyTerm)
  | .base a =>
    match a.randomize with
    | .bool true => rounds .shuffle r.shuffles a.usedKey
    | _ => []
  | .episodic p _ _ k => rounds .starts r.episodes k ++ pipeUses r p
  | .prefetch p _ _ => pipeUses r p

/-- The uses of the image generator, in the common type. -/
def ofImage : Sampler.Use × KeyTerm → Use × KeyTerm
  | (.split, k) => (.split, k)
  | (u, k) => (.image u, k)

/-- `make` splits the key once for the scheduler and, if there are episodes, once more (make.py lines 159-162 and 188). -/
def makeUses (root : KeyTerm) (episodeLength : Int) : List (Use × KeyTerm) :=
  (.split, root) :: (if 0 < episodeLength then [(.split, root.split2.1)] else [])

/-- The sampler: that of real images draws nothing, the synthetic one starts from `PRNGKey(seed)` (synthetic.py line 451,
lines 490-495) with `perDevice` images on each of `devices` devices. -/
def samplerUses (w : World) (devices perDevice : Nat) (r : Rounds) : Smp → List (Use × KeyTerm)
  | .real _ _ => []
  | .synthetic _ a =>
    match w.prngKey a.seed with
    | .ok root => (Sampler.runUses devices perDevice r.batches root).map ofImage
    | .error _ => []

/-- The scheduler of a sampler. -/
def schedulerOf : Smp → Pipe
  | .real p _ => p
  | .synthetic p _ => p

/-- Everything, for the sampler `s` that `make` built from the dictionary `d`. -/
def uses (w : World) (d : Dict) (devices perDevice : Nat) (r : Rounds) (s : Smp) : List (Use × KeyTerm) :=
  (match w.prngKey (getD d "seed" (.int 0)), sizeOption d "episode_length" with
    | .ok root, .ok len => makeUses root len
    | _, _ => []) ++ (pipeUses r (schedulerOf s) ++ samplerUses w devices perDevice r s)

end Verif.MakeKeys
