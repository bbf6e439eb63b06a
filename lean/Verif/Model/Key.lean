/-!
# Random keys

JAX keys are opaque; the only way to obtain new ones is to derive them from existing ones with
`jax.random.split`, `jax.random.fold_in` and, at the root, `jax.random.PRNGKey`. Statements of the form
"no key is used twice" are about derivations, so they are stated in the free algebra of derivations:
two keys are equal iff they were derived in the same way. (That distinct derivations give distinct
32-bit key pairs is a property of the Threefry generator and is not modelled.)
-/

namespace Verif

/-- A key, identified with its derivation: `seed n` is `jax.random.PRNGKey(n)` (or the key handed in by the
user), `sub k n i` is row `i` of `jax.random.split(k, n)`, `fold k i` is `jax.random.fold_in(k, i)`. -/
inductive KeyTerm where
  | seed (n : Nat)
  | sub (k : KeyTerm) (n i : Nat)
  | fold (k : KeyTerm) (i : Nat)
  deriving DecidableEq, Repr

namespace KeyTerm

/-- `jax.random.split(key)`: two keys (used e.g. in `src/synthpix/scheduler/base.py` lines 110 and 148). -/
def split2 (k : KeyTerm) : KeyTerm × KeyTerm := (.sub k 2 0, .sub k 2 1)

/-- Number of derivation steps. -/
def depth : KeyTerm → Nat
  | .seed _ => 0
  | .sub k _ _ => k.depth + 1
  | .fold k _ => k.depth + 1

end KeyTerm
end Verif
