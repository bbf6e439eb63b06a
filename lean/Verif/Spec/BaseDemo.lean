import Verif.Spec.Base
import Verif.Model.Key
/-!
# A concrete world for the examples

Files "a" (two slices), "b" (one slice), "e" (readable, no slice), "f" (readable, every slice fails with a
`TypeError`); every other file is unreadable. Each slice is a 1x1x1 flow field.
-/

namespace Verif.Base.Demo
open Verif

/-- The sample with the single flow value `v` taken from the file `p`. -/
def sample (p : String) (v : Nat) : Sample Nat := ⟨⟨[1, 1, 1], [v]⟩, none, none, some [p]⟩

/-- The flow values in each file. -/
def contents (p : String) : List (Sample Nat) :=
  if p = "a" then [sample "a" 1, sample "a" 2] else if p = "b" then [sample "b" 3] else []

/-- The example world. Its permutation reverses. -/
def world : World Nat (List (Sample Nat)) KeyTerm where
  load p := if p = "a" ∨ p = "b" ∨ p = "e" ∨ p = "f" then .ok (contents p) else .error .fileNotFound
  slice p d i := if p = "f" then .fail .typeError else match d[i]? with | some x => .ok x | none => .ended
  split k := k.split2
  perm _ n := (List.range n).reverse

theorem world_perm : PermOK world := fun _ _ => List.reverse_perm _

theorem world_yields (p : String) (h : p ≠ "f") : Yields world p (contents p) := by
  unfold Yields
  by_cases hp : p = "a" ∨ p = "b" ∨ p = "e" ∨ p = "f"
  · have hl : world.load p = .ok (contents p) := if_pos hp
    rw [hl]
    refine ⟨fun i hi => ?_, ?_⟩
    · simp only [world, if_neg h]
      rw [List.getElem?_eq_getElem hi]
    · simp [world, if_neg h]
  · have hl : world.load p = .error .fileNotFound := if_neg hp
    rw [hl]
    simp only [not_or] at hp
    simp [contents, hp]

theorem mem_contents {p : String} {x : Sample Nat} (h : x ∈ contents p) : ∃ q v, x = sample q v := by
  unfold contents at h
  split at h
  · simp only [List.mem_cons, List.not_mem_nil, or_false] at h
    rcases h with h | h <;> exact ⟨_, _, h⟩
  · split at h
    · simp only [List.mem_cons, List.not_mem_nil, or_false] at h
      exact ⟨_, _, h⟩
    · simp at h

theorem sample_uniform {l : List (Sample Nat)} (h : ∀ x ∈ l, ∃ q v, x = sample q v) :
    Uniform l [1, 1, 1] none none true where
  flow_rank := rfl
  i1_rank := by simp
  i2_rank := by simp
  flow x hx := by obtain ⟨q, v, rfl⟩ := h x hx; exact ⟨rfl, rfl⟩
  images1 x hx := by obtain ⟨q, v, rfl⟩ := h x hx; simp [sample]
  images2 x hx := by obtain ⟨q, v, rfl⟩ := h x hx; simp [sample]
  files x hx := by obtain ⟨q, v, rfl⟩ := h x hx; simp [sample]

theorem world_uniform (fl : List String) : Uniform (fl.flatMap contents) [1, 1, 1] none none true :=
  sample_uniform (fun x hx => by
    obtain ⟨p, _, hp⟩ := List.mem_flatMap.mp hx
    exact mem_contents hp)

end Verif.Base.Demo
