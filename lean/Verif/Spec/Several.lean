import Verif.Model.Sampler
/-!
# What it means that samplers divide the data of a scheduler
-/

namespace Verif.Several
open Verif Verif.Sampler

/-- The entries of sampler `i`. -/
def ofSampler {A : Type} (i : Nat) (l : List (Nat × A)) : List A := (l.filter (fun q => q.1 = i)).map Prod.snd

/-- Asked one after the other for `n` flow fields, `n'` flow fields, ..., the scheduler gives these answers. -/
def Answers {S B : Type} (sch : ISched S B) : S → List (Nat × Except Exc B) → S → Prop
  | s, [], s' => s' = s
  | s, (n, r) :: l, s' => ∃ m, sch.getBatch n s = some (r, m) ∧ Answers sch m l s'

/-- A scheduler that gives prepared answers, each once, and has nothing else. -/
def prepared (B : Type) : ISched (List (Except Exc B)) B where
  getBatch _ l := match l with
    | [] => none
    | r :: l => some (r, l)
  reset l := .ok l
  episodic := none

end Verif.Several
