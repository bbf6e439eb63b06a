import Verif.Spec.Base
/-!
# Files separated by unreadable ones
-/

namespace Verif.Base
variable {V : Type}

/-- A readable file with samples is listed twice, and between the two places there are unreadable files only, at least one. -/
def Separated (readable : String → Bool) (c : String → List (Sample V)) (fl : List String) : Prop :=
  ∃ (p : String) (before bad after : List String), fl = before ++ p :: (bad ++ p :: after) ∧ bad ≠ [] ∧ (∀ q ∈ bad, readable q = false) ∧
    readable p = true ∧ c p ≠ []

end Verif.Base
