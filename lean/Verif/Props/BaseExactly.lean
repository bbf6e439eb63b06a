import Verif.Props.Base
/-!
# Property C01, exactly: when every slice is delivered once
-/

namespace Verif.Base
open Verif
variable {V D Key : Type}

private theorem go_sublist (c : String → List (Sample V)) : ∀ (l : List String) (a : String),
    ((dropRepeats.go a l).flatMap c).length ≤ (l.flatMap c).length
  | [], a => by simp [dropRepeats.go]
  | b :: l, a => by
    have ih := go_sublist c l b
    rw [dropRepeats.go]
    split <;> simp only [List.flatMap_cons, List.length_append] <;> omega

private theorem go_iff (c : String → List (Sample V)) : ∀ (l : List String) (a : String),
    ((dropRepeats.go a l).flatMap c).length = (l.flatMap c).length ↔
      ∀ (i : Nat) (p : String), (a :: l)[i]? = some p → l[i]? = some p → c p = []
  | [], a => by simp [dropRepeats.go]
  | b :: l, a => by
    have ih := go_iff c l b
    have hle := go_sublist c l b
    rw [dropRepeats.go]
    constructor
    · intro h i p h1 h2
      by_cases hba : b = a
      · rw [if_pos hba] at h
        simp only [List.flatMap_cons, List.length_append] at h
        cases i with
        | zero =>
          simp only [List.getElem?_cons_zero, Option.some.injEq] at h2
          subst h2
          exact List.length_eq_zero_iff.mp (by omega)
        | succ i => exact ih.mp (by omega) i p (by simpa using h1) (by simpa using h2)
      · rw [if_neg hba] at h
        simp only [List.flatMap_cons, List.length_append] at h
        cases i with
        | zero =>
          simp only [List.getElem?_cons_zero, Option.some.injEq] at h1 h2
          exact absurd (h2.trans h1.symm) hba
        | succ i => exact ih.mp (by omega) i p (by simpa using h1) (by simpa using h2)
    · intro h
      have hrest := ih.mpr (fun i p h1 h2 => h (i + 1) p (by simpa using h1) (by simpa using h2))
      by_cases hba : b = a
      · rw [if_pos hba]
        have hb : c b = [] := h 0 b (by simp [hba]) (by simp)
        simp only [List.flatMap_cons, List.length_append, hb, List.length_nil]
        omega
      · rw [if_neg hba]
        simp only [List.flatMap_cons, List.length_append]
        omega

private theorem go_eq (c : String → List (Sample V)) : ∀ (l : List String) (a : String),
    (∀ (i : Nat) (p : String), (a :: l)[i]? = some p → l[i]? = some p → c p = []) →
    (dropRepeats.go a l).flatMap c = l.flatMap c
  | [], a, _ => by simp [dropRepeats.go]
  | b :: l, a, h => by
    have ih := go_eq c l b (fun i p h1 h2 => h (i + 1) p (by simpa using h1) (by simpa using h2))
    rw [dropRepeats.go]
    by_cases hba : b = a
    · rw [if_pos hba, ih, List.flatMap_cons, h 0 b (by simp [hba]) (by simp), List.nil_append]
    · rw [if_neg hba, List.flatMap_cons, List.flatMap_cons, ih]

/-- C01 (exact condition): a non-looping scheduler whose files can be read delivers every slice of every listed file once and in order,
for all sequences of requests, if and only if no file that has slices is listed (after shuffling) directly after itself. -/
theorem C01_exactly (zero : V) (w : World V D Key) (cfg : Cfg) (hloop : cfg.loop = false)
    (hp : cfg.randomize = true → PermOK w) (fl : List String) (key : Key) (c : String → List (Sample V))
    (hy : ∀ p ∈ fl, Yields w p (c p)) {fsh o1 o2 named} (hu : Uniform (fl.flatMap c) fsh o1 o2 named) :
    (∀ (ns : List Nat) (fuel : Nat), fl.length < fuel →
      ∃ outs s', runBatches zero w cfg fuel ns (init w cfg fl key) = some (outs, s') ∧
        outs.flatMap delivered = (((passOrder w cfg fl key 0).flatMap c).take ns.sum).map Sample.row) ↔
    ∀ (i : Nat) (p : String), (passOrder w cfg fl key 0)[i]? = some p → (passOrder w cfg fl key 0)[i + 1]? = some p →
      c p = [] := by
  constructor
  · intro h
    obtain ⟨outs, s', h1, h2⟩ := h [((passOrder w cfg fl key 0).flatMap c).length] (fl.length + 1) (by omega)
    obtain ⟨outs', s'', g1, g2⟩ := C01_delivered_exactly zero w cfg hloop hp fl key c hy hu
      [((passOrder w cfg fl key 0).flatMap c).length] (fl.length + 1) (by omega)
    rw [h1] at g1
    simp only [Option.some.injEq, Prod.mk.injEq] at g1
    obtain ⟨rfl, rfl⟩ := g1
    rw [g2] at h2
    have hlen := congrArg List.length h2
    simp only [List.length_map, List.length_take, List.sum_cons, List.sum_nil, Nat.add_zero, Nat.min_self] at hlen
    cases ho : passOrder w cfg fl key 0 with
    | nil => intro i p hi _; simp at hi
    | cons a l =>
      rw [ho] at hlen
      have hle := go_sublist c l a
      simp only [dropRepeats, List.flatMap_cons, List.length_append] at hlen
      intro i p hi hi'
      exact (go_iff c l a).mp (by omega) i p hi (by simpa using hi')
  · intro h ns fuel hf
    have heq : (dropRepeats (passOrder w cfg fl key 0)).flatMap c = (passOrder w cfg fl key 0).flatMap c := by
      cases ho : passOrder w cfg fl key 0 with
      | nil => rfl
      | cons a l =>
        rw [ho] at h
        simp only [dropRepeats, List.flatMap_cons]
        rw [go_eq c l a (fun i p h1 h2 => h i p h1 (by simpa using h2))]
    have := C01_delivered_exactly zero w cfg hloop hp fl key c hy hu ns fuel hf
    rwa [heq] at this

/-- Both sides occur: in the first list an empty file follows itself, in the second one with a slice does. -/
example : (∀ (i : Nat) (p : String), (["a", "e", "e", "b"] : List String)[i]? = some p → ["a", "e", "e", "b"][i + 1]? = some p →
      Demo.contents p = []) ∧ (["b", "b"] : List String)[0]? = some "b" ∧ (["b", "b"] : List String)[0 + 1]? = some "b" ∧
    Demo.contents "b" ≠ [] := by
  refine ⟨?_, rfl, rfl, by decide⟩
  intro i p h1 h2
  rcases i with _ | _ | _ | _ | i
  · simp at h1 h2; subst h1; simp at h2
  · simp at h1 h2; subst h1; rfl
  · simp at h1 h2; subst h1; simp at h2
  · simp at h2
  · simp at h1

end Verif.Base
