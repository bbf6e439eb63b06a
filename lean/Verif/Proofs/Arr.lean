import Verif.Model.Arr
import Mathlib.Data.List.Basic
import Mathlib.Tactic.Linarith
import Mathlib.Tactic.Ring
/-!
# Lemmas about the array model: stacking and padding, row by row
-/

namespace Verif.Arr
open Verif
variable {V : Type}

theorem flatMap_row (m : Nat) : ∀ (l : List (List V)), (∀ x ∈ l, x.length = m) → ∀ i (h : i < l.length),
    ((l.flatMap id).drop (i * m)).take m = l[i]
  | [], _, i, h => absurd h (by simp)
  | x :: l, hl, 0, _ => by
    have hx : x.length = m := hl x (by simp)
    simp [← hx]
  | x :: l, hl, i + 1, h => by
    have hx : x.length = m := hl x (by simp)
    have : (i + 1) * m = x.length + i * m := by rw [hx]; ring
    simp only [List.flatMap_cons, id, this, List.getElem_cons_succ]
    rw [← List.drop_drop, List.drop_left]
    exact flatMap_row m l (fun y hy => hl y (by simp [hy])) i (by simpa using h)

theorem length_flatMap (m : Nat) : ∀ (l : List (List V)), (∀ x ∈ l, x.length = m) → (l.flatMap id).length = l.length * m
  | [], _ => by simp
  | x :: l, hl => by
    have hx : x.length = m := hl x (by simp)
    have := length_flatMap m l (fun y hy => hl y (by simp [hy]))
    simp only [List.flatMap_cons, id, List.length_append, List.length_cons, hx] at *
    rw [this]; ring

/-- A successful `np.stack`: non-empty input of equal shapes; row `i` is the `i`-th array. -/
theorem stack_ok {as : List (Arr V)} {a : Arr V} (h : stack as = .ok a) (hwf : ∀ x ∈ as, x.WF) :
    ∃ sh, as ≠ [] ∧ a.shape = as.length :: sh ∧ (∀ x ∈ as, x.shape = sh) ∧ a.WF ∧
      ∀ i (hi : i < as.length), a.row i = as[i] := by
  cases as with
  | nil => simp [stack] at h
  | cons x rest =>
    simp only [stack] at h
    split at h
    · rename_i hall
      simp only [Except.ok.injEq] at h
      have hsh : ∀ y ∈ x :: rest, y.shape = x.shape := by
        intro y hy
        simp only [List.mem_cons] at hy
        rcases hy with rfl | hy
        · rfl
        · have := List.all_eq_true.mp hall y hy
          simpa using this
      have hlen : ∀ d ∈ (x :: rest).map Arr.data, d.length = size x.shape := by
        intro d hd
        obtain ⟨y, hy, rfl⟩ := List.mem_map.mp hd
        have := hwf y hy
        rw [WF, hsh y hy] at this
        exact this
      have hfm : (x :: rest).flatMap Arr.data = ((x :: rest).map Arr.data).flatMap id := by
        simp [List.flatMap, List.map_map]
      refine ⟨x.shape, by simp, ?_, hsh, ?_, ?_⟩
      · rw [← h]; simp
      · rw [← h, WF]
        simp only
        rw [hfm, length_flatMap _ _ hlen]
        simp [size]
      · intro i hi
        rw [← h]
        simp only [row, List.tail_cons]
        rw [hfm, flatMap_row _ _ hlen i (by simpa using hi)]
        have h1 := hsh ((x :: rest)[i]) (List.getElem_mem hi)
        simp only [List.getElem_map]
        rw [← h1]
    · simp at h

theorem stack_isOk {as : List (Arr V)} {sh : List Nat} (hne : as ≠ []) (hsh : ∀ x ∈ as, x.shape = sh) :
    ∃ a, stack as = .ok a := by
  cases as with
  | nil => exact absurd rfl hne
  | cons x rest =>
    simp only [stack]
    rw [if_pos]
    · exact ⟨_, rfl⟩
    · rw [List.all_eq_true]
      intro y hy
      simp [hsh y (by simp [hy]), hsh x (by simp)]

/-- A successful `np.pad` behind the first axis: old rows are kept, new rows are zero. -/
theorem padFirst_ok {zero : V} {p k : Nat} {a b : Arr V} {n : Nat} {sh : List Nat} (h : padFirst zero p k a = .ok b)
    (hs : a.shape = n :: sh) (hwf : a.WF) :
    b.shape = (n + k) :: sh ∧ b.WF ∧ (∀ i, i < n → b.row i = a.row i) ∧
      (∀ i, n ≤ i → i < n + k → b.row i = zeros zero sh) ∧ a.shape.length = p := by
  unfold padFirst at h
  split at h
  · rename_i hp
    rw [hs] at h
    simp only [Except.ok.injEq] at h
    have hlen : a.data.length = n * size sh := by
      have := hwf; rw [WF, hs] at this; simpa [size] using this
    refine ⟨by rw [← h], ?_, ?_, ?_, hp⟩
    · rw [← h, WF]
      simp only [List.length_append, List.length_replicate, hlen]
      simp only [size, List.foldr_cons]
      ring
    · intro i hi
      have hle : i * size sh + size sh ≤ a.data.length := by
        rw [hlen]
        calc i * size sh + size sh = (i + 1) * size sh := by ring
          _ ≤ n * size sh := Nat.mul_le_mul_right _ hi
      rw [← h]
      simp only [row, hs, List.tail_cons, mk.injEq, true_and]
      rw [List.drop_append_of_le_length (by omega), List.take_append_of_le_length (by simp; omega)]
    · intro i h1 h2
      rw [← h]
      have h3 : n * size sh ≤ i * size sh := Nat.mul_le_mul_right _ h1
      have h4 : i * size sh + size sh ≤ (n + k) * size sh := by
        calc i * size sh + size sh = (i + 1) * size sh := by ring
          _ ≤ (n + k) * size sh := Nat.mul_le_mul_right _ h2
      have h5 : (n + k) * size sh = n * size sh + k * size sh := by ring
      simp only [row, List.tail_cons, zeros, mk.injEq, true_and]
      rw [List.drop_append, List.drop_of_length_le (by omega)]
      simp only [List.nil_append, List.drop_replicate, List.take_replicate, hlen]
      congr 1
      omega
  · simp at h

theorem padFirst_isOk {zero : V} {p k : Nat} {a : Arr V} {n : Nat} {sh : List Nat} (hs : a.shape = n :: sh)
    (hp : sh.length + 1 = p) : ∃ b, padFirst zero p k a = .ok b := by
  unfold padFirst
  rw [if_pos (by rw [hs]; simpa using hp), hs]
  exact ⟨_, rfl⟩

end Verif.Arr
