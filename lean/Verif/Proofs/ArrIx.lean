import Verif.Model.ArrIx
import Mathlib.Data.List.Basic
import Mathlib.Tactic.Linarith
/-!
# Lemmas about array entries
-/

namespace Verif.Arr
variable {V : Type}

theorem buildData_length : ∀ (sh : List Nat) (f : List Nat → V), (buildData sh f).length = size sh
  | [], f => rfl
  | n :: sh, f => by
    simp only [buildData, List.length_flatMap, buildData_length sh]
    simp [size]

theorem build_wf (sh : List Nat) (f : List Nat → V) : (build sh f).WF := buildData_length sh f

theorem flatMap_block {α β : Type} (g : α → List β) (k : Nat) : ∀ (l : List α), (∀ x ∈ l, (g x).length = k) →
    ∀ (i j : Nat) (hi : i < l.length), j < k → (l.flatMap g)[i * k + j]? = (g l[i])[j]?
  | [], _, i, j, hi, _ => by simp at hi
  | x :: l, h, 0, j, _, hj => by
    rw [List.flatMap_cons, Nat.zero_mul, Nat.zero_add, List.getElem?_append_left (by rw [h x (by simp)]; exact hj)]
    rfl
  | x :: l, h, i + 1, j, hi, hj => by
    have hx := h x (by simp)
    have hk : (i + 1) * k + j = (g x).length + (i * k + j) := by rw [hx, Nat.succ_mul]; omega
    rw [List.flatMap_cons, hk, List.getElem?_append_right (by omega), Nat.add_sub_cancel_left,
      flatMap_block g k l (fun y hy => h y (by simp [hy])) i j (by simpa using hi) hj]
    rfl

theorem offset_lt : ∀ {sh idx : List Nat} {k : Nat}, offset sh idx = some k → k < size sh
  | [], [], k, h => by simp [offset] at h; subst h; simp [size]
  | n :: sh, i :: is, k, h => by
    simp only [offset] at h
    split at h
    · rename_i hi
      simp only [Option.map_eq_some_iff] at h
      obtain ⟨m, hm, rfl⟩ := h
      have h1 := offset_lt hm
      have h2 : (i + 1) * size sh ≤ n * size sh := Nat.mul_le_mul_right _ hi
      have h3 : size (n :: sh) = n * size sh := rfl
      rw [h3, Nat.succ_mul] at *
      omega
    · simp at h
  | [], _ :: _, k, h => by simp [offset] at h
  | _ :: _, [], k, h => by simp [offset] at h

theorem buildData_at : ∀ (sh : List Nat) (f : List Nat → V) (idx : List Nat) (k : Nat), offset sh idx = some k →
    (buildData sh f)[k]? = some (f idx)
  | [], f, [], k, h => by simp [offset] at h; subst h; rfl
  | n :: sh, f, i :: is, k, h => by
    simp only [offset] at h
    split at h
    · rename_i hi
      simp only [Option.map_eq_some_iff] at h
      obtain ⟨m, hm, rfl⟩ := h
      simp only [buildData]
      rw [flatMap_block _ (size sh) _ (fun x _ => buildData_length sh _) i m (by simpa using hi) (offset_lt hm)]
      rw [List.getElem_range, buildData_at sh _ is m hm]
    · simp at h
  | [], _, _ :: _, k, h => by simp [offset] at h
  | _ :: _, _, [], k, h => by simp [offset] at h

theorem at_build (sh : List Nat) (f : List Nat → V) (idx : List Nat) (h : (offset sh idx).isSome) :
    (build sh f).at? idx = some (f idx) := by
  obtain ⟨k, hk⟩ := Option.isSome_iff_exists.mp h
  simp [at?, build, hk, buildData_at sh f idx k hk]

theorem at_isSome {a : Arr V} (hw : a.WF) (idx : List Nat) (h : (offset a.shape idx).isSome) : (a.at? idx).isSome := by
  obtain ⟨k, hk⟩ := Option.isSome_iff_exists.mp h
  have := offset_lt hk
  unfold at?
  rw [hk]
  have hlt : k < a.data.length := by rw [show a.data.length = size a.shape from hw]; exact this
  simp [List.getElem?_eq_getElem hlt]

theorem offset2 {a b x y : Nat} (hx : x < a) (hy : y < b) : (offset [a, b] [x, y]).isSome := by
  simp [offset, hx, hy]

theorem offset3 {a b c x y z : Nat} (hx : x < a) (hy : y < b) (hz : z < c) : (offset [a, b, c] [x, y, z]).isSome := by
  simp [offset, hx, hy, hz]

theorem offset4 {a b c d x y z u : Nat} (hx : x < a) (hy : y < b) (hz : z < c) (hu : u < d) :
    (offset [a, b, c, d] [x, y, z, u]).isSome := by
  simp [offset, hx, hy, hz, hu]

end Verif.Arr
