import Verif.Model.Formats
import Verif.Spec.Base
import Verif.Proofs.ArrIx
import Mathlib.Tactic.Ring
import Mathlib.Data.List.TakeWhile
/-!
# Lemmas about the file formats
-/

namespace Verif.Formats
open Verif Base
variable {V Key : Type}

theorem h5_block_len {X Y k x i : Nat} {d : List V} (hd : d.length = X * (Y * k)) (hx : x < X) (hi : i < Y) :
    ((d.drop ((x * Y + i) * k)).take k).length = k := by
  have h1 : (x * Y + i) * k + k ≤ d.length := by
    rw [hd]
    have : x * Y + i + 1 ≤ X * Y := by
      have := Nat.mul_le_mul_right Y hx
      rw [Nat.succ_mul] at this
      omega
    calc (x * Y + i) * k + k = (x * Y + i + 1) * k := by ring
      _ ≤ (X * Y) * k := Nat.mul_le_mul_right _ this
      _ = X * (Y * k) := by ring
  simp only [List.length_take, List.length_drop]
  omega

theorem h5Slice_spec {vol : Arr V} {X Y Z C y : Nat} (hs : vol.shape = [X, Y, Z, C]) (hw : vol.WF) (hy : y < Y) :
    ∃ f, h5Slice vol y = .ok f ∧ f.shape = [X, Z, C] ∧ f.WF ∧
      ∀ x z c, x < X → z < Z → c < C → f.at? [x, z, c] = vol.at? [x, y, z, c] := by
  have hd : vol.data.length = X * (Y * (Z * C)) := by
    have := hw; unfold Arr.WF at this; rw [this, hs]; simp [Arr.size]
  have hk : Arr.size [Z, C] = Z * C := by simp [Arr.size]
  have hblock : ∀ x ∈ List.range X, ((vol.data.drop ((x * Y + y) * (Z * C))).take (Z * C)).length = Z * C := by
    intro x hx
    exact h5_block_len hd (List.mem_range.mp hx) hy
  refine ⟨⟨[X, Z, C], (List.range X).flatMap (fun x => (vol.data.drop ((x * Y + y) * (Z * C))).take (Z * C))⟩, ?_, rfl, ?_, ?_⟩
  · simp [h5Slice, hs, hk]
  · show List.length _ = _
    rw [List.length_flatMap]
    have : (List.range X).map (fun x => ((vol.data.drop ((x * Y + y) * (Z * C))).take (Z * C)).length) =
        (List.range X).map (fun _ => Z * C) := List.map_congr_left hblock
    rw [this]
    simp [Arr.size]
  · intro x z c hx hz hc
    have hm : z * C + c < Z * C := by
      have := Nat.mul_le_mul_right C hz
      rw [Nat.succ_mul] at this
      omega
    have o1 : Arr.offset [X, Z, C] [x, z, c] = some (x * (Z * C) + (z * C + c)) := by
      simp [Arr.offset, hx, hz, hc, Arr.size]
    have o2 : Arr.offset [X, Y, Z, C] [x, y, z, c] = some ((x * Y + y) * (Z * C) + (z * C + c)) := by
      simp only [Arr.offset, hx, hy, hz, hc, Arr.size, if_true, Option.map_some, List.foldr]
      congr 1
      ring
    simp only [Arr.at?, hs, o1, o2, Option.bind_some]
    rw [Arr.flatMap_block _ (Z * C) _ hblock x _ (by simpa using hx) hm, List.getElem_range]
    rw [List.getElem?_take_of_lt hm, List.getElem?_drop]

/-! ### MAT -/

theorem transpose120_spec {a : Arr Rat} {A B C : Nat} (hs : a.shape = [A, B, C]) (hw : a.WF) :
    ∃ t, transpose120 a = .ok t ∧ t.shape = [B, C, A] ∧ t.WF ∧
      ∀ i b c, i < A → b < B → c < C → t.at? [b, c, i] = a.at? [i, b, c] := by
  refine ⟨_, by simp [transpose120, hs]; rfl, rfl, Arr.build_wf _ _, ?_⟩
  intro i b c hi hb hc
  rw [Arr.at_build _ _ _ (Arr.offset3 hb hc hi)]
  have o : Arr.offset [A, B, C] [i, b, c] = some ((i * B + b) * C + c) := by
    simp only [Arr.offset, hi, hb, hc, Arr.size, if_true, Option.map_some, List.foldr]
    congr 1
    ring
  have hlt : (i * B + b) * C + c < a.data.length := by
    have := Arr.offset_lt o
    have hw' : a.data.length = Arr.size a.shape := hw
    rw [hw', hs]; exact this
  simp [Arr.at?, hs, o, List.getD_eq_getElem?_getD, List.getElem?_eq_getElem hlt]

theorem channel_spec {a : Arr Rat} {A B C c : Nat} (hs : a.shape = [A, B, C]) (hw : a.WF) (hc : c < C) :
    (channel a c).shape = [A, B] ∧ (channel a c).WF ∧
      ∀ y x, y < A → x < B → (channel a c).at? [y, x] = a.at? [y, x, c] := by
  have he : channel a c = Arr.build [A, B] (fun idx =>
      match idx with
      | [y, x] => a.data.getD ((y * B + x) * C + c) 0
      | _ => 0) := by simp [channel, hs]; rfl
  rw [he]
  refine ⟨rfl, Arr.build_wf _ _, ?_⟩
  intro y x hy hx
  rw [Arr.at_build _ _ _ (Arr.offset2 hy hx)]
  have o : Arr.offset [A, B, C] [y, x, c] = some ((y * B + x) * C + c) := by
    simp only [Arr.offset, hy, hx, hc, Arr.size, if_true, Option.map_some, List.foldr]
    congr 1
    ring
  have hlt : (y * B + x) * C + c < a.data.length := by
    have := Arr.offset_lt o
    have hw' : a.data.length = Arr.size a.shape := hw
    rw [hw', hs]; exact this
  simp [Arr.at?, hs, o, List.getD_eq_getElem?_getD, List.getElem?_eq_getElem hlt]

theorem stackScaled_spec {u v : Arr Rat} {H W : Nat} (rx ry : Rat) (hu : u.shape = [H, W]) (hv : v.shape = [H, W])
    (wu : u.WF) (wv : v.WF) :
    ∃ t, stackScaled u v rx ry = .ok t ∧ t.shape = [H, W, 2] ∧ t.WF ∧
      ∀ y x, y < H → x < W → t.at? [y, x, 0] = (u.at? [y, x]).map (· * rx) ∧ t.at? [y, x, 1] = (v.at? [y, x]).map (· * ry) := by
  have lu : u.data.length = H * W := by
    have : u.data.length = Arr.size u.shape := wu
    rw [this, hu]; simp [Arr.size]
  have lv : v.data.length = H * W := by
    have : v.data.length = Arr.size v.shape := wv
    rw [this, hv]; simp [Arr.size]
  refine ⟨⟨[H, W, 2], (u.data.zip v.data).flatMap (fun q => [q.1 * rx, q.2 * ry])⟩, by simp [stackScaled, hu, hv], rfl, ?_, ?_⟩
  · show List.length _ = _
    rw [List.length_flatMap]
    simp [lu, lv, Arr.size]
    ring
  · intro y x hy hx
    have hm : y * W + x < H * W := by
      have := Nat.mul_le_mul_right W hy
      rw [Nat.succ_mul] at this
      omega
    have o2 : Arr.offset [H, W] [y, x] = some (y * W + x) := by simp [Arr.offset, hy, hx, Arr.size]
    have o3 : ∀ c, c < 2 → Arr.offset [H, W, 2] [y, x, c] = some ((y * W + x) * 2 + c) := by
      intro c hc
      simp only [Arr.offset, hy, hx, hc, Arr.size, if_true, Option.map_some, List.foldr]
      congr 1
      ring
    have hz : y * W + x < (u.data.zip v.data).length := by simp [lu, lv, hm]
    have hzu : y * W + x < u.data.length := by omega
    have hzv : y * W + x < v.data.length := by omega
    constructor
    · simp only [Arr.at?, hu, o2, o3 0 (by omega), Option.bind_some]
      rw [Arr.flatMap_block _ 2 _ (by simp) (y * W + x) 0 hz (by omega)]
      simp [List.getElem?_eq_getElem hzu]
    · simp only [Arr.at?, hv, o2, o3 1 (by omega), Option.bind_some]
      rw [Arr.flatMap_block _ 2 _ (by simp) (y * W + x) 1 hz (by omega)]
      simp [List.getElem?_eq_getElem hzv]

/-! ### NumPy file names -/

theorem splitLast_append (p : List Char) : (splitLast p).1 ++ (splitLast p).2 = p := by
  induction p with
  | nil => rfl
  | cons c l ih =>
    simp only [splitLast]
    split
    · rename_i h
      rw [h.1] at ih
      simpa using ih
    · simpa using ih

theorem splitLast_noslash {l : List Char} (h : '/' ∉ l) : splitLast l = ([], l) := by
  induction l with
  | nil => rfl
  | cons c l ih =>
    simp only [List.mem_cons, not_or] at h
    have hc : c ≠ '/' := fun e => h.1 e.symm
    simp [splitLast, ih h.2, hc]

theorem splitLast_slash (d : List Char) {l : List Char} (h : '/' ∉ l) : splitLast (d ++ '/' :: l) = (d ++ ['/'], l) := by
  induction d with
  | nil => simp [splitLast, splitLast_noslash h]
  | cons c d ih => simp [splitLast, ih]

theorem dirname_plain {d l : List Char} (h : '/' ∉ l) (hd : d ≠ []) (hlast : d.getLast? ≠ some '/') :
    dirname (d ++ '/' :: l) = d ∧ basename (d ++ '/' :: l) = l := by
  unfold dirname basename
  rw [splitLast_slash d h]
  refine ⟨?_, rfl⟩
  have hne : ¬ ((d ++ ['/']).all (fun c => decide (c = '/')) = true) := by
    intro hall
    rw [List.getLast?_eq_some_getLast hd] at hlast
    rw [List.all_append, Bool.and_eq_true, List.all_eq_true] at hall
    have := hall.1 (d.getLast hd) (List.getLast_mem hd)
    simp only [decide_eq_true_eq] at this
    rw [this] at hlast
    exact hlast rfl
  rw [if_neg hne]
  unfold rstripSlash
  rw [List.reverse_append]
  have hr : (d.reverse).dropWhile (fun c => decide (c = '/')) = d.reverse := by
    rw [List.dropWhile_eq_self_iff]
    intro hl
    intro hc
    apply hlast
    rw [List.getLast?_eq_some_getLast hd]
    have : d.reverse[0] = d.getLast hd := by
      rw [List.getElem_zero, List.head_reverse]
    rw [this] at hc
    simpa using hc
  have hstep : ∀ l : List Char, ('/' :: l).dropWhile (fun c => decide (c = '/')) = l.dropWhile (fun c => decide (c = '/')) := by
    intro l; rw [List.dropWhile_cons]; simp
  show (List.dropWhile (fun x => decide (x = '/')) ('/' :: d.reverse)).reverse = d
  rw [hstep, hr, List.reverse_reverse]

theorem isDigit_ofNat {n : Nat} (h : n < 10) : isDigit (Char.ofNat ('0'.toNat + n)) = true := by
  have : ∀ n : Fin 10, isDigit (Char.ofNat ('0'.toNat + n.val)) = true := by decide
  exact this ⟨n, h⟩

theorem toNat_ofNat {n : Nat} (h : n < 10) : (Char.ofNat ('0'.toNat + n)).toNat - '0'.toNat = n := by
  have : ∀ n : Fin 10, (Char.ofNat ('0'.toNat + n.val)).toNat - '0'.toNat = n.val := by decide
  exact this ⟨n, h⟩

theorem natDigits_spec (n : Nat) : natDigits n ≠ [] ∧ (∀ c ∈ natDigits n, isDigit c = true) ∧ digitsValue (natDigits n) = n := by
  induction n using Nat.strongRecOn with
  | _ n ih =>
    rw [natDigits]
    split
    · rename_i h
      refine ⟨by simp, ?_, ?_⟩
      · intro c hc
        simp only [List.mem_singleton] at hc
        subst hc; exact isDigit_ofNat h
      · show 10 * 0 + _ = n
        rw [toNat_ofNat h]; omega
    · rename_i h
      obtain ⟨h1, h2, h3⟩ := ih (n / 10) (by omega)
      refine ⟨by simp, ?_, ?_⟩
      · intro c hc
        simp only [List.mem_append, List.mem_singleton] at hc
        rcases hc with hc | rfl
        · exact h2 c hc
        · exact isDigit_ofNat (Nat.mod_lt _ (by omega))
      · unfold digitsValue at h3 ⊢
        rw [List.foldl_append, h3]
        show 10 * (n / 10) + _ = n
        rw [toNat_ofNat (Nat.mod_lt _ (by omega))]
        omega

theorem takeWhile_digits {ds tail : List Char} (h : ∀ c ∈ ds, isDigit c = true) (ht : ∀ c, tail.head? = some c → isDigit c = false) :
    (ds ++ tail).takeWhile isDigit = ds ∧ (ds ++ tail).dropWhile isDigit = tail := by
  induction ds with
  | nil =>
    cases tail with
    | nil => simp
    | cons c t => simp [ht c rfl]
  | cons a ds ih =>
    have ha := h a (by simp)
    obtain ⟨h1, h2⟩ := ih (fun c hc => h c (by simp [hc]))
    simp [ha, h1, h2]

theorem parseFlowName_iff (name : List Char) (t : Nat) :
    parseFlowName name = some t ↔ ∃ ds, ds ≠ [] ∧ (∀ c ∈ ds, isDigit c = true) ∧
      name = "flow_".toList ++ ds ++ ".npy".toList ∧ digitsValue ds = t := by
  constructor
  · intro h
    unfold parseFlowName at h
    split at h
    · rename_i hp
      obtain ⟨rest, rfl⟩ := hp
      simp only at h
      split at h
      · rename_i hc
        have hdrop : ("flow_".toList ++ rest).drop 5 = rest := rfl
        rw [hdrop] at hc h
        simp only [Option.some.injEq] at h
        refine ⟨rest.takeWhile isDigit, hc.1, fun c hm => List.mem_takeWhile_imp hm, ?_, h⟩
        rw [List.append_assoc, ← hc.2, List.takeWhile_append_dropWhile]
      · simp at h
    · simp at h
  · rintro ⟨ds, h1, h2, rfl, rfl⟩
    have hd : ("flow_".toList ++ ds ++ ".npy".toList).drop 5 = ds ++ ".npy".toList := by
      rw [List.append_assoc]; rfl
    obtain ⟨h3, h4⟩ := takeWhile_digits (tail := ".npy".toList) h2 (by
      intro c hc
      have : c = '.' := by
        have : (".npy".toList).head? = some '.' := by decide
        rw [this] at hc
        simpa using hc.symm
      subst this
      decide)
    unfold parseFlowName
    rw [if_pos ⟨ds ++ ".npy".toList, by rw [List.append_assoc]⟩]
    simp only [hd, h3, h4, h1, ne_eq, not_false_eq_true, and_self, if_true]

end Verif.Formats
