import Verif.Spec.SanityConvert
import Verif.Proofs.Sanity
import Verif.Proofs.ArrIx
/-!
# Lemmas about the conversion of NumPy and JAX values
-/

namespace Verif.SanityConvert
open Verif Sanity Spec

/-- A configuration with the values replaced. -/
def mapped (g : Obj → Val) (c : ObjConfig) : Config := c.map (fun e => (e.1, g e.2))

theorem get_mapped (g : Obj → Val) (c : ObjConfig) (k : String) : get (mapped g c) k = (getObj c k).map g := by
  unfold Sanity.get getObj mapped
  rw [List.find?_map, Option.map_map, Option.map_map]
  rfl

theorem mapped_setObj (g : Obj → Val) (c : ObjConfig) (k : String) (o : Obj) :
    mapped g (setObj c k o) = set (mapped g c) k (g o) := by
  unfold mapped setObj Sanity.set
  have : (c.map (fun e : String × Obj => (e.1, g e.2))).any (fun e => e.1 == k) = c.any (fun e => e.1 == k) := by
    rw [List.any_map]; rfl
  rw [this]
  split
  · rw [List.map_map, List.map_map]
    apply List.map_congr_left
    intro e _
    simp only [Function.comp_apply]
    split <;> rfl
  · simp

theorem mapped_foldl (g : Obj → Val) (updates : ObjConfig) (c : ObjConfig) :
    mapped g (updates.foldl (fun c e => setObj c e.1 (convert e.2)) c) =
      (mapped (fun o => g (convert o)) updates).foldl (fun c e => set c e.1 e.2) (mapped g c) := by
  induction updates generalizing c with
  | nil => rfl
  | cons e u ih =>
    rw [List.foldl_cons, ih, mapped_setObj]
    rfl

/-- Options with the same images under every function are the same. -/
private theorem option_ext {x y : Option Obj} (h : ∀ g : Obj → Val, x.map g = y.map g) : x = y := by
  classical
  cases x with
  | none =>
    cases y with
    | none => rfl
    | some b => have := h (fun _ => .none); simp at this
  | some a =>
    have := h (fun o => if o = a then .int 1 else .int 0)
    cases y with
    | none => simp at this
    | some b =>
      simp only [Option.map_some, if_true, Option.some.injEq] at this
      by_cases hb : b = a
      · rw [hb]
      · rw [if_neg hb] at this
        simp at this

/-- What is found for a key after conversion and updates. -/
theorem getObj_after (config updates : ObjConfig) (hu : (updates.map Prod.fst).Nodup) (key : String) :
    getObj (updates.foldl (fun c e => setObj c e.1 (convert e.2)) (config.map (fun e => (e.1, convert e.2)))) key =
      (updatedObj config updates key).map convert := by
  apply option_ext
  intro g
  rw [← get_mapped, mapped_foldl, get_foldl_set _ (by simpa [mapped, Function.comp_def] using hu)]
  have hc : mapped g (config.map (fun e => (e.1, convert e.2))) = mapped (fun o => g (convert o)) config := by
    simp [mapped]
  rw [hc]
  unfold updated updatedObj
  rw [get_mapped, get_mapped]
  cases getObj updates key with
  | none => simp [Function.comp_def]
  | some o => simp

/-- What the file gives for a key. -/
theorem get_load_obj (text : Obj → String) (parse : String → Val) (c : ObjConfig) (b : Option (List String)) (key : String)
    (hk : key ≠ "file_list") :
    get (load parse { entries := (c.filter (fun e => e.1 != "file_list")).map (fun e => (e.1, text e.2)), fileList := b }) key =
      (getObj c key).map (fun o => parse (text o)) := by
  let unstr : Val → String := fun v => match v with | .str s => s | _ => ""
  have he : (c.filter (fun e => e.1 != "file_list")).map (fun e => (e.1, text e.2)) =
      ((mapped (fun o => .str (text o)) c).filter (fun e => e.1 != "file_list")).map (fun e => (e.1, unstr e.2)) := by
    unfold mapped
    rw [List.filter_map, List.map_map]
    rfl
  rw [he, get_load parse unstr _ _ _ hk, get_filter _ _ hk, get_mapped, Option.map_map]
  rfl

/-- What the file gives for `file_list` if the block is written. -/
theorem get_load_block (text : Obj → String) (parse : String → Val) (c : ObjConfig) (items : List String) :
    get (load parse { entries := (c.filter (fun e => e.1 != "file_list")).map (fun e => (e.1, text e.2)), fileList := some items })
      "file_list" = some (.list (items.map parse)) := by
  unfold load Sanity.get
  dsimp only
  rw [List.find?_append]
  have : (((c.filter (fun e => e.1 != "file_list")).map (fun e => (e.1, text e.2))).map (fun e => (e.1, parse e.2))).find?
      (fun e => e.1 == "file_list") = none := by
    rw [List.find?_eq_none]
    intro e he
    simp only [List.map_map, List.mem_map, List.mem_filter] at he
    obtain ⟨e', ⟨_, h2⟩, rfl⟩ := he
    simpa using h2
  rw [this]
  simp

/-- Standard values as values of the model with conversion. -/
def lifted (c : Config) : ObjConfig := c.map (fun e => (e.1, .scal (.std e.2)))

theorem lifted_set (c : Config) (k : String) (v : Val) : setObj (lifted c) k (.scal (.std v)) = lifted (Sanity.set c k v) := by
  unfold lifted setObj Sanity.set
  have : (c.map (fun e : String × Val => (e.1, Obj.scal (.std e.2)))).any (fun e => e.1 == k) = c.any (fun e => e.1 == k) := by
    rw [List.any_map]; rfl
  rw [this]
  split
  · rw [List.map_map, List.map_map]
    apply List.map_congr_left
    intro e _
    simp only [Function.comp_apply]
    split <;> rfl
  · simp

theorem lifted_foldl (updates c : Config) :
    (lifted updates).foldl (fun c e => setObj c e.1 (convert e.2)) (lifted c) =
      lifted (updates.foldl (fun c e => Sanity.set c e.1 e.2) c) := by
  induction updates generalizing c with
  | nil => rfl
  | cons e u ih =>
    rw [List.foldl_cons, ← ih, ← lifted_set]
    rfl

theorem getObj_lifted (c : Config) (k : String) : getObj (lifted c) k = (get c k).map (fun v => .scal (.std v)) := by
  unfold Sanity.get getObj lifted
  rw [List.find?_map, Option.map_map, Option.map_map]
  rfl

/-- The nested lists of an array have its entries. -/
theorem itemAt_tolist : ∀ (sh : List Nat) (d : List Val) (idx : List Nat), d.length = Arr.size sh → idx.length = sh.length →
    itemAt (tolist sh d) idx = (Arr.offset sh idx).bind (fun k => d[k]?)
  | [], d, [], hd, _ => by
    simp only [Arr.size, List.foldr_nil] at hd
    obtain ⟨v, rfl⟩ := List.length_eq_one_iff.mp hd
    rfl
  | n :: s, d, i :: is, hd, hi => by
    have hs : Arr.size (n :: s) = n * Arr.size s := rfl
    rw [hs] at hd
    simp only [tolist, itemAt, Arr.offset, List.getElem?_map]
    by_cases hin : i < n
    · rw [List.getElem?_range hin, if_pos hin]
      simp only [Option.map_some, Option.bind_some]
      have hle : i * Arr.size s + Arr.size s ≤ d.length := by
        rw [hd, ← Nat.succ_mul]
        exact Nat.mul_le_mul_right _ hin
      have hlen : ((d.drop (i * Arr.size s)).take (Arr.size s)).length = Arr.size s := by
        rw [List.length_take, List.length_drop]; omega
      rw [itemAt_tolist s _ is hlen (by simpa using hi)]
      cases ho : Arr.offset s is with
      | none => rfl
      | some k =>
        have hk := Arr.offset_lt ho
        simp only [Option.bind_some, Option.map_some]
        rw [List.getElem?_take, if_pos hk, List.getElem?_drop]
    · rw [if_neg hin, List.getElem?_eq_none (by simpa using hin)]
      rfl
  | [], _, _ :: _, _, hi => by simp at hi
  | _ :: _, _, [], _, hi => by simp at hi

end Verif.SanityConvert
