import Verif.Proofs.SanityConvert
import Verif.Props.UpdateExactly
/-!
# C192: values of NumPy and JAX in the configuration
-/

namespace Verif.SanityConvert
open Verif Sanity Spec

/-- **C192**, exactly what the file gives for a key, for all values: the updated value, or the one before, as the text of what the conversion
makes of it is read. -/
theorem C192_exactly (text : Obj → String) (parse : String → Val) (config updates : ObjConfig) (hu : (updates.map Prod.fst).Nodup)
    (key : String) (hk : key ≠ "file_list") :
    get (load parse (updateObj text config updates)) key =
      (updatedObj config updates key).map (fun o => parse (text (convert o))) := by
  unfold updateObj
  dsimp only
  rw [get_load_obj _ _ _ _ _ hk, getObj_after _ _ hu, Option.map_map]
  rfl

/-- **C192** for NumPy scalars and arrays: they are written, and read back, as the standard values they stand for. `hb` says that `str` gives
the same for the booleans of NumPy and Python, `hv` that the text of a standard value is read back as that value. Missing: lists with NumPy
scalars in them (`C192_refuted`). -/
theorem C192_plain_partial (text : Obj → String) (parse : String → Val) (config updates : ObjConfig) (hu : (updates.map Prod.fst).Nodup)
    (hb : ∀ b, text (.scal (.npBool b)) = text (.scal (.std (.bool b)))) (key : String) (hk : key ≠ "file_list") (o : Obj)
    (ho : updatedObj config updates key = some o) (hseq : ∀ l, o ≠ .seq l) (hwf : ∀ a, o = .array a → a.WF)
    (hv : ∀ v, StandsFor o v → parse (text (.scal (.std v))) = v) :
    ∃ v, StandsFor o v ∧ get (load parse (updateObj text config updates)) key = some v := by
  rw [C192_exactly _ _ _ _ hu _ hk, ho, Option.map_some]
  cases o with
  | scal s =>
    refine ⟨_, .scal s, ?_⟩
    have := hv _ (.scal s)
    cases s with
    | std v => exact congrArg some this
    | npFloat x => exact congrArg some this
    | npInt z => exact congrArg some this
    | npBool b =>
      simp only [convert]
      rw [hb]
      exact congrArg some this
  | array a =>
    have hs : StandsFor (.array a) (tolist a.shape a.data) :=
      .array _ _ (fun idx hi => itemAt_tolist a.shape a.data idx (hwf a rfl) hi)
    exact ⟨_, hs, congrArg some (hv _ hs)⟩
  | seq l => exact absurd rfl (hseq l)

/-- **C192**, the list of files: given as a NumPy array of at least one name, it is kept as a list of these names. -/
theorem C192_file_list (text : Obj → String) (parse : String → Val) (config updates : ObjConfig) (hu : (updates.map Prod.fst).Nodup)
    (names : List String) (hne : names ≠ [])
    (ho : updatedObj config updates "file_list" = some (.array ⟨[names.length], names.map .str⟩))
    (hv : ∀ s ∈ names, parse (text (.scal (.std (.str s)))) = .str s) :
    get (load parse (updateObj text config updates)) "file_list" = some (.list (names.map .str)) := by
  have ht : tolist [names.length] (names.map Val.str) = .list (names.map .str) := by
    simp only [tolist, Arr.size, List.foldr_nil, Nat.mul_one]
    congr 1
    apply List.ext_getElem?
    intro i
    rw [List.getElem?_map]
    by_cases hi : i < names.length
    · rw [List.getElem?_range hi]
      simp [List.headD_eq_head?_getD, List.head?_take, List.head?_drop, hi]
    · rw [List.getElem?_eq_none (by simpa using hi), List.getElem?_eq_none (by simpa using hi)]
      rfl
  unfold updateObj
  dsimp only
  rw [getObj_after _ _ hu, ho]
  obtain ⟨a, l, rfl⟩ : ∃ a l, names = a :: l := List.exists_cons_of_ne_nil hne
  simp only [Option.map_some, convert, ht]
  have hmap : ((a :: l).map Val.str).map (fun v => parse (text (.scal (.std v)))) = (a :: l).map Val.str := by
    rw [List.map_map]
    exact List.map_congr_left (fun s hs => hv s hs)
  have hbl : listBlock text (some (.scal (.std (.list ((a :: l).map .str))))) =
      some (((a :: l).map Val.str).map (fun v => text (.scal (.std v)))) := rfl
  rw [hbl, get_load_block, List.map_map]
  exact congrArg (fun x => some (Val.list x)) hmap

/-- **C192**: for standard values the conversion makes no difference, the file is the one of `C68`. -/
theorem C192_standard (text : Obj → String) (config updates : Config) :
    updateObj text (config.map (fun e => (e.1, .scal (.std e.2)))) (updates.map (fun e => (e.1, .scal (.std e.2)))) =
      update (fun v => text (.scal (.std v))) config updates := by
  unfold updateObj update
  dsimp only
  have hc : (config.map (fun e => (e.1, Obj.scal (.std e.2)))).map (fun e => (e.1, convert e.2)) = lifted config := by
    rw [List.map_map]; rfl
  rw [hc]
  have := lifted_foldl updates config
  unfold lifted at this ⊢
  rw [this]
  congr 1
  · rw [List.filter_map, List.map_map]
    rfl
  · have := getObj_lifted (updates.foldl (fun c e => Sanity.set c e.1 e.2) config) "file_list"
    unfold lifted at this
    rw [this]
    generalize Sanity.get (updates.foldl (fun c e => Sanity.set c e.1 e.2) config) "file_list" = o
    rcases o with _ | v
    · rfl
    · cases v with
      | list l => cases l <;> rfl
      | _ => rfl

/-- **C192** is false for lists with NumPy scalars in them: they are not converted, and the text of such a list, of which YAML makes strings,
is not that of the list of the numbers. -/
theorem C192_refuted (text : Obj → String) (parse : String → Val)
    (ht : text (.seq [.npFloat (.fin (3 / 2))]) = "[np.float64(1.5)]")
    (hp : parse "[np.float64(1.5)]" = .list [.str "np.float64(1.5)"]) :
    get (load parse (updateObj text [("max_speed_x", .seq [.npFloat (.fin (3 / 2))])] [])) "max_speed_x" =
        some (.list [.str "np.float64(1.5)"]) ∧
      ¬ StandsFor (.seq [.npFloat (.fin (3 / 2))]) (.list [.str "np.float64(1.5)"]) := by
  constructor
  · rw [C192_exactly _ _ _ _ (by simp) _ (by decide)]
    simp [updatedObj, getObj, convert, ht, hp]
  · intro h
    cases h

/-- A text of the values in the examples. -/
def demoTextObj : Obj → String
  | .scal (.std (.bool b)) => if b then "True" else "False"
  | .scal (.std v) => demoText v
  | .scal (.npBool b) => if b then "True" else "False"
  | .seq [.npFloat _] => "[np.float64(1.5)]"
  | _ => "?"

/-- A NumPy integer is read back as the integer. -/
example : get (load demoParse (updateObj demoTextObj [("seed", .scal (.npInt 5)), ("name", .scal (.std (.str "x")))]
    [("name", .scal (.npInt 7))])) "name" = some (.int 7) := rfl

/-- The conversion of a `2 × 2` array. -/
example : tolist [2, 2] [.int 1, .int 2, .int 3, .int 4] = .list [.list [.int 1, .int 2], .list [.int 3, .int 4]] := rfl

example : ∃ v, StandsFor (.scal (.npInt 5)) v ∧
    get (load demoParse (updateObj demoTextObj [("seed", .scal (.npInt 5))] [])) "seed" = some v :=
  C192_plain_partial _ _ _ _ (by simp) (fun _ => rfl) "seed" (by decide) _ rfl (by intro l h; cases h) (by intro a h; cases h)
    (by intro v hv; cases hv; rfl)

example : get (load demoParse (updateObj demoTextObj [("file_list", .array ⟨[2], [.str "a.h5", .str "b.h5"]⟩)] [])) "file_list" =
    some (.list [.str "a.h5", .str "b.h5"]) :=
  C192_file_list _ _ _ _ (by simp) ["a.h5", "b.h5"] (by simp) rfl (by
    intro s hs
    simp only [List.mem_cons, List.not_mem_nil, or_false] at hs
    rcases hs with rfl | rfl <;> rfl)

end Verif.SanityConvert
