import Verif.Props.Sanity

/-! # C68, exactly: when updating a configuration file loses nothing -/

namespace Verif.Sanity

open Verif Spec

/-- What the file gives for `file_list` after the update: the items, each as its text is read, if there are any; else nothing. -/
theorem file_list_after (text : Val → String) (parse : String → Val) (config updates : Config)
    (hu : (updates.map Prod.fst).Nodup) (a : Val) (l : List Val)
    (h : updated config updates "file_list" = some (.list (a :: l))) :
    get (load parse (update text config updates)) "file_list" = some (.list ((a :: l).map (fun v => parse (text v)))) := by
  unfold update
  dsimp only
  rw [get_foldl_set _ hu, h]
  simp only [fileListBlock, load, get]
  rw [List.find?_append]
  have : (List.map (fun e : String × String => (e.1, parse e.2)) (List.map (fun e : String × Val => (e.1, text e.2))
      (List.filter (fun e => e.1 != "file_list") (List.foldl (fun c e => set c e.1 e.2) config updates)))).find?
      (fun e => e.1 == "file_list") = none := by
    rw [List.find?_eq_none]
    intro e he
    simp only [List.map_map, List.mem_map, List.mem_filter] at he
    obtain ⟨e', ⟨_, h2⟩, rfl⟩ := he
    simpa using h2
  rw [this]
  simp

/-- **C68**, exactly what the file gives for a key after `update_config_file`, whatever the texts: for every key but `file_list` the updated
value, or the value it had, as its text is read back. -/
theorem C68_exactly (text : Val → String) (parse : String → Val) (config updates : Config)
    (hu : (updates.map Prod.fst).Nodup) (key : String) (hk : key ≠ "file_list") :
    get (load parse (update text config updates)) key = (updated config updates key).map (fun v => parse (text v)) := by
  unfold update
  rw [get_load _ _ _ _ _ hk, get_filter _ _ hk, get_foldl_set _ hu]

/-- **C68**, exactly when nothing is lost: if and only if the text of every value is read back as that value, and the list of files, if there
is one, is a list with at least one item whose texts are read back likewise. -/
theorem C68_iff (text : Val → String) (parse : String → Val) (config updates : Config) (hu : (updates.map Prod.fst).Nodup) :
    (∀ key, get (load parse (update text config updates)) key = updated config updates key) ↔
      (∀ key v, key ≠ "file_list" → updated config updates key = some v → parse (text v) = v) ∧
      (∀ v, updated config updates "file_list" = some v →
        ∃ items : List Val, items ≠ [] ∧ v = .list items ∧ ∀ i ∈ items, parse (text i) = i) := by
  constructor
  · intro h
    refine ⟨fun key v hk hv => ?_, fun v hv => ?_⟩
    · have := h key
      rw [C68_exactly _ _ _ _ hu _ hk, hv] at this
      exact Option.some.inj this
    · by_cases hl : ∀ a l, v ≠ .list (a :: l)
      · have := h "file_list"
        rw [C68_refuted_file_list _ _ _ _ hu _ hv hl, hv] at this
        cases this
      · push Not at hl
        obtain ⟨a, l, rfl⟩ := hl
        have := h "file_list"
        rw [file_list_after _ _ _ _ hu _ _ hv, hv] at this
        have he : (a :: l).map (fun v => parse (text v)) = a :: l := by
          injection this with h1; injection h1
        refine ⟨a :: l, by simp, rfl, fun i hi => ?_⟩
        have hid : (a :: l).map (fun v => parse (text v)) = (a :: l).map id := by rw [he, List.map_id]
        exact List.map_inj_left.mp hid i hi
  · rintro ⟨h1, h2⟩ key
    by_cases hk : key = "file_list"
    · subst hk
      cases hv : updated config updates "file_list" with
      | none =>
        unfold update
        dsimp only
        rw [get_foldl_set _ hu, hv]
        unfold load get
        rw [Option.map_eq_none_iff, List.find?_eq_none]
        intro e he
        simp only [fileListBlock, List.append_nil, List.map_map, List.mem_map, List.mem_filter] at he
        obtain ⟨e', ⟨_, h2⟩, rfl⟩ := he
        simpa using h2
      | some v =>
        obtain ⟨items, hne, rfl, hi⟩ := h2 v hv
        exact C68_file_list_partial _ _ _ _ hu items hne hv hi
    · exact C68_entries_partial _ _ _ _ hu key hk (fun v hv => h1 key v hk hv)

example : ∀ key, get (load demoParse (update demoText demoConfig [("seed", .int 7), ("max_speed_x", .int 5)])) key =
    updated demoConfig [("seed", .int 7), ("max_speed_x", .int 5)] key := by
  rw [C68_iff _ _ _ _ (by decide)]
  constructor
  · intro key v hk hv
    have hm : v = .int 7 ∨ v = .int 5 ∨ v = .str "x" := by
      by_cases h1 : key = "seed"
      · subst h1; exact .inl (Option.some.inj hv).symm
      by_cases h2 : key = "max_speed_x"
      · subst h2; exact .inr (.inl (Option.some.inj hv).symm)
      by_cases h3 : key = "name"
      · subst h3; exact .inr (.inr (Option.some.inj hv).symm)
      have h1' : ("seed" == key) = false := by simpa using Ne.symm h1
      have h2' : ("max_speed_x" == key) = false := by simpa using Ne.symm h2
      have h3' : ("name" == key) = false := by simpa using Ne.symm h3
      have h4' : ("file_list" == key) = false := by simpa using Ne.symm hk
      simp [updated, demoConfig, get, List.find?, h1', h2', h3', h4'] at hv
    rcases hm with rfl | rfl | rfl <;> rfl
  · intro v hv
    refine ⟨[.str "a.h5", .str "b.h5"], by simp, ?_, ?_⟩
    · exact (Option.some.inj hv).symm
    · intro i hi
      simp only [List.mem_cons, List.not_mem_nil, or_false] at hi
      rcases hi with rfl | rfl <;> rfl

end Verif.Sanity
