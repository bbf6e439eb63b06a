import Verif.Proofs.Sanity
/-!
# Properties of the configuration helpers (C67, C68, C74)
-/

namespace Verif.Sanity
open Verif Spec

/-- **C67**, for files without NaN: the result of `calculate_min_and_max_speeds` are the exact bounds of the velocities of all the files:
every velocity of every file lies between them and each of the four is the component of some velocity. -/
theorem C67_bounds_partial (read : Reader) (hr : ReadsArrays read) (files : List String) (hf : files ≠ [])
    (hn : ∀ f ∈ files, ∀ v, Velocity read f v → v.1 ≠ .nan ∧ v.2 ≠ .nan) (s : Speeds) (h : speeds read files = .ok s) :
    ExactBounds (fun v => ∃ f ∈ files, Velocity read f v) s := by
  refine exactBounds_congr ?_ (speedLoop_inv hr (V := fun _ => False) hn
    ⟨fun v hv => hv.elim, .inr rfl, .inr rfl, .inr rfl, .inr rfl, ?_⟩ (fun h => absurd h hf) h)
  · simp
  · decide

/-- Two files, one with two fields on a grid of two points, one with one field. -/
def demoRead : Reader
  | "a.h5" => .ok [.data [2, 1, 2, 3] [[.fin 1, .fin 2, .fin 9], [.fin (-3), .fin 4, .fin 9], [.fin 0, .fin 0, .fin 9], [.fin 2, .fin 5, .fin 9]]]
  | "b.h5" => .ok [.data [1, 2, 2] [[.fin 7, .fin (-1)], [.fin 6, .fin 1]], .group]
  | "nan.h5" => .ok [.data [1, 2, 2] [[.nan, .fin (-1)], [.fin 100, .fin 1]]]
  | _ => .error .fileNotFound

example : speeds demoRead ["a.h5", "b.h5"] = .ok { minX := .fin (-3), maxX := .fin 7, minY := .fin (-1), maxY := .fin 5 } := by
  decide +kernel

theorem demoRead_arrays : ReadsArrays demoRead := by
  intro file shape points rest h p hp
  unfold demoRead at h
  split at h <;> simp only [Except.ok.injEq, List.cons.injEq, Content.data.injEq, reduceCtorEq] at h
  all_goals
    obtain ⟨⟨rfl, rfl⟩, rfl⟩ := h
    revert p
    decide

example : ∀ f ∈ ["a.h5", "b.h5"], ∀ v, Velocity demoRead f v → v.1 ≠ .nan ∧ v.2 ≠ .nan := by
  intro f hf v hv
  obtain ⟨shape, points, rest, h, p, hp, h1, h2⟩ := hv
  simp only [List.mem_cons, List.not_mem_nil, or_false] at hf
  rcases hf with rfl | rfl
  all_goals
    simp only [demoRead, Except.ok.injEq, List.cons.injEq, Content.data.injEq] at h
    obtain ⟨⟨rfl, rfl⟩, rfl⟩ := h
    simp only [List.mem_cons, List.not_mem_nil, or_false] at hp
    rcases hp with rfl | rfl | rfl | rfl
    all_goals
      obtain ⟨x, y⟩ := v
      simp only [List.getElem?_cons_zero, List.getElem?_cons_succ, Option.some.injEq] at h1 h2
      subst h1 h2
      decide

/-- **C67**, which lists are processed: exactly those of files whose first entry is a dataset of velocities. -/
theorem C67_accepts (read : Reader) (hr : ReadsArrays read) (files : List String) :
    (∃ s, speeds read files = .ok s) ↔ ∀ f ∈ files, ∃ c rest, read f = .ok (c :: rest) ∧ VelocityData c := by
  have step : ∀ s f, (∃ s', speedStep read s f = .ok s') ↔ ∃ c rest, read f = .ok (c :: rest) ∧ VelocityData c := by
    intro s f
    unfold speedStep components
    cases h : read f with
    | error e => simp
    | ok l =>
      cases l with
      | nil => simp
      | cons c rest =>
        cases c with
        | group => simp [VelocityData]
        | data shape points =>
          have hlen := hr _ _ _ _ h
          simp only [Except.ok.injEq, List.cons.injEq]
          have hget : shape.getLastD 0 = shape.getLast?.getD 0 := by cases shape <;> simp [List.getLastD_eq_getLast?]
          constructor
          · rintro ⟨s', hs⟩
            refine ⟨_, _, ⟨rfl, rfl⟩, ?_⟩
            by_cases hsh : shape.length = 4 ∨ shape.length = 3 ∧ shape.getLast? = some 2
            swap
            · rw [if_neg hsh] at hs; cases hs
            rw [if_pos hsh] at hs
            unfold component at hs
            by_cases h0 : 0 < shape.getLastD 0
            swap
            · rw [if_neg h0] at hs; cases hs
            by_cases h1 : 1 < shape.getLastD 0
            swap
            · rw [if_pos h0, if_neg h1] at hs; cases hs
            cases hl : shape.getLast? with
            | none => rw [hget, hl] at h0; simp at h0
            | some C =>
              rw [hget, hl] at h1 hlen
              simp only [Option.getD_some] at h1 hlen
              refine ⟨C, hl, ?_, ?_, hlen⟩
              · rcases hsh with hsh | ⟨hsh, h2⟩
                · exact .inl ⟨hsh, h1⟩
                · rw [hl] at h2
                  exact .inr ⟨hsh, by simpa using h2⟩
              · rintro rfl
                simp [h1, npMax, hl] at hs
                split at hs <;> simp_all
          · rintro ⟨c, r', ⟨rfl, rfl⟩, hv⟩
            obtain ⟨C, hl, hsh, hne, _⟩ := hv
            have hsh' : shape.length = 4 ∨ shape.length = 3 ∧ shape.getLast? = some 2 := by
              rcases hsh with h | h
              · exact .inl h.1
              · exact .inr ⟨h.1, by rw [hl, h.2]⟩
            have h1 : 1 < shape.getLastD 0 := by
              rw [hget, hl]; simp only [Option.getD_some]; omega
            rw [if_pos hsh']
            unfold component
            rw [if_pos (by omega), if_pos h1]
            obtain ⟨p, ps, rfl⟩ : ∃ p ps, points = p :: ps := List.exists_cons_of_ne_nil hne
            exact ⟨_, rfl⟩
  unfold speeds
  generalize ({ minX := .inf, maxX := .neginf, minY := .inf, maxY := .neginf } : Speeds) = s
  induction files generalizing s with
  | nil => simp [speedLoop]
  | cons f fs ih =>
    simp only [speedLoop, List.mem_cons, forall_eq_or_imp]
    rw [← step s f]
    cases h : speedStep read s f with
    | error e => simp
    | ok s' => simpa using ih s'

example : ∃ s, speeds demoRead ["b.h5", "a.h5", "b.h5"] = .ok s := ⟨_, rfl⟩

/-- **C67** fails for files with NaN: a velocity of 100 in a file where another one is NaN is ignored, the file counts as if it had no
x-components. -/
theorem C67_refuted : ∃ (read : Reader) (files : List String) (s : Speeds), ReadsArrays read ∧ speeds read files = .ok s ∧
    s.maxX = .fin 7 ∧ ∃ f ∈ files, Velocity read f (.fin 100, .fin 1) := by
  refine ⟨demoRead, ["nan.h5", "b.h5"], { minX := .fin 6, maxX := .fin 7, minY := .fin (-1), maxY := .fin 1 }, demoRead_arrays,
    by decide +kernel, rfl, "nan.h5", by simp, _, _, _, rfl, [.fin 100, .fin 1], by simp, rfl, rfl⟩

/-- **C68**, entries other than `file_list`: after `update_config_file` the file gives, for every key, the updated value if there is one and
else the value it had, as far as the text of the value is read back as that value. -/
theorem C68_entries_partial (text : Val → String) (parse : String → Val) (config updates : Config)
    (hu : (updates.map Prod.fst).Nodup) (key : String) (hk : key ≠ "file_list")
    (hv : ∀ v, updated config updates key = some v → parse (text v) = v) :
    get (load parse (update text config updates)) key = updated config updates key := by
  unfold update
  rw [get_load _ _ _ _ _ hk, get_filter _ _ hk, get_foldl_set _ hu]
  cases h : updated config updates key with
  | none => rfl
  | some v => rw [Option.map_some, hv v h]

/-- **C68**, the list of files: a list with at least one item, all read back as they were, is kept. -/
theorem C68_file_list_partial (text : Val → String) (parse : String → Val) (config updates : Config)
    (hu : (updates.map Prod.fst).Nodup) (items : List Val) (hi : items ≠ [])
    (h : updated config updates "file_list" = some (.list items)) (hv : ∀ v ∈ items, parse (text v) = v) :
    get (load parse (update text config updates)) "file_list" = some (.list items) := by
  unfold update
  dsimp only
  rw [get_foldl_set _ hu, h]
  obtain ⟨a, l, rfl⟩ : ∃ a l, items = a :: l := List.exists_cons_of_ne_nil hi
  have hmap : ((a :: l).map text).map parse = a :: l := by
    rw [List.map_map]
    exact (List.map_congr_left (fun v hv' => hv v hv')).trans (List.map_id _)
  simp only [fileListBlock, load, get]
  rw [hmap, List.find?_append]
  have : (List.map (fun e : String × String => (e.1, parse e.2)) (List.map (fun e : String × Val => (e.1, text e.2))
      (List.filter (fun e => e.1 != "file_list") (List.foldl (fun c e => set c e.1 e.2) config updates)))).find?
      (fun e => e.1 == "file_list") = none := by
    rw [List.find?_eq_none]
    intro e he
    simp only [List.map_map, List.mem_map, List.mem_filter] at he
    obtain ⟨e', ⟨_, h2⟩, rfl⟩ := he
    simpa using h2
  rw [this]
  simp

/-- A textual form of the values in the examples. -/
def demoText : Val → String
  | .int z => toString z
  | .str s => s
  | .none => "None"
  | .list [] => "[]"
  | _ => "?"

/-- What YAML makes of the texts in the examples. -/
def demoParse : String → Val
  | "5" => .int 5
  | "7" => .int 7
  | "null" => .none
  | "[]" => .list []
  | s => .str s

def demoConfig : Config := [("file_list", .list [.str "a.h5", .str "b.h5"]), ("seed", .int 5), ("name", .str "x")]

example : get (load demoParse (update demoText demoConfig [("seed", .int 7), ("max_speed_x", .int 5)])) "seed" = some (.int 7) := rfl
example : get (load demoParse (update demoText demoConfig [("seed", .int 7), ("max_speed_x", .int 5)])) "name" = some (.str "x") := rfl
example : get (load demoParse (update demoText demoConfig [("seed", .int 7), ("max_speed_x", .int 5)])) "file_list" =
    some (.list [.str "a.h5", .str "b.h5"]) := rfl

/-- **C68** fails for a list of files that is empty or is not a list: the entry disappears, whatever the texts. -/
theorem C68_refuted_file_list (text : Val → String) (parse : String → Val) (config updates : Config)
    (hu : (updates.map Prod.fst).Nodup) (v : Val) (h : updated config updates "file_list" = some v)
    (hv : ∀ a l, v ≠ .list (a :: l)) :
    get (load parse (update text config updates)) "file_list" = none := by
  unfold update
  dsimp only
  rw [get_foldl_set _ hu, h]
  have hb : fileListBlock text (some v) = none := by
    unfold fileListBlock
    split
    · rename_i a l heq
      exact absurd (Option.some.inj heq) (hv a l)
    · rfl
  rw [hb]
  unfold load get
  rw [Option.map_eq_none_iff, List.find?_eq_none]
  intro e he
  simp only [List.append_nil, List.map_map, List.mem_map, List.mem_filter] at he
  obtain ⟨e', ⟨_, h2⟩, rfl⟩ := he
  simpa using h2

/-- The same with a concrete configuration: a single file given as a string. -/
theorem C68_refuted_string : get [("file_list", .str "a.h5")] "file_list" = some (.str "a.h5") ∧
    get (load demoParse (update demoText [("file_list", .str "a.h5")] [("seed", .int 5)])) "file_list" = none := ⟨rfl, rfl⟩

/-- **C68** fails for `None`: it is written as `None`, which YAML reads as a string. -/
theorem C68_refuted_none (parse : String → Val) (text : Val → String) (ht : text .none = "None") (hp : parse "None" = .str "None") :
    get (load parse (update text [("mask", .none)] [])) "mask" = some (.str "None") := by
  simp [update, load, get, ht, hp, fileListBlock]

/-- **C74.** What the panel does, outright. If the configuration lists existing `.h5` files and has the four speeds as numbers, these are
returned (max x, max y, min x, min y) and nothing is written. If speeds are missing, a result is returned only if the user chose to have
them computed and accepted them; it is the computed bounds in the same order, and these are what is written. -/
theorem C74_panel (read : Reader) (isFile : String → Bool) (config : Config) (choice advance : String) (r : List Val)
    (h : (panel read isFile config choice advance).result = .ok r) :
    ∃ files : List String, files ≠ [] ∧ get config "file_list" = some (.list (files.map .str)) ∧
      (∀ f ∈ files, isFile f = true ∧ f.endsWith ".h5" = true) ∧
      ((∃ a b c d : Val, r = [a, b, c, d] ∧ get config "max_speed_x" = some a ∧ get config "max_speed_y" = some b ∧
          get config "min_speed_x" = some c ∧ get config "min_speed_y" = some d ∧ (∀ v ∈ r, v.asNum.isSome) ∧
          (panel read isFile config choice advance).written = none) ∨
       (∃ s, speeds read files = .ok s ∧ choice = "1" ∧ (advance = "y" ∨ advance = "Y") ∧
          r = [.float s.maxX, .float s.maxY, .float s.minX, .float s.minY] ∧
          (∃ k ∈ speedKeys, ∀ v, get config k = some v → v.asNum = none) ∧
          ∃ w, (panel read isFile config choice advance).written = some w ∧ get w "max_speed_x" = some (.float s.maxX) ∧
            get w "max_speed_y" = some (.float s.maxY) ∧ get w "min_speed_x" = some (.float s.minX) ∧
            get w "min_speed_y" = some (.float s.minY) ∧ w.length = 4)) := by
  unfold panel at h ⊢
  split at h
  swap
  · cases h
  rename_i a l hg
  cases hc : filesCheck isFile (a :: l) with
  | error e => rw [hc] at h; cases h
  | ok files =>
    obtain ⟨h1, h2⟩ := filesCheck_ok.1 hc
    rw [hc] at h
    dsimp only at h
    refine ⟨files, ?_, by rw [← h1]; exact hg, h2, ?_⟩
    · rintro rfl; simp at h1
    dsimp only
    by_cases hall : (speedKeys.map (fun k => (get config k).getD .none)).all (fun v => v.asNum.isSome) = true
    · rw [if_pos hall] at h ⊢
      simp only [Except.ok.injEq] at h
      left
      have key : ∀ k ∈ speedKeys, ∃ v, get config k = some v := by
        intro k hk
        have := List.all_eq_true.1 hall _ (List.mem_map.2 ⟨k, hk, rfl⟩)
        cases hgk : get config k with
        | none => rw [hgk] at this; simp [Val.asNum] at this
        | some v => exact ⟨v, rfl⟩
      obtain ⟨va, ha⟩ := key "max_speed_x" (by simp [speedKeys])
      obtain ⟨vb, hb⟩ := key "max_speed_y" (by simp [speedKeys])
      obtain ⟨vc, hc⟩ := key "min_speed_x" (by simp [speedKeys])
      obtain ⟨vd, hd⟩ := key "min_speed_y" (by simp [speedKeys])
      refine ⟨va, vb, vc, vd, ?_, ha, hb, hc, hd, ?_, rfl⟩
      · rw [← h]; simp [speedKeys, ha, hb, hc, hd]
      · rw [← h]; exact List.all_eq_true.1 hall
    · rw [if_neg hall] at h ⊢
      by_cases hch : choice = "1"
      swap
      · rw [if_neg hch] at h; cases h
      rw [if_pos hch] at h ⊢
      cases hs : speeds read files with
      | error e => rw [hs] at h; cases h
      | ok s =>
        rw [hs] at h
        dsimp only at h
        by_cases had : advance = "y" ∨ advance = "Y"
        swap
        · rw [if_neg had] at h; cases h
        rw [if_pos had] at h
        dsimp only
        rw [if_pos had]
        simp only [Except.ok.injEq] at h
        right
        refine ⟨s, rfl, hch, had, h.symm, ?_, _, rfl, rfl, rfl, rfl, rfl, rfl⟩
        simp only [List.all_eq_true, List.mem_map, forall_exists_index, and_imp, forall_apply_eq_imp_iff₂, not_forall] at hall
        obtain ⟨k, hk, hv⟩ := hall
        refine ⟨k, hk, ?_⟩
        intro v hgv
        rw [hgv] at hv
        cases hn : v.asNum with
        | none => rfl
        | some n => simp [hn] at hv

/-- **C74**, the exceptions: `ValueError` for an unusable list of files, `RuntimeError` if the user declines; nothing is written unless the user
asked for the computation. -/
theorem C74_errors (read : Reader) (isFile : String → Bool) (config : Config) (choice advance : String) :
    ((∀ files : List String, files ≠ [] → get config "file_list" = some (.list (files.map .str)) →
        ∃ f ∈ files, ¬ (isFile f = true ∧ f.endsWith ".h5" = true)) →
      ∃ e, (panel read isFile config choice advance).result = .error e) ∧
    (choice ≠ "1" → (panel read isFile config choice advance).written = none) ∧
    (advance ≠ "y" → advance ≠ "Y" → (∃ k ∈ speedKeys, get config k = none) →
      ∃ e, (panel read isFile config choice advance).result = .error e) := by
  refine ⟨?_, ?_, ?_⟩
  · intro hbad
    cases h : (panel read isFile config choice advance).result with
    | error e => exact ⟨e, rfl⟩
    | ok r =>
      obtain ⟨files, h1, h2, h3, _⟩ := C74_panel read isFile config choice advance r h
      obtain ⟨f, hf, hn⟩ := hbad files h1 h2
      exact absurd (h3 f hf) hn
  · intro hch
    unfold panel
    split
    · split
      · rfl
      · dsimp only
        split
        · rfl
        · rfl
    · rfl
  · intro h1 h2 ⟨k, hk, hnone⟩
    cases h : (panel read isFile config choice advance).result with
    | error e => exact ⟨e, rfl⟩
    | ok r =>
      obtain ⟨files, _, _, _, h' | h'⟩ := C74_panel read isFile config choice advance r h
      · obtain ⟨a, b, c, d, _, ha, hb, hc, hd, _⟩ := h'
        simp only [speedKeys, List.mem_cons, List.not_mem_nil, or_false] at hk
        rcases hk with rfl | rfl | rfl | rfl <;> simp_all
      · obtain ⟨_, _, _, had, _⟩ := h'
        rcases had with had | had <;> contradiction

/-- **C74**, the file: it is written only if the list of files is in order, a speed is missing, the user asked for the computation and it succeeded;
and then the four computed bounds are what is written. -/
theorem C74_written (read : Reader) (isFile : String → Bool) (config : Config) (choice advance : String) (w : List (String × Val))
    (h : (panel read isFile config choice advance).written = some w) :
    choice = "1" ∧ (∃ k ∈ speedKeys, ∀ v, get config k = some v → v.asNum = none) ∧
      ∃ files s, files ≠ [] ∧ get config "file_list" = some (.list (files.map .str)) ∧ (∀ f ∈ files, isFile f = true ∧ f.endsWith ".h5" = true) ∧
        speeds read files = .ok s ∧ get w "max_speed_x" = some (.float s.maxX) ∧ get w "max_speed_y" = some (.float s.maxY) ∧
        get w "min_speed_x" = some (.float s.minX) ∧ get w "min_speed_y" = some (.float s.minY) ∧ w.length = 4 := by
  unfold panel at h
  split at h
  swap
  · cases h
  rename_i a l hg
  cases hc : filesCheck isFile (a :: l) with
  | error e => rw [hc] at h; cases h
  | ok files =>
    obtain ⟨h1, h2⟩ := filesCheck_ok.1 hc
    rw [hc] at h
    dsimp only at h
    by_cases hall : (speedKeys.map (fun k => (get config k).getD .none)).all (fun v => v.asNum.isSome) = true
    · rw [if_pos hall] at h; cases h
    rw [if_neg hall] at h
    by_cases hch : choice = "1"
    swap
    · rw [if_neg hch] at h; cases h
    rw [if_pos hch] at h
    cases hs : speeds read files with
    | error e => rw [hs] at h; cases h
    | ok s =>
      rw [hs] at h
      have hw : w = [("min_speed_x", .float s.minX), ("max_speed_x", .float s.maxX), ("min_speed_y", .float s.minY), ("max_speed_y", .float s.maxY)] := by
        dsimp only at h
        split at h <;> exact (Option.some.inj h).symm
      subst hw
      refine ⟨hch, ?_, files, s, ?_, by rw [← h1]; exact hg, h2, hs, rfl, rfl, rfl, rfl, rfl⟩
      · simp only [List.all_eq_true, List.mem_map, forall_exists_index, and_imp, forall_apply_eq_imp_iff₂, not_forall] at hall
        obtain ⟨k, hk, hv⟩ := hall
        refine ⟨k, hk, ?_⟩
        intro v hgv
        rw [hgv] at hv
        cases hn : v.asNum with
        | none => rfl
        | some n => simp [hn] at hv
      · rintro rfl; simp at h1

/-- **C74**, the other direction: what the panel must do for a list of existing `.h5` files. Four configured numbers are returned whatever the
answers; else the user must have chosen the computation and confirmed, and then the computed bounds are returned; a user who does not gets a
`RuntimeError`, and a failing computation its own exception. -/
theorem C74_returns (read : Reader) (isFile : String → Bool) (config : Config) (choice advance : String) (files : List String)
    (hne : files ≠ []) (hl : get config "file_list" = some (.list (files.map .str)))
    (hf : ∀ f ∈ files, isFile f = true ∧ f.endsWith ".h5" = true) :
    (∀ a b c d : Val, get config "max_speed_x" = some a → get config "max_speed_y" = some b → get config "min_speed_x" = some c →
      get config "min_speed_y" = some d → (∀ v ∈ [a, b, c, d], v.asNum.isSome) →
      (panel read isFile config choice advance).result = .ok [a, b, c, d]) ∧
    ((∃ k ∈ ["max_speed_x", "max_speed_y", "min_speed_x", "min_speed_y"], ∀ v, get config k = some v → v.asNum = none) →
      (choice ≠ "1" → (panel read isFile config choice advance).result = .error .runtimeError) ∧
      (choice = "1" → ∀ e, speeds read files = .error e → (panel read isFile config choice advance).result = .error e) ∧
      (choice = "1" → ∀ s, speeds read files = .ok s →
        (panel read isFile config choice advance).written =
          some [("min_speed_x", .float s.minX), ("max_speed_x", .float s.maxX), ("min_speed_y", .float s.minY), ("max_speed_y", .float s.maxY)] ∧
        (advance = "y" ∨ advance = "Y" →
          (panel read isFile config choice advance).result = .ok [.float s.maxX, .float s.maxY, .float s.minX, .float s.minY]) ∧
        (advance ≠ "y" → advance ≠ "Y" → (panel read isFile config choice advance).result = .error .runtimeError))) := by
  have hc : filesCheck isFile (files.map .str) = .ok files := filesCheck_ok.2 ⟨rfl, hf⟩
  obtain ⟨f, fs, rfl⟩ := List.exists_cons_of_ne_nil hne
  constructor
  · intro a b c d ha hb hc' hd hv
    have hall : (speedKeys.map (fun k => (get config k).getD .none)) = [a, b, c, d] := by
      simp [speedKeys, ha, hb, hc', hd]
    have hval : [a, b, c, d].all (fun v => v.asNum.isSome) = true := List.all_eq_true.2 hv
    unfold panel
    rw [hl]
    simp only [List.map_cons] at hc ⊢
    rw [hc]
    dsimp only
    rw [hall, if_pos hval]
  · rintro ⟨k, hk, hmiss⟩
    have hall : ¬ (speedKeys.map (fun k => (get config k).getD .none)).all (fun v => v.asNum.isSome) = true := by
      intro hall
      have := List.all_eq_true.1 hall _ (List.mem_map.2 ⟨k, hk, rfl⟩)
      cases hg : get config k with
      | none => rw [hg] at this; simp [Val.asNum] at this
      | some v => rw [hg] at this; simp [hmiss v hg] at this
    unfold panel
    rw [hl]
    simp only [List.map_cons] at hc ⊢
    rw [hc]
    dsimp only
    rw [if_neg hall]
    refine ⟨fun h => by rw [if_neg h], fun h e he => by rw [if_pos h, he], fun h s hs => ?_⟩
    rw [if_pos h, hs]
    dsimp only
    refine ⟨by split <;> rfl, fun h => by rw [if_pos h], fun h1 h2 => by rw [if_neg (not_or.2 ⟨h1, h2⟩)]⟩

/-- The numbers in the result of the panel. -/
def demoPanel (config : Config) (choice advance : String) : Option (List (Option Num)) :=
  ((panel demoRead (fun _ => true) config choice advance).result.toOption).map (fun l => l.map Val.asNum)

example : demoPanel demoConfig "1" "Y" = some [some (.fin 7), some (.fin 5), some (.fin (-3)), some (.fin (-1))] ∧
    demoPanel demoConfig "1" "n" = none ∧ demoPanel demoConfig "2" "y" = none ∧
    demoPanel (demoConfig ++ [("max_speed_x", .int 1), ("min_speed_y", .int 4), ("min_speed_x", .int 3), ("max_speed_y", .int 2)]) "" "" =
      some [some (.fin 1), some (.fin 2), some (.fin 3), some (.fin 4)] := by
  decide +kernel

end Verif.Sanity
