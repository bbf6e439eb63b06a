import Verif.Model.SanityCrash
import Verif.Props.SanityMain
/-!
# A sanity script that is interrupted while it writes the configuration file (C147)
-/

namespace Verif.SanityCrash
open Verif Sanity Verif.Spec

theorem entriesOf_append (a b : List Line) : entriesOf (a ++ b) = entriesOf a ++ entriesOf b := List.filterMap_append
theorem itemsOf_append (a b : List Line) : itemsOf (a ++ b) = itemsOf a ++ itemsOf b := List.filterMap_append

theorem entriesOf_entries (E : List (String × String)) : entriesOf (E.map (fun e => .entry e.1 e.2)) = E := by
  unfold entriesOf
  rw [List.filterMap_map]
  exact List.filterMap_some

theorem itemsOf_entries (E : List (String × String)) : itemsOf (E.map (fun e => .entry e.1 e.2)) = [] := by
  unfold itemsOf
  rw [List.filterMap_map]
  exact List.filterMap_eq_nil_iff.2 (fun _ _ => rfl)

theorem entriesOf_items (I : List String) : entriesOf (I.map .item) = [] := by
  unfold entriesOf
  rw [List.filterMap_map]
  exact List.filterMap_eq_nil_iff.2 (fun _ _ => rfl)

theorem itemsOf_items (I : List String) : itemsOf (I.map .item) = I := by
  unfold itemsOf
  rw [List.filterMap_map]
  exact List.filterMap_some

/-- The items that are written. -/
def items (f : File) : List String := f.fileList.getD []

theorem take_lines (f : File) (n : Nat) : entriesOf ((lines f).take n) = f.entries.take n ∧
    itemsOf ((lines f).take n) = (items f).take (n - f.entries.length - 1) ∧ .junk ∉ (lines f).take n ∧
    (.header ∈ (lines f).take n ↔ f.fileList.isSome = true ∧ f.entries.length < n) := by
  have m1 : ∀ (E : List (String × String)) (l : Line), l = .junk ∨ l = .header → l ∉ E.map (fun e => Line.entry e.1 e.2) := by
    intro E l hl hm
    obtain ⟨e, _, rfl⟩ := List.mem_map.1 hm
    rcases hl with h | h <;> cases h
  have m2 : ∀ (I : List String), Line.junk ∉ I.map Line.item := by
    intro I hm
    obtain ⟨e, _, h⟩ := List.mem_map.1 hm
    cases h
  unfold lines items
  rw [List.take_append, ← List.map_take, entriesOf_append, itemsOf_append, entriesOf_entries, itemsOf_entries, List.length_map]
  cases f.fileList with
  | none => simp [entriesOf, itemsOf, m1 (f.entries.take n), -List.map_take]
  | some I =>
    rcases Nat.lt_or_ge f.entries.length n with h | h
    · obtain ⟨j, hj⟩ : ∃ j, n - f.entries.length = j + 1 := ⟨n - f.entries.length - 1, by omega⟩
      rw [hj]
      simp only [List.take_succ_cons, ← List.map_take]
      have e1 : entriesOf (Line.header :: (I.take j).map .item) = entriesOf ((I.take j).map .item) := rfl
      have e2 : itemsOf (Line.header :: (I.take j).map .item) = itemsOf ((I.take j).map .item) := rfl
      rw [e1, e2, entriesOf_items, itemsOf_items]
      simp [h, m1 (f.entries.take n), m2 (I.take j), -List.map_take]
    · have : n - f.entries.length = 0 := by omega
      simp only [this, List.take_zero, Option.getD_some, Nat.zero_sub]
      refine ⟨by simp [entriesOf], by simp [itemsOf], by rw [List.append_nil]; exact m1 _ _ (.inl rfl), ?_⟩
      rw [List.append_nil]
      exact ⟨fun hm => absurd hm (m1 _ _ (.inr rfl)), fun hm => absurd hm.2 (by omega)⟩

theorem get_take (parse : String → Val) (E : List (String × String)) (n : Nat) (k : String) :
    get ((E.take n).map (fun e => (e.1, parse e.2))) k = none ∨
      get ((E.take n).map (fun e => (e.1, parse e.2))) k = get (E.map (fun e => (e.1, parse e.2))) k := by
  conv => rhs; rhs; rw [← List.take_append_drop n E, List.map_append]
  unfold Sanity.get
  rw [List.find?_append]
  cases h : List.find? (fun e => e.1 == k) ((E.take n).map (fun e => (e.1, parse e.2))) with
  | none => left; rfl
  | some e => right; rfl

theorem get_append_single (c : Config) {k k0 : String} (v : Val) (h : k ≠ k0) : get (c ++ [(k0, v)]) k = get c k := by
  unfold Sanity.get
  rw [List.find?_append]
  have : (List.find? (fun e : String × Val => e.1 == k) [(k0, v)]) = none := by simp [Ne.symm h]
  rw [this, Option.or_none]

theorem get_append_new (c : Config) {k0 : String} (v : Val) (h : ∀ e ∈ c, e.1 ≠ k0) : get (c ++ [(k0, v)]) k0 = some v := by
  unfold Sanity.get
  rw [List.find?_append]
  have : c.find? (fun e => e.1 == k0) = none := by
    rw [List.find?_eq_none]
    intro e he
    simpa using h e he
  rw [this]
  simp

/-- What is written has no other entry for the files. -/
theorem entries_files (text : Val → String) (config updates : Config) : ∀ e ∈ (update text config updates).entries, e.1 ≠ "file_list" := by
  intro e he
  simp only [update, List.mem_map, List.mem_filter] at he
  obtain ⟨e', ⟨_, h2⟩, rfl⟩ := he
  simpa using h2

theorem fileList_ne (text : Val → String) (config updates : Config) : (update text config updates).fileList ≠ some [] := by
  simp only [update, fileListBlock]
  split <;> simp

/-- Read undisturbed, the file is what `Sanity.load` says. -/
theorem readLines_lines (text : Val → String) (parse : String → Val) (config updates : Config) :
    readLines parse (lines (update text config updates)) = some (load parse (update text config updates)) := by
  have hne := fileList_ne text config updates
  generalize update text config updates = f at hne
  have h := take_lines f (lines f).length
  rw [List.take_length] at h
  obtain ⟨h1, h2, h3, h4⟩ := h
  unfold readLines load
  rw [if_neg h3, h1, h2]
  cases hf : f.fileList with
  | none =>
    have hlen : f.entries.length ≤ (lines f).length := by simp [lines]
    simp [h4, hf, List.take_of_length_le hlen]
  | some I =>
    have hlen : (lines f).length = f.entries.length + (I.length + 1) := by simp [lines, hf]
    have hI : I ≠ [] := fun e => hne (e ▸ hf)
    have e1 : (lines f).length - f.entries.length - 1 = I.length := by omega
    rw [if_pos (h4.2 ⟨by rw [hf]; rfl, by omega⟩), e1]
    have e2 : f.entries.take (lines f).length = f.entries := List.take_of_length_le (by omega)
    have e3 : (items f).take I.length = I := by simp [items, hf]
    rw [e2, e3, if_neg hI]

theorem get_load_entries (parse : String → Val) (f : File) {k : String} (hk : k ≠ "file_list") :
    get (load parse f) k = get (f.entries.map (fun e => (e.1, parse e.2))) k := by
  unfold load
  cases f.fileList with
  | none => rw [List.append_nil]
  | some I => exact get_append_single _ _ hk

/-- **C147** (partial): the program may stop at any point. If the file is then a configuration, it is the former one; or every key but one (that of a line torn apart, none
if lines are complete) has its new value or is missing. Missing in full: the file may be empty, unreadable, without keys, with a torn value or with fewer files. -/
theorem C147_nothing_foreign_partial (text : Val → String) (parse : String → Val) (config updates : Config) (old ls : List Line)
    (h : Crash old (update text config updates) ls) (d : Config) (hd : readLines parse ls = some d) :
    ls = old ∨ (∀ k, k ≠ "file_list" → get d k = none ∨ get d k = get (load parse (update text config updates)) k) ∨
      ∃ n k0 t t', (lines (update text config updates))[n]? = some (.entry k0 t) ∧ ls = (lines (update text config updates)).take n ++ [.entry k0 t'] ∧
        t'.toList <+: t.toList ∧ ∀ k, k ≠ "file_list" → k ≠ k0 → get d k = none ∨ get d k = get (load parse (update text config updates)) k := by
  generalize hf : update text config updates = f at *
  have hnone : ∀ (ls : List Line) (k : String), k ≠ "file_list" → ∀ d, readLines parse ls = some d → get d k = get ((entriesOf ls).map (fun e => (e.1, parse e.2))) k := by
    intro ls k hk d hd
    unfold readLines at hd
    split at hd
    · cases hd
    · simp only [Option.some.injEq] at hd
      subst hd
      split
      · exact get_append_single _ _ hk
      · rw [List.append_nil]
  cases h with
  | before => exact .inl rfl
  | lines n =>
    refine .inr (.inl fun k hk => ?_)
    rw [hnone _ k hk d hd, get_load_entries parse f hk, (take_lines f n).1]
    exact get_take parse f.entries n k
  | torn n l t hl ht =>
    right
    cases ht with
    | key k0 t =>
      exfalso
      unfold readLines at hd
      rw [if_pos (by simp)] at hd
      cases hd
    | header =>
      exfalso
      unfold readLines at hd
      rw [if_pos (by simp)] at hd
      cases hd
    | item t t' hp =>
      refine .inl fun k hk => ?_
      rw [hnone _ k hk d hd, get_load_entries parse f hk, entriesOf_append, (take_lines f n).1]
      have : entriesOf [Line.item t'] = [] := rfl
      rw [this, List.append_nil]
      exact get_take parse f.entries n k
    | value k0 t t' hp =>
      refine .inr ⟨n, k0, t, t', hl, rfl, hp, fun k hk hk0 => ?_⟩
      rw [hnone _ k hk d hd, get_load_entries parse f hk, entriesOf_append, (take_lines f n).1]
      have : entriesOf [Line.entry k0 t'] = [(k0, t')] := rfl
      rw [this, List.map_append, List.map_singleton, get_append_single _ _ hk0]
      exact get_take parse f.entries n k

/-- **C147**, a stop that is noticed: as long as no file of the list has been written, the sanity script refuses what is left with a `ValueError` and writes nothing. -/
theorem C147_noticed (text : Val → String) (parse : String → Val) (config updates : Config) (old ls : List Line) (h : Crash old (update text config updates) ls) (hold : ls ≠ old)
    (hno : itemsOf ls = []) (d : Config) (hd : readLines parse ls = some d) (read : Reader) (isFile : String → Bool) (choice advance : String) :
    panel read isFile d choice advance = { result := .error .valueError, written := none } := by
  have hE : ∀ e ∈ entriesOf ls, e.1 ≠ "file_list" := by
    have hent := entries_files text config updates
    generalize update text config updates = f at *
    cases h with
    | before => exact absurd rfl hold
    | lines n =>
      rw [(take_lines f n).1]
      exact fun e he => hent e (List.mem_of_mem_take he)
    | torn n l t hl ht =>
      rw [entriesOf_append, (take_lines f n).1]
      intro e he
      rcases List.mem_append.1 he with he | he
      · exact hent e (List.mem_of_mem_take he)
      · cases ht with
        | key => simp [entriesOf] at he
        | header => simp [entriesOf] at he
        | item => simp [entriesOf] at he
        | value k0 t t' hp =>
          simp only [entriesOf, List.filterMap_cons, List.filterMap_nil, List.mem_singleton] at he
          subst he
          have hmem : Line.entry k0 t ∈ lines f := List.mem_of_getElem? hl
          have : (k0, t) ∈ f.entries := by
            simp only [lines, List.mem_append, List.mem_map] at hmem
            rcases hmem with ⟨e1, he1, h1⟩ | hmem
            · cases h1; exact he1
            · cases hfl : f.fileList with
              | none => rw [hfl] at hmem; simp at hmem
              | some I => rw [hfl] at hmem; simp at hmem
          exact hent (k0, t) this
  have hget : get d "file_list" = none ∨ get d "file_list" = some .none := by
    unfold readLines at hd
    split at hd
    · cases hd
    · simp only [Option.some.injEq, hno, if_true] at hd
      subst hd
      have hE' : ∀ e ∈ (entriesOf ls).map (fun e => (e.1, parse e.2)), e.1 ≠ "file_list" := by
        intro e he
        simp only [List.mem_map] at he
        obtain ⟨e', he', rfl⟩ := he
        exact hE e' he'
      split
      · right; exact get_append_new _ _ hE'
      · left
        rw [List.append_nil]
        unfold Sanity.get
        rw [Option.map_eq_none_iff, List.find?_eq_none]
        intro e he
        simpa using hE' e he
  unfold panel
  rcases hget with h | h <;> rw [h]

/-- **C147** fails, and not only in that the file may be lost: for every list of at least two files there are points at which a stop leaves a configuration with all other keys
as they should be, but with the first `j` files only. -/
theorem C147_refuted (text : Val → String) (parse : String → Val) (config updates : Config) (hu : (updates.map Prod.fst).Nodup) (vs : List Val)
    (hl : updated config updates "file_list" = some (.list vs)) (old : List Line) (j : Nat) (h1 : 1 ≤ j) (h2 : j < vs.length) :
    ∃ ls d, Crash old (update text config updates) ls ∧ readLines parse ls = some d ∧
      (∀ k, k ≠ "file_list" → get d k = get (load parse (update text config updates)) k) ∧
      get d "file_list" = some (.list ((vs.take j).map (fun v => parse (text v)))) := by
  have hfl : (update text config updates).fileList = some (vs.map text) := by
    unfold update
    dsimp only
    rw [get_foldl_set _ hu, hl]
    cases vs with
    | nil => simp at h2
    | cons a l => rfl
  have hent := entries_files text config updates
  generalize update text config updates = f at *
  obtain ⟨e1, e2, e3, e4⟩ := take_lines f (f.entries.length + 1 + j)
  have e5 : f.entries.length + 1 + j - f.entries.length - 1 = j := by omega
  have e6 : (items f).take j = (vs.take j).map text := by simp [items, hfl]
  have e7 : f.entries.take (f.entries.length + 1 + j) = f.entries := List.take_of_length_le (by omega)
  have e8 : (vs.take j).map text ≠ [] := by
    intro e
    have := congrArg List.length e
    rw [List.length_map, List.length_take, List.length_nil] at this
    omega
  rw [e5, e6] at e2
  rw [e7] at e1
  refine ⟨_, f.entries.map (fun e => (e.1, parse e.2)) ++ [("file_list", .list (((vs.take j).map text).map parse))], .lines (f.entries.length + 1 + j), ?_, ?_, ?_⟩
  · unfold readLines
    rw [if_neg e3, e1, e2, if_pos (e4.2 ⟨by rw [hfl]; rfl, by omega⟩), if_neg e8]
  · intro k hk
    rw [get_load_entries parse f hk, get_append_single _ _ hk]
  · rw [get_append_new]
    · rw [List.map_map]; rfl
    · intro e he
      simp only [List.mem_map] at he
      obtain ⟨e', he', rfl⟩ := he
      exact hent e' he'

/-- Without an entry there is no value. -/
theorem get_none_of {c : Config} {k : String} (h : ∀ e ∈ c, e.1 ≠ k) : get c k = none := by
  unfold Sanity.get
  rw [Option.map_eq_none_iff, List.find?_eq_none]
  intro e he
  simpa using h e he

/-- **C147** fails also right after the file is opened: everything is lost, whatever it was. -/
theorem C147_refuted_empty (text : Val → String) (parse : String → Val) (config updates : Config) (old : List Line) :
    Crash old (update text config updates) [] ∧ readLines parse [] = some [] := by
  refine ⟨?_, rfl⟩
  have := Crash.lines (old := old) (f := update text config updates) 0
  simpa using this

/-- And it goes unnoticed: after such a stop the script, run again, asks nothing, writes nothing and returns the computed speeds, for a list that has lost its last files. -/
theorem C147_unnoticed (text : Val → String) (parse : String → Val) (config : Config) (read : Reader) (isFile : String → Bool) (choice advance : String)
    (files : List String) (hfiles : get config "file_list" = some (.list (files.map .str))) (s : Speeds) (hspeeds : speeds read files = .ok s)
    (updates : Config) (hw : (panel read isFile config choice advance).written = some updates)
    (hback : ∀ v, v ∈ files.map Val.str ∨ (∃ x ∈ [s.minX, s.maxX, s.minY, s.maxY], v = .float x) → parse (text v) = v)
    (old : List Line) (j : Nat) (h1 : 1 ≤ j) (h2 : j < files.length) (choice' advance' : String) :
    ∃ ls d, Crash old (update text config updates) ls ∧ readLines parse ls = some d ∧ get d "file_list" = some (.list ((files.take j).map .str)) ∧
      panel read isFile d choice' advance' = { result := .ok [.float s.maxX, .float s.maxY, .float s.minX, .float s.minY], written := none } := by
  have hne : files ≠ [] := by rintro rfl; simp at h2
  obtain ⟨hok, hup⟩ := SanityMain.panel_written hne hfiles hspeeds hw
  have hnd : (updates.map Prod.fst).Nodup := by rw [hup]; simp
  obtain ⟨ls, d, c1, c2, c3, c4⟩ := C147_refuted text parse config updates hnd (files.map .str) (by unfold updated; rw [hup]; exact hfiles) old j h1 (by simpa using h2)
  have c5 : get d "file_list" = some (.list ((files.take j).map .str)) := by
    rw [c4, ← List.map_take, List.map_map]
    congr 2
    refine List.map_congr_left (fun f hf => hback _ (.inl (List.mem_map_of_mem (List.mem_of_mem_take hf))))
  refine ⟨ls, d, c1, c2, c5, ?_⟩
  have hg : ∀ k x, k ≠ "file_list" → updated config updates k = some (.float x) → x ∈ [s.minX, s.maxX, s.minY, s.maxY] → get d k = some (.float x) := by
    intro k x hk hx hm
    rw [c3 k hk, C68_entries_partial text parse config updates hnd k hk (fun v hv => ?_), hx]
    rw [hx] at hv
    cases hv
    exact hback _ (.inr ⟨x, hm, rfl⟩)
  have e1 := hg "max_speed_x" s.maxX (by decide) (by rw [hup]; rfl) (by simp)
  have e2 := hg "max_speed_y" s.maxY (by decide) (by rw [hup]; rfl) (by simp)
  have e3 := hg "min_speed_x" s.minX (by decide) (by rw [hup]; rfl) (by simp)
  have e4 := hg "min_speed_y" s.minY (by decide) (by rw [hup]; rfl) (by simp)
  unfold panel
  rw [c5]
  cases files with
  | nil => exact absurd rfl hne
  | cons f fs =>
    obtain ⟨j, rfl⟩ : ∃ i, j = i + 1 := ⟨j - 1, by omega⟩
    simp only [List.take_succ_cons, List.map_cons]
    have hc : filesCheck isFile (.str f :: (fs.take j).map .str) = .ok (f :: fs.take j) := filesCheck_ok.2 ⟨rfl, fun g hg => hok g (by
      rcases List.mem_cons.1 hg with rfl | hg
      · simp
      · exact List.mem_cons_of_mem _ (List.mem_of_mem_take hg))⟩
    rw [hc]
    simp only [speedKeys, List.map_cons, List.map_nil, e1, e2, e3, e4, Option.getD_some, Val.asNum, List.all_cons, List.all_nil, Option.isSome_some, Bool.and_self, if_true]

/-- Two files and two settings: stopped in the first value, between the two files. -/
example : Crash [] (update demoText demoConfig [("seed", .int 7)]) [.entry "seed" ""] ∧
    (readLines demoParse [.entry "seed" "7", .entry "name" "x", .header, .item "a.h5"]).map (fun d => (get d "file_list").map (fun v => match v with | .list l => l.length | _ => 0)) = some (some 1) ∧
    lines (update demoText demoConfig [("seed", .int 7)]) = [.entry "seed" "7", .entry "name" "x", .header, .item "a.h5", .item "b.h5"] := by
  refine ⟨?_, ?_, ?_⟩
  · exact Crash.torn 0 (.entry "seed" "7") (.entry "seed" "") rfl (.value _ _ _ (by simp))
  · rfl
  · rfl

end Verif.SanityCrash
