import Verif.Proofs.Glob
import Verif.Props.Base
import Verif.Props.FormatInit
/-!
# Property C112: a directory in `file_list` stands for the files below it
-/

namespace Verif.Glob
open Verif BaseInit

theorem wanted_iff {p : Pat} {d : String} {items : List (String × Node)} (hp : Plain p items) (hn : Named items) (q : String) :
    q ∈ glob p d items ↔ ∃ comps, Wanted p items comps ∧ q = pathOf d comps := by
  rw [mem_glob]
  constructor
  · rintro ⟨comps, y, h1, h2, h3, rfl⟩
    obtain ⟨n, e, hf⟩ := h2.2
    refine ⟨comps, ⟨?_, ⟨n, e, fnmatch_iff.1 hf⟩, h3⟩, walk_eq (hn.names _ _ h1)⟩
    cases y with
    | file => exact h1
    | dir l => exact absurd (fnmatch_iff.1 hf) (hp.noDir comps l n h1 h3 e)
  · rintro ⟨comps, ⟨h1, ⟨n, e, h2⟩, h3⟩, rfl⟩
    exact ⟨comps, .file, h1, ⟨fun m hm => hidden_iff.2 (hp.visible _ _ h1 m hm), n, e, fnmatch_iff.2 h2⟩, h3, (walk_eq (hn.names _ _ h1)).symm⟩

theorem sorted_part {p : Pat} {d : String} {items : List (String × Node)} (hp : Plain p items) (hn : Named items) :
    Part p ((glob p d items).mergeSort (· ≤ ·)) (d, items) := by
  constructor
  · have hs : ((glob p d items).mergeSort (· ≤ ·)).Pairwise (· ≤ ·) := by
      have := List.pairwise_mergeSort (le := fun (a b : String) => decide (a ≤ b))
        (fun a b c h1 h2 => by simp only [decide_eq_true_eq] at h1 h2 ⊢; exact le_trans h1 h2)
        (fun a b => by simp only [Bool.or_eq_true, decide_eq_true_eq]; exact le_total a b) (glob p d items)
      simpa using this
    have hnd : ((glob p d items).mergeSort (· ≤ ·)).Nodup := (List.mergeSort_perm _ _).nodup_iff.mpr (glob_nodup hn)
    exact (hs.and hnd).imp (fun h => lt_of_le_of_ne h.1 h.2)
  · intro q
    rw [(List.mergeSort_perm _ _).mem_iff]
    exact wanted_iff hp hn q

theorem expand_parts (fs : FS) (p : Pat) (args : List (String × List (String × Node)))
    (hs : ∀ a ∈ args, Shows fs p a.1 a.2) (hn : ∀ a ∈ args, Named a.2) (hp : ∀ a ∈ args, Plain p a.2) :
    ∃ parts, expand fs (args.map Prod.fst) = parts.flatten ∧ List.Forall₂ (Part p) parts args := by
  induction args with
  | nil => exact ⟨[], rfl, .nil⟩
  | cons a r ih =>
    obtain ⟨parts, e, h⟩ := ih (fun b hb => hs b (by simp [hb])) (fun b hb => hn b (by simp [hb])) (fun b hb => hp b (by simp [hb]))
    have ha := hs a (by simp)
    refine ⟨(glob p a.1 a.2).mergeSort (· ≤ ·) :: parts, ?_, .cons (sorted_part (hp a (by simp)) (hn a (by simp))) h⟩
    rw [List.map_cons, expand, if_pos ha.isDir, ha.glob, e, List.flatten_cons]

theorem part_file {fs : FS} {p : Pat} {parts : List (List String)} {args : List (String × List (String × Node))}
    (h : List.Forall₂ (Part p) parts args) {q : String} (hq : q ∈ parts.flatten) :
    ∃ a ∈ args, ∃ comps, Wanted p a.2 comps ∧ q = pathOf a.1 comps := by
  induction h with
  | nil => simp at hq
  | cons h1 _ ih =>
    rcases List.mem_append.mp (List.flatten_cons ▸ hq) with hq | hq
    · obtain ⟨comps, hw, e⟩ := (h1.2 q).mp hq
      exact ⟨_, by simp, comps, hw, e⟩
    · obtain ⟨a, ha, h⟩ := ih hq
      exact ⟨a, by simp [ha], h⟩

theorem part_ne {p : Pat} {parts : List (List String)} {args : List (String × List (String × Node))}
    (h : List.Forall₂ (Part p) parts args) (hw : ∃ a ∈ args, ∃ comps, Wanted p a.2 comps) : parts.flatten ≠ [] := by
  induction h with
  | nil => obtain ⟨a, ha, _⟩ := hw; cases ha
  | cons h1 _ ih =>
    obtain ⟨a, ha, comps, hc⟩ := hw
    rw [List.flatten_cons]
    rcases List.mem_cons.mp ha with rfl | ha
    · have := (h1.2 _).mpr ⟨comps, hc, rfl⟩
      intro e
      rw [(List.append_eq_nil_iff.mp e).1] at this
      cases this
    · intro e
      exact ih ⟨a, ha, comps, hc⟩ (List.append_eq_nil_iff.mp e).2

/-- C112 for the base constructor and any pattern: a list of directories is replaced by the wanted files of the first directory
in increasing order, then those of the second, and so on. A directory is searched at any depth or only directly, as the
pattern says. If there is no such file at all, `ValueError` is raised. What is missing: directories in which a name starts with
`.` or a directory matches the pattern, see `C112_hidden_refuted`, `C112_named_directory_refuted`. -/
theorem C112_directories_partial (fs : FS) (p : Pat) (args : List (String × List (String × Node))) (r lp : Bool)
    (hs : ∀ a ∈ args, Shows fs p a.1 a.2) (hn : ∀ a ∈ args, Named a.2) (hp : ∀ a ∈ args, Plain p a.2) :
    ((∃ a ∈ args, ∃ comps, Wanted p a.2 comps) →
      ∃ parts, init fs (.list ((args.map Prod.fst).map some)) (.bool r) (.bool lp) = .ok (parts.flatten, r, lp) ∧
        List.Forall₂ (Part p) parts args) ∧
    ((¬ ∃ a ∈ args, ∃ comps, Wanted p a.2 comps) →
      init fs (.list ((args.map Prod.fst).map some)) (.bool r) (.bool lp) = .error .valueError) := by
  have hstr : ∀ l : List String, strings (l.map some) = some l := by
    intro l
    induction l with
    | nil => rfl
    | cons a l ih => simp [strings, ih]
  obtain ⟨parts, e, h⟩ := expand_parts fs p args hs hn hp
  have hchk : checkFiles fs parts.flatten = .ok () := by
    have : ∀ q ∈ parts.flatten, fs.isFile q = true := by
      intro q hq
      obtain ⟨a, ha, comps, hw, rfl⟩ := part_file (fs := fs) h hq
      rw [(hs a ha).isFile comps .file hw.1]; rfl
    clear e h
    generalize parts.flatten = l at this ⊢
    induction l with
    | nil => rfl
    | cons q l ih => rw [checkFiles, if_pos (this q (by simp))]; exact ih (fun q' hq' => this q' (by simp [hq']))
  constructor
  · intro hw
    refine ⟨parts, ?_, h⟩
    have hne := part_ne h hw
    have hb : parts.flatten.isEmpty = false := by simpa using hne
    simp only [init, hstr, e, hb, hchk, Bool.false_eq_true, if_false]
  · intro hw
    have : parts.flatten = [] := by
      rw [List.eq_nil_iff_forall_not_mem]
      intro q hq
      obtain ⟨a, ha, comps, hc, _⟩ := part_file (fs := fs) h hq
      exact hw ⟨a, ha, comps, hc⟩
    simp only [init, hstr, e, this, List.isEmpty_nil, if_true]

/-- A name that matches ends in the suffix, and so does a path ending in the name. -/
theorem ends_of_wanted {p : Pat} {items : List (String × Node)} {comps : List String} (d : String)
    (hn : Named items) (hw : Wanted p items comps) : (pathOf d comps).endsWith p.suf = true := by
  have h0 : (pathOf d comps).endsWith p.suf = (pathOf d comps).toSlice.endsWith p.suf := rfl
  rw [h0, String.Slice.endsWith_string_iff, String.copy_toSlice, ← walk_eq (hn.names _ _ hw.1)]
  obtain ⟨h1, ⟨n, e, hf⟩, _⟩ := hw
  have hsuf : p.suf.toList <:+ n.toList := by
    obtain ⟨mid, hm⟩ := hf
    rw [hm]
    exact List.suffix_append _ _
  refine hsuf.trans ?_
  have key : ∀ (comps : List String) (d : String), comps.getLast? = some n → n.toList <:+ (walk d comps).toList := by
    intro comps
    induction comps with
    | nil => intro d h; cases h
    | cons m r ih =>
      intro d h
      cases r with
      | nil =>
        simp only [List.getLast?_singleton, Option.some.injEq] at h
        subst h
        show m.toList <:+ (join d m).toList
        unfold join
        split <;> rw [String.toList_append] <;> exact List.suffix_append _ _
      | cons m' r' => exact ih (join d m) (by rw [← h]; simp)
  exact key comps d e

/-- C112 for the MAT scheduler: directories stand for the `.mat` files below them at any depth. -/
theorem C112_mat_directories_partial (fs : FS) (args : List (String × List (String × Node))) (r lp im : Bool) (h w : Int)
    (hh : 0 < h) (hw : 0 < w)
    (hs : ∀ a ∈ args, Shows fs matPat a.1 a.2) (hn : ∀ a ∈ args, Named a.2) (hp : ∀ a ∈ args, Plain matFiles a.2)
    (hsome : ∃ a ∈ args, ∃ comps, Wanted matFiles a.2 comps) :
    ∃ parts, FormatInit.mat fs (.list ((args.map Prod.fst).map some)) (.bool r) (.bool lp) (.bool im) (.tuple [some h, some w]) =
        .ok (parts.flatten, r, lp) ∧ List.Forall₂ (Part matFiles) parts args := by
  obtain ⟨parts, e, hpt⟩ := (C112_directories_partial fs matPat args r lp hs hn hp).1 hsome
  refine ⟨parts, ?_, hpt⟩
  have hall : parts.flatten.all (fun q => q.endsWith ".mat") = true := by
    rw [List.all_eq_true]
    intro q hq
    obtain ⟨a, ha, comps, hc, rfl⟩ := part_file (fs := fs) hpt hq
    exact ends_of_wanted a.1 (hn a ha) hc
  have hsh : FormatInit.shapeOk (.tuple [some h, some w]) = true := by simp [FormatInit.shapeOk, hh, hw]
  simp only [FormatInit.mat, hsh, if_true, e, hall]

/-- C112 for the NumPy scheduler without images: directories stand for the `flow_*.npy` files directly in them. -/
theorem C112_numpy_directories_partial (fs : FS) (args : List (String × List (String × Node))) (r lp : Bool)
    (hs : ∀ a ∈ args, Shows fs npPat a.1 a.2) (hn : ∀ a ∈ args, Named a.2) (hp : ∀ a ∈ args, Plain flowFiles a.2)
    (hsome : ∃ a ∈ args, ∃ comps, Wanted flowFiles a.2 comps) :
    ∃ parts, FormatInit.numpy fs (.list ((args.map Prod.fst).map some)) (.bool r) (.bool lp) (.bool false) =
        .ok (parts.flatten, r, lp) ∧ List.Forall₂ (Part flowFiles) parts args := by
  obtain ⟨parts, e, hpt⟩ := (C112_directories_partial fs npPat args r lp hs hn hp).1 hsome
  refine ⟨parts, ?_, hpt⟩
  have hall : parts.flatten.all (fun q => q.endsWith ".npy") = true := by
    rw [List.all_eq_true]
    intro q hq
    obtain ⟨a, ha, comps, hc, rfl⟩ := part_file (fs := fs) hpt hq
    exact ends_of_wanted a.1 (hn a ha) hc
  simp only [FormatInit.numpy, e, hall, if_true, Bool.false_eq_true, if_false]

/-! Demonstration: two levels, an unrelated file, and a directory without files. -/

/-- A directory as the tests of the project lay it out. -/
def demoTree : List (String × Node) :=
  [("b.mat", .file), ("seq", .dir [("z.mat", .file), ("a.mat", .file), ("deep", .dir [("c.mat", .file)])]),
   ("notes.txt", .file), ("empty", .dir [])]

mutual
/-- Whether all names below an entry are good and different, and a check of all names. -/
def checkItem (f : Bool → String → Bool) : Node → Bool
  | .file => true
  | .dir l => decide ((l.map Prod.fst).Nodup) && checkItems f l

/-- The same for the entries of a directory. -/
def checkItems (f : Bool → String → Bool) : List (String × Node) → Bool
  | [] => true
  | (n, x) :: r => decide (n ≠ "" ∧ '/' ∉ n.toList) && f x.isFile n && checkItem f x && checkItems f r
end

theorem check_at {f : Bool → String → Bool} {items comps x} (h : At items comps x) (hc : checkItems f items = true) :
    (∀ n ∈ comps, n ≠ "" ∧ '/' ∉ n.toList) ∧ (∀ l, x = .dir l → (l.map Prod.fst).Nodup) ∧
    (∀ n, comps.getLast? = some n → f x.isFile n = true) := by
  have mem : ∀ {items : List (String × Node)} {n x}, (n, x) ∈ items → checkItems f items = true →
      (n ≠ "" ∧ '/' ∉ n.toList) ∧ f x.isFile n = true ∧ checkItem f x = true := by
    intro items n x hm hc
    induction items with
    | nil => cases hm
    | cons a r ih =>
      obtain ⟨m, y⟩ := a
      rw [checkItems] at hc
      simp only [Bool.and_eq_true, decide_eq_true_eq] at hc
      rcases List.mem_cons.mp hm with e | hm
      · simp only [Prod.mk.injEq] at e
        obtain ⟨rfl, rfl⟩ := e
        exact ⟨hc.1.1.1, hc.1.1.2, hc.1.2⟩
      · exact ih hm hc.2
  induction h with
  | here hm =>
    have h := mem hm hc
    refine ⟨by simpa using h.1, ?_, ?_⟩
    · rintro l rfl
      have := h.2.2
      rw [checkItem] at this
      simp only [Bool.and_eq_true, decide_eq_true_eq] at this
      exact this.1
    · intro n e
      simp only [List.getLast?_singleton, Option.some.injEq] at e
      exact e ▸ h.2.1
  | down hm hat ih =>
    have h := mem hm hc
    have hd := h.2.2
    rw [checkItem] at hd
    simp only [Bool.and_eq_true, decide_eq_true_eq] at hd
    have i := ih hd.2
    refine ⟨?_, i.2.1, ?_⟩
    · intro n hn
      rcases List.mem_cons.mp hn with rfl | hn
      · exact h.1
      · exact i.1 n hn
    · intro n e
      refine i.2.2 n ?_
      rw [List.getLast?_cons] at e
      rename_i comps' _
      cases e' : comps'.getLast? with
      | none => exact absurd (List.getLast?_eq_none_iff.mp e') hat.comps_ne
      | some m => rw [e'] at e; simpa using e

theorem named_of_check {f : Bool → String → Bool} {items} (h1 : (items.map Prod.fst).Nodup) (hc : checkItems f items = true) : Named items where
  distinct l h := by
    rcases h with rfl | ⟨comps, h⟩
    · exact h1
    · exact (check_at h hc).2.1 l rfl
  names comps x h := (check_at h hc).1

theorem visible_of_check {items comps x} (h : At items comps x) (hc : checkItems (fun _ n => !hidden n) items = true) :
    ∀ n ∈ comps, hidden n = false := by
  have mem : ∀ {items : List (String × Node)} {n x}, (n, x) ∈ items → checkItems (fun _ n => !hidden n) items = true →
      hidden n = false ∧ checkItem (fun _ n => !hidden n) x = true := by
    intro items n x hm hc
    have := (check_at (.here hm) hc).2.2 n (by simp)
    refine ⟨by simpa using this, ?_⟩
    induction items with
    | nil => cases hm
    | cons a r ih =>
      obtain ⟨m, y⟩ := a
      rw [checkItems] at hc
      simp only [Bool.and_eq_true] at hc
      rcases List.mem_cons.mp hm with e | hm
      · simp only [Prod.mk.injEq] at e
        obtain ⟨rfl, rfl⟩ := e
        exact hc.1.2
      · exact ih hm hc.2
  induction h with
  | here hm => simpa using (mem hm hc).1
  | down hm hat ih =>
    have h := mem hm hc
    have hd := h.2
    rw [checkItem] at hd
    simp only [Bool.and_eq_true] at hd
    intro n hn
    rcases List.mem_cons.mp hn with rfl | hn
    · exact h.1
    · exact ih hd.2 n hn

theorem plain_of_check {p : Pat} {items} (h1 : checkItems (fun _ n => !hidden n) items = true)
    (h2 : checkItems (fun isFile n => isFile || !fnmatch p n) items = true) : Plain p items where
  visible _ _ h n hn := hidden_iff.1 (visible_of_check h h1 n hn)
  noDir comps l n h _ e := by
    have := (check_at h h2).2.2 n e
    exact fnmatch_false_iff.1 (by simpa [Node.isFile] using this)

theorem demo_named : Named demoTree := named_of_check (f := fun _ _ => true) (by decide +kernel) (by decide +kernel)

theorem demo_plain : Plain matFiles demoTree := plain_of_check (by decide +kernel) (by decide +kernel)

/-- The hypotheses of C112 are met by this directory, with files at three depths. -/
example : Shows (treeFS matPat "data" demoTree) matPat "data" demoTree ∧ Named demoTree ∧ Plain matFiles demoTree ∧
    Wanted matFiles demoTree ["seq", "deep", "c.mat"] :=
  ⟨treeFS_shows _ _ _ demo_named, demo_named, demo_plain,
    .down (n := "seq") (l := [("z.mat", .file), ("a.mat", .file), ("deep", .dir [("c.mat", .file)])]) (by simp [demoTree])
      (.down (l := [("c.mat", .file)]) (by simp) (.here (by simp))), ⟨"c.mat", rfl, "c".toList, by decide +kernel⟩, Or.inl rfl⟩

/-- What is found there, before sorting. -/
example : glob matPat "data" demoTree = ["data/b.mat", "data/seq/z.mat", "data/seq/a.mat", "data/seq/deep/c.mat"] := by
  decide +kernel

/-- C112 does not hold as stated, first: a file in a directory whose name starts with `.` is not found, and neither is a file
whose name starts with `.`. -/
theorem C112_hidden_refuted :
    ∃ items, Named items ∧ Wanted matFiles items [".cache", "a.mat"] ∧ Wanted matFiles items [".b.mat"] ∧
      glob matPat "data" items = ["data/c.mat"] ∧
      init (treeFS matPat "data" items) (.list [some "data/c.mat", some "data/.cache/a.mat"]) (.bool false) (.bool false) =
        .ok (["data/c.mat", "data/.cache/a.mat"], false, false) := by
  refine ⟨[(".cache", .dir [("a.mat", .file)]), (".b.mat", .file), ("c.mat", .file)], ?_, ?_, ?_, ?_, ?_⟩
  · exact named_of_check (f := fun _ _ => true) (by decide +kernel) (by decide +kernel)
  · exact ⟨.down (l := [("a.mat", .file)]) (by simp) (.here (by simp)), ⟨"a.mat", rfl, "a".toList, by decide +kernel⟩, Or.inl rfl⟩
  · exact ⟨.here (by simp), ⟨".b.mat", rfl, ".b".toList, by decide +kernel⟩, Or.inl rfl⟩
  · decide +kernel
  · rfl

/-- C112 does not hold as stated, second: if a directory below has a name that ends in `.mat`, the constructor raises
`ValueError`, although there are files to use. -/
theorem C112_named_directory_refuted (r lp : Bool) :
    ∃ items, Named items ∧ Wanted matFiles items ["a.mat"] ∧
      init (treeFS matPat "data" items) (.list [some "data"]) (.bool r) (.bool lp) = .error .valueError := by
  refine ⟨[("a.mat", .file), ("runs.mat", .dir [])], ?_, ?_, ?_⟩
  · exact named_of_check (f := fun _ _ => true) (by decide +kernel) (by decide +kernel)
  · exact ⟨.here (by simp), ⟨"a.mat", rfl, "a".toList, by decide +kernel⟩, Or.inl rfl⟩
  · have hc := (C10_constructor_accepts (treeFS matPat "data" [("a.mat", .file), ("runs.mat", .dir [])]) (.list [some "data"]) (.bool r) (.bool lp))
    cases e : init (treeFS matPat "data" [("a.mat", .file), ("runs.mat", .dir [])]) (.list [some "data"]) (.bool r) (.bool lp) with
    | error x => rw [hc.2 x e]
    | ok q =>
      exfalso
      obtain ⟨fl, r', lp'⟩ := q
      obtain ⟨_, _, l, hl, hex, _, hf⟩ := (hc.1 fl r' lp').mp e
      have hl' : l = ["data"] := by
        cases l with
        | nil => simp at hl
        | cons a l => cases l with
          | nil => simp at hl; rw [hl]
          | cons => simp at hl
      subst hl'
      cases hex with
      | file h _ => simp [treeFS] at h
      | dir found _ hperm _ _ =>
        have hm : "data/runs.mat" ∈ found := by
          rw [hperm.mem_iff]
          have : (treeFS matPat "data" [("a.mat", .file), ("runs.mat", .dir [])]).glob "data" = ["data/a.mat", "data/runs.mat"] := by decide +kernel
          rw [this]; simp
        have := hf _ (List.mem_append_left _ hm)
        have h2 : (treeFS matPat "data" [("a.mat", .file), ("runs.mat", .dir [])]).isFile "data/runs.mat" = false := by decide +kernel
        rw [h2] at this
        cases this

/-- C112 does not hold as stated, third: the HDF5 scheduler refuses every directory that is not itself named `*.h5`, whatever
it contains. -/
theorem C112_h5_directory_refuted (fs : FS) (d : String) (randomize loop : Val) (hd : d.endsWith ".h5" = false) :
    FormatInit.hdf5 fs (.list [some d]) randomize loop = .error .valueError := by
  cases e : FormatInit.hdf5 fs (.list [some d]) randomize loop with
  | error x => rw [(FormatInit.C86_hdf5_constructor_partial fs _ randomize loop).2 x e]
  | ok q =>
    exfalso
    unfold FormatInit.hdf5 at e
    cases hi : init fs (.list [some d]) randomize loop with
    | error x => rw [hi] at e; cases e
    | ok q' => rw [hi] at e; simp [strings, Formats.h5Check, hd] at e

/-- C112 does not hold as stated, fourth: the NumPy scheduler does not look into subdirectories. -/
theorem C112_numpy_depth_refuted :
    ∃ items, Named items ∧ At items ["seq", "flow_1.npy"] .file ∧ Matches flowFiles "flow_1.npy" ∧
      ∀ r lp, FormatInit.numpy (treeFS npPat "data" items) (.list [some "data"]) (.bool r) (.bool lp) (.bool false) = .error .valueError := by
  refine ⟨[("seq", .dir [("flow_1.npy", .file)])], ?_, ?_, ?_, ?_⟩
  · exact named_of_check (f := fun _ _ => true) (by decide +kernel) (by decide +kernel)
  · exact .down (l := [("flow_1.npy", .file)]) (by simp) (.here (by simp))
  · exact ⟨"1".toList, by decide +kernel⟩
  · intro r lp
    have hg : glob npPat "data" [("seq", .dir [("flow_1.npy", .file)])] = [] := by decide +kernel
    simp [FormatInit.numpy, init, strings, expand, treeFS, hg]

end Verif.Glob
