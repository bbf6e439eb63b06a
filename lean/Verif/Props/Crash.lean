import Verif.Model.Crash
import Verif.Props.Scripts
/-!
# C103-C105: interrupted runs of the dataset scripts
-/

namespace Verif.Crash
open Verif Scripts

section lemmas
variable {K V : Type} [DecidableEq K]

theorem apply_append (d : Disk K V) (a b : List (K × V)) : apply d (a ++ b) = apply (apply d a) b := List.foldl_append

theorem apply_cons (d : Disk K V) (w : K × V) (b : List (K × V)) : apply d (w :: b) = apply (put d w) b := rfl

theorem apply_of_not_mem (ws : List (K × V)) : ∀ (d : Disk K V) (k : K), k ∉ ws.map Prod.fst → apply d ws k = d k := by
  induction ws with
  | nil => intro d k _; rfl
  | cons w ws ih =>
    intro d k hk
    simp only [List.map_cons, List.mem_cons, not_or] at hk
    rw [apply_cons, ih _ _ hk.2]
    exact if_neg hk.1

theorem apply_congr (ws : List (K × V)) : ∀ (d d' : Disk K V) (k : K), (k ∉ ws.map Prod.fst → d k = d' k) → apply d ws k = apply d' ws k := by
  induction ws with
  | nil => intro d d' k h; exact h (by simp)
  | cons w ws ih =>
    intro d d' k h
    rw [apply_cons, apply_cons]
    refine ih _ _ k fun hk => ?_
    unfold put
    by_cases he : k = w.1
    · rw [if_pos he, if_pos he]
    · rw [if_neg he, if_neg he]
      exact h (by simp [he, hk])

/-- What a disk has after writes is new or was there before. -/
theorem mem_or_of_apply (ws : List (K × V)) (d : Disk K V) (k : K) (h : apply d ws k ≠ none) : k ∈ ws.map Prod.fst ∨ d k ≠ none := by
  by_cases hk : k ∈ ws.map Prod.fst
  · exact .inl hk
  · rw [apply_of_not_mem ws d k hk] at h
    exact .inr h

/-- Writes that cover what is on the disk leave the same as on an empty disk. -/
theorem apply_cover (ws : List (K × V)) (d : Disk K V) (h : ∀ k, d k ≠ none → k ∈ ws.map Prod.fst) : apply d ws = apply (fun _ => none) ws := by
  funext k
  refine apply_congr ws _ _ k fun hk => ?_
  by_contra hne
  exact hk (h k hne)

omit [DecidableEq K] in
theorem take_keys (ws : List (K × V)) (n : Nat) (k : K) (h : k ∈ (ws.take n).map Prod.fst) : k ∈ ws.map Prod.fst := by
  rw [List.map_take] at h
  exact List.mem_of_mem_take h

end lemmas

/-! ## C103: the script for class 2 -/

section class2
variable {α : Type}

theorem extract_keys (archive : Archive α) (k : Key) : k ∈ (extract archive).map Prod.fst ↔ ∃ m ∈ archive, k = .raw m.1 := by
  unfold extract
  simp only [List.map_flatMap, List.mem_flatMap, List.map_cons, List.map_nil, List.mem_cons, List.not_mem_nil, or_false, or_self]

theorem packOne_keys (name : List Char) (l : List (Record α)) (k : Key) (h : k ∈ (packOne name l).map Prod.fst) : ∃ s i, k = .packed s i := by
  unfold packOne at h
  cases hs : subdir name with
  | none => simp [hs] at h
  | some s =>
    simp only [hs, List.map_flatMap, List.mem_flatMap, List.map_cons, List.map_nil, List.mem_cons, List.not_mem_nil, or_false, or_self] at h
    obtain ⟨f, _, rfl⟩ := h
    exact ⟨s, f.1, rfl⟩

theorem pack_keys (archive : Archive α) (d : Disk Key (Content α)) (k : Key) (h : k ∈ (pack archive d).map Prod.fst) : ∃ s i, k = .packed s i := by
  unfold pack at h
  rw [List.map_flatMap, List.mem_flatMap] at h
  obtain ⟨m, _, h⟩ := h
  revert h
  cases d (.raw m.1) with
  | none => intro h; simp at h
  | some c => cases c with
    | records l => intro h; exact packOne_keys _ _ _ h
    | _ => intro h; simp at h

theorem pack_congr (archive : Archive α) (d d' : Disk Key (Content α)) (h : ∀ m ∈ archive, d (.raw m.1) = d' (.raw m.1)) :
    pack archive d = pack archive d' := by
  unfold pack
  rw [List.flatMap_def, List.flatMap_def]
  congr 1
  refine List.map_congr_left fun m hm => ?_
  rw [h m hm]

/-- The raw files after the extraction do not depend on what was there before. -/
theorem extract_raw (archive : Archive α) (d d' : Disk Key (Content α)) (m : List Char × List (Record α)) (hm : m ∈ archive) :
    apply d (extract archive) (.raw m.1) = apply d' (extract archive) (.raw m.1) :=
  apply_congr _ _ _ _ fun h => absurd ((extract_keys archive _).2 ⟨m, hm, rfl⟩) h

/-- The writes of a full run, from nothing. -/
def full (archive : Archive α) : List (Key × Content α) :=
  [(.zip, .cut), (.zip, .archive)] ++ (extract archive ++ pack archive (apply (fun _ => none) (extract archive)))

theorem pack_after (archive : Archive α) (d d' : Disk Key (Content α)) :
    pack archive (apply d (extract archive)) = pack archive (apply d' (extract archive)) :=
  pack_congr _ _ _ fun m hm => extract_raw archive d d' m hm

theorem writes_none (archive : Archive α) (d : Disk Key (Content α)) (h : d .zip = none) : writes archive d = full archive := by
  have hd : download d = [(.zip, .cut), (.zip, .archive)] := by unfold download; rw [h]
  have hz : apply d (download d) .zip = some .archive := by rw [hd]; rfl
  unfold writes full
  rw [hz, hd]
  dsimp only
  rw [pack_after]

theorem writes_archive (archive : Archive α) (d : Disk Key (Content α)) (h : d .zip = some .archive) :
    writes archive d = extract archive ++ pack archive (apply (fun _ => none) (extract archive)) := by
  have hd : download d = [] := by unfold download; rw [h]
  have hz : apply d (download d) .zip = some .archive := by rw [hd]; exact h
  unfold writes
  rw [hz, hd]
  dsimp only
  rw [List.nil_append, pack_after (d' := fun _ => none)]

theorem writes_other (archive : Archive α) (d : Disk Key (Content α)) (c : Content α) (h : d .zip = some c) (hc : c ≠ .archive) :
    writes archive d = [] := by
  have hd : download d = [] := by unfold download; rw [h]
  have hz : apply d (download d) .zip = some c := by rw [hd]; exact h
  unfold writes
  rw [hz, hd]
  cases c with
  | archive => exact absurd rfl hc
  | _ => rfl

theorem writes_keys (archive : Archive α) (d : Disk Key (Content α)) (k : Key) (h : k ∈ (writes archive d).map Prod.fst) :
    k ∈ (full archive).map Prod.fst := by
  cases hz : d .zip with
  | none => rwa [writes_none archive d hz] at h
  | some c =>
    by_cases hc : c = .archive
    · subst hc
      rw [writes_archive archive d hz] at h
      unfold full
      rw [List.map_append]
      exact List.mem_append_right _ h
    · rw [writes_other archive d c hz hc] at h
      simp at h

theorem after_keys (archive : Archive α) (history : List Nat) : ∀ k, after archive history k ≠ none → k ∈ (full archive).map Prod.fst := by
  have : ∀ (d : Disk Key (Content α)), (∀ k, d k ≠ none → k ∈ (full archive).map Prod.fst) →
      ∀ k, history.foldl (crashed archive) d k ≠ none → k ∈ (full archive).map Prod.fst := by
    induction history with
    | nil => intro d h; exact h
    | cons n l ih =>
      intro d h
      rw [List.foldl_cons]
      refine ih _ fun k hk => ?_
      rcases mem_or_of_apply _ _ _ hk with hk | hk
      · exact writes_keys archive d k (take_keys _ _ _ hk)
      · exact h k hk
  exact this _ fun k hk => absurd rfl hk

/-- **C103** if no interruption hits the download of the archive: whatever the number of interrupted runs and wherever in the extraction or the
packing each of them was interrupted, the next run that is not interrupted leaves the disk exactly as an uninterrupted run from
scratch does. -/
theorem C103_rerun_partial (archive : Archive α) (history : List Nat) (h : ∀ c, after archive history .zip = some c → c = .archive) :
    complete archive (after archive history) = complete archive (fun _ => none) := by
  have hk := after_keys archive history
  unfold complete
  rw [writes_none archive (fun _ => none) rfl]
  cases hz : after archive history .zip with
  | none =>
    rw [writes_none archive _ hz]
    exact apply_cover _ _ hk
  | some c =>
    have := h c hz
    subst this
    rw [writes_archive archive _ hz, ← apply_cover _ _ hk]
    unfold full
    rw [apply_append _ [_, _]]
    congr 1
    funext k
    show _ = (if k = Key.zip then some Content.archive else if k = Key.zip then some Content.cut else after archive history k)
    by_cases hkz : k = .zip
    · rw [if_pos hkz, hkz, hz]
    · rw [if_neg hkz, if_neg hkz]

/-- The packed samples on a disk are the given ones. -/
def Holds (d : Disk Key (Content α)) (fs : List ((Sub × Nat) × α)) : Prop :=
  ∀ s i c, d (.packed s i) = some c ↔ ∃ a, c = .sample a ∧ ((s, i), a) ∈ fs

theorem holds_write (s : Sub) : ∀ (files : List (Nat × α)) (d : Disk Key (Content α)) (fs : List ((Sub × Nat) × α)), Holds d fs →
    Holds (apply d (files.flatMap (fun f => [(Key.packed s f.1, Content.cut), (Key.packed s f.1, Content.sample f.2)]))) (write fs s files) := by
  intro files
  induction files with
  | nil => intro d fs h; exact h
  | cons f l ih =>
    intro d fs h
    rw [List.flatMap_cons, apply_append]
    unfold write
    rw [List.foldl_cons]
    refine ih _ _ ?_
    intro s' i c
    show (if Key.packed s' i = Key.packed s f.1 then some (Content.sample f.2) else
      if Key.packed s' i = Key.packed s f.1 then some Content.cut else d (Key.packed s' i)) = some c ↔ _
    by_cases he : Key.packed s' i = Key.packed s f.1
    · rw [if_pos he]
      injection he with h1 h2
      subst h1 h2
      constructor
      · intro hc
        injection hc with hc
        exact ⟨f.2, hc.symm, by simp⟩
      · rintro ⟨a, rfl, ha⟩
        simp at ha
        rw [ha]
    · rw [if_neg he, if_neg he, h s' i c]
      have hne : (s', i) ≠ (s, f.1) := fun hh => he (by injection hh with h1 h2; rw [h1, h2])
      have hm : ∀ a, ((s', i), a) ∈ List.filter (fun g => decide (g.1 ≠ (s, f.1))) fs ++ [((s, f.1), f.2)] ↔ ((s', i), a) ∈ fs := by
        intro a
        rw [List.mem_append, List.mem_filter, List.mem_singleton]
        constructor
        · rintro (h | h)
          · exact h.1
          · injection h with h _
            exact absurd h hne
        · intro h
          exact .inl ⟨h, decide_eq_true hne⟩
      simp only [hm]

theorem raw_extracted (archive : Archive α) (hn : (archive.map Prod.fst).Nodup) : ∀ (d : Disk Key (Content α)) (m) (_ : m ∈ archive),
    apply d (extract archive) (.raw m.1) = some (.records m.2) := by
  induction archive with
  | nil => intro d m hm; cases hm
  | cons x l ih =>
    intro d m hm
    rw [List.map_cons, List.nodup_cons] at hn
    have he : extract (x :: l) = [(.raw x.1, .cut), (.raw x.1, .records x.2)] ++ extract l := by unfold extract; rw [List.flatMap_cons]
    rw [he, apply_append]
    rcases List.mem_cons.1 hm with rfl | hm
    · rw [apply_of_not_mem]
      · exact if_pos rfl
      · rw [extract_keys]
        rintro ⟨m', hm', h⟩
        injection h with h
        exact hn.1 (h ▸ List.mem_map_of_mem hm')
    · exact ih hn.2 _ m hm

/-- **C103**, what an uninterrupted run from scratch leaves: exactly the packed samples described by **C78**, all complete. -/
theorem C103_dataset (archive : Archive α) (hn : (archive.map Prod.fst).Nodup) (s : Sub) (i : Nat) (c : Content α) :
    complete archive (fun _ => none) (.packed s i) = some c ↔ ∃ a, c = .sample a ∧ ((s, i), a) ∈ unpack archive := by
  have hp : pack archive (apply (fun _ => none) (extract archive)) = archive.flatMap (fun m => packOne m.1 m.2) := by
    unfold pack
    rw [List.flatMap_def, List.flatMap_def]
    congr 1
    refine List.map_congr_left fun m hm => ?_
    rw [raw_extracted archive hn _ m hm]
  have key : ∀ (l : Archive α) (d : Disk Key (Content α)) (fs : List ((Sub × Nat) × α)), Holds d fs →
      Holds (apply d (l.flatMap (fun m => packOne m.1 m.2)))
        (l.foldl (fun fs t => match subdir t.1 with | none => fs | some d => write fs d (process 0 t.2)) fs) := by
    intro l
    induction l with
    | nil => intro d fs h; exact h
    | cons m l ih =>
      intro d fs h
      rw [List.flatMap_cons, apply_append, List.foldl_cons]
      refine ih _ _ ?_
      unfold packOne
      cases subdir m.1 with
      | none => exact h
      | some s => exact holds_write s _ _ _ h
  unfold complete
  rw [writes_none archive (fun _ => none) rfl]
  unfold full
  rw [hp, apply_append, apply_append]
  refine key archive _ [] (fun s i c => ?_) s i c
  rw [apply_of_not_mem]
  · constructor
    · intro h
      exact absurd h (by
        show (if Key.packed s i = .zip then some Content.archive else if Key.packed s i = .zip then some Content.cut else none) ≠ some c
        rw [if_neg (fun h : Key.packed s i = .zip => by cases h), if_neg (fun h : Key.packed s i = .zip => by cases h)]
        exact fun h => by cases h)
    · rintro ⟨a, _, ha⟩
      cases ha
  · rw [extract_keys]
    rintro ⟨m, _, h⟩
    cases h

/-- An archive with one TFRecord of three records, one of them unusable. -/
def demoArchive : Archive Char := [("Training_RAFT256.tfrecord".toList, [.file 'a', .skip, .file 'b'])]

/-- The hypothesis of `C103_rerun_partial` is met after three interruptions, in the extraction and in the packing (the sample `0` being
incomplete), and then the run repairs what the interruptions left. -/
example : (match after demoArchive [3, 1, 3] .zip, after demoArchive [3, 1, 3] (.packed .train 0),
      complete demoArchive (after demoArchive [3, 1, 3]) (.packed .train 0), complete demoArchive (after demoArchive [3, 1, 3]) (.packed .train 1) with
    | some .archive, some .cut, some (.sample 'a'), some (.sample 'b') => true
    | _, _, _, _ => false) = true := by decide +kernel

example : (demoArchive.map Prod.fst).Nodup ∧ unpack demoArchive = [((.train, 0), 'a'), ((.train, 1), 'b')] := by decide +kernel

/-- **C103** fails if the download is interrupted: the incomplete archive is taken for the archive by every later run, none of which ever packs a
sample, interrupted or not, for every archive. -/
theorem C103_refuted (archive : Archive α) (history : List Nat) (s : Sub) (i : Nat) :
    after archive (1 :: history) (.packed s i) = none ∧ complete archive (after archive (1 :: history)) (.packed s i) = none := by
  have key : after archive (1 :: history) = put (fun _ => none) (.zip, .cut) := by
    have h1 : crashed archive (fun _ => none) 1 = put (fun _ => none) (.zip, .cut) := by
      unfold crashed
      rw [writes_none archive _ rfl]
      rfl
    have h2 : ∀ n, crashed archive (put (fun _ => none) (.zip, .cut)) n = put (fun _ => none) (.zip, (.cut : Content α)) := by
      intro n
      unfold crashed
      rw [writes_other archive _ .cut rfl (by intro h; cases h)]
      cases n <;> rfl
    unfold after
    rw [List.foldl_cons, h1]
    induction history with
    | nil => rfl
    | cons n l ih => rw [List.foldl_cons, h2, ih]
  rw [key]
  have hput : put (fun _ => none) (Key.zip, (Content.cut : Content α)) (.packed s i) = none := rfl
  refine ⟨hput, ?_⟩
  unfold complete
  rw [writes_other archive _ .cut rfl (by intro h; cases h)]
  exact hput

end class2

/-! ## C104: the lists of the script for class 1 -/

section lists
variable {α : Type}

theorem fill_apply (s : Split) (l : List α) (d : Disk Split (List α)) : apply d (fill s l) = fun k => if k = s then some l else d k := by
  have key : ∀ n, apply d ((List.range (n + 1)).map (fun k => (s, l.take k))) = fun k => if k = s then some (l.take n) else d k := by
    intro n
    induction n with
    | zero => rfl
    | succ n ih =>
      rw [List.range_succ, List.map_append, apply_append, ih]
      funext k
      show (if k = s then _ else if k = s then _ else _) = _
      by_cases hk : k = s
      · rw [if_pos hk, if_pos hk]
      · rw [if_neg hk, if_neg hk, if_neg hk]
  unfold fill
  rw [key]
  simp

/-- The lists on the disk are a partition of the official list into training, validation and tuning. -/
def Partition (official : List α) (d : Disk Split (List α)) : Prop :=
  ∃ a b c, d .train = some a ∧ d .val = some b ∧ d .tune = some c ∧ (a ++ b ++ c).Perm official

/-- **C104** for a run in which the training list is downloaded and that is not interrupted, whatever earlier runs left: the lists for
training, validation and tuning are a partition of the official list. The list for testing is the official one if it was downloaded. -/
theorem C104_run_partial (r0 rv rt : Int) (h0 : 0 ≤ r0) (hv : 0 ≤ rv) (ht : 0 ≤ rt) (h : ratiosOk [r0, rv, rt] = true)
    (shuffle : List α → List α) (hs : ∀ l, (shuffle l).Perm l) (train test : List α) (hlen : train.length * 100 < 2 ^ 53)
    (d : Disk Split (List α)) (netTest : Net) :
    Partition train (apply d (fetch binary64 shuffle rv rt .ok netTest train test)) ∧
      (netTest = .ok → apply d (fetch binary64 shuffle rv rt .ok netTest train test) .test = some test) ∧
      (netTest = .unreachable → apply d (fetch binary64 shuffle rv rt .ok netTest train test) .test = d .test) := by
  have hp := (C75_partition_partial r0 rv rt h0 hv ht h train (shuffle train) hlen (hs train)).1
  unfold fetch
  dsimp only
  refine ⟨⟨_, _, _, ?_, ?_, ?_, hp⟩, ?_, ?_⟩
  · rw [apply_append, apply_append, apply_append, apply_append, fill_apply .tune, fill_apply .val, fill_apply .train]
    rfl
  · rw [apply_append, apply_append, apply_append, apply_append, fill_apply .tune, fill_apply .val]
    rfl
  · rw [apply_append, apply_append, apply_append, apply_append, fill_apply .tune]
    rfl
  · rintro rfl
    rw [apply_append, apply_append, apply_append, apply_append, fill_apply .tune, fill_apply .val, fill_apply .train]
    show apply _ (fill .test test) .test = _
    rw [fill_apply]
    rfl
  · rintro rfl
    rw [apply_append, apply_append, apply_append, apply_append, fill_apply .tune, fill_apply .val, fill_apply .train]
    show apply _ (fill .train train) .test = _
    rw [fill_apply]
    rfl

/-- A run: the way it shuffles (the seed), whether the training list could be reached, and what became of the test list. -/
structure Run (α : Type) where
  shuffle : List α → List α
  reached : Bool
  netTest : Net

/-- The lists after runs that were not interrupted, and in which no download of the training list broke off. -/
def listsAfter (rv rt : Int) (train test : List α) (runs : List (Run α)) : Disk Split (List α) :=
  runs.foldl (fun d r => apply d (fetch binary64 r.shuffle rv rt (if r.reached then .ok else .unreachable) r.netTest train test)) (fun _ => none)

/-- **C104** for any number of runs, with different seeds, none interrupted, the training list in each either downloaded as a whole or not reached at
all: when the lists are read, they are a partition of the official list, or there are none and nothing is split. -/
theorem C104_runs_partial (r0 rv rt : Int) (h0 : 0 ≤ r0) (hv : 0 ≤ rv) (ht : 0 ≤ rt) (h : ratiosOk [r0, rv, rt] = true)
    (train test : List α) (hlen : train.length * 100 < 2 ^ 53) (runs : List (Run α)) (hs : ∀ r ∈ runs, ∀ l, (r.shuffle l).Perm l) :
    Partition train (listsAfter rv rt train test runs) ∨
      (load (listsAfter rv rt train test runs) = .error .fileNotFound ∧ ∀ r ∈ runs, r.reached = false) := by
  have key : ∀ (runs : List (Run α)) (d : Disk Split (List α)), (∀ r ∈ runs, ∀ l, (r.shuffle l).Perm l) →
      Partition train (runs.foldl (fun d r => apply d (fetch binary64 r.shuffle rv rt (if r.reached then .ok else .unreachable) r.netTest train test)) d) ∨
      (runs.foldl (fun d r => apply d (fetch binary64 r.shuffle rv rt (if r.reached then .ok else .unreachable) r.netTest train test)) d = d ∧
        ∀ r ∈ runs, r.reached = false) := by
    intro runs
    induction runs using List.reverseRecOn with
    | nil => intro d _; exact .inr ⟨rfl, by simp⟩
    | append_singleton l r ih =>
      intro d hs
      rw [List.foldl_append, List.foldl_cons, List.foldl_nil]
      cases hr : r.reached with
      | true =>
        refine .inl ?_
        rw [if_pos rfl]
        exact (C104_run_partial r0 rv rt h0 hv ht h r.shuffle (hs r (by simp)) train test hlen _ r.netTest).1
      | false =>
        have e : ∀ d' : Disk Split (List α), apply d' (fetch binary64 r.shuffle rv rt (if false = true then .ok else .unreachable) r.netTest train test) = d' :=
          fun d' => rfl
        rw [e]
        rcases ih d (fun r hr => hs r (by simp [hr])) with h | ⟨h, h'⟩
        · exact .inl h
        · refine .inr ⟨h, ?_⟩
          intro r' hr'
          rcases List.mem_append.1 hr' with hr' | hr'
          · exact h' r' hr'
          · rw [List.mem_singleton.1 hr', hr]
  rcases key runs (fun _ => none) hs with h | ⟨h, h'⟩
  · exact .inl h
  · refine .inr ⟨?_, h'⟩
    unfold listsAfter
    rw [h]
    rfl

/-- Two runs with different orders, and one without network: the lists of the second. -/
example : (match listsAfter 50 0 ['a', 'b'] ['t'] [⟨id, true, .ok⟩, ⟨List.reverse, true, .unreachable⟩, ⟨id, false, .ok⟩] with
    | d => (d .train, d .val, d .tune, d .test)) = (some ['b'], some ['a'], some [], some ['t']) := by decide +kernel

/-- **C104** fails when a download breaks off, without any crash: the second run, with the same arguments, goes on with an incomplete training
list and the old other lists. Here the sample `b` is in the lists for training and for validation, and `perform_split` accepts the lists. -/
theorem C104_refuted :
    load (apply (apply (fun _ => none) (fetch binary64 List.reverse 50 0 .ok .ok ['a', 'b', 'c', 'd'] ['t']))
      (fetch binary64 List.reverse 50 0 (.broken 2) .ok ['a', 'b', 'c', 'd'] ['t'])) = .ok [['a', 'b'], ['b', 'a'], ['t'], []] := by
  decide +kernel

/-- **C104** fails when a run is interrupted and the next one has no network: after the interruption the training list is the whole official list. -/
theorem C104_refuted_crash :
    load (apply (apply (apply (fun _ => none) (fetch binary64 List.reverse 50 0 .ok .ok ['a', 'b'] ['t']))
      ((fetch binary64 List.reverse 50 0 .ok .ok ['a', 'b'] ['t']).take 3))
      (fetch binary64 List.reverse 50 0 .unreachable .ok ['a', 'b'] ['t'])) = .ok [['a', 'b'], ['a'], ['t'], []] := by
  decide +kernel

end lists

/-! ## C105: download, extraction and packing of the script for class 1 -/

section class1
variable {N α : Type} [DecidableEq N]

/-- The raw directory is empty. -/
def RawEmpty (d : Disk (Key1 N) (Content1 N α)) : Prop := ∀ k : Key1 N, k.isRaw = true → d k = none

/-- The disks that runs of the script can leave, from `d0` on: each run sees whether the raw directory is empty, ends the download by Ctrl-C or an error
after `m` writes (never, if `m` is large), and is interrupted for good after `n` writes (never, if `n` is large). -/
inductive Later (conv : α → Option α) (folders : Folders N α) (d0 : Disk (Key1 N) (Content1 N α)) : Disk (Key1 N) (Content1 N α) → Prop where
  | start : Later conv folders d0 d0
  | run (d : Disk (Key1 N) (Content1 N α)) (m : Nat) (empty : Bool) (n : Nat) (h : Later conv folders d0 d) (he : empty = true ↔ RawEmpty d) :
      Later conv folders d0 (apply d ((writes1 conv folders m empty d).take n))

omit [DecidableEq N] in
theorem pack1_keys (conv : α → Option α) (folders : Folders N α) (d : Disk (Key1 N) (Content1 N α)) (k : Key1 N)
    (h : k ∈ (pack1 conv folders d).map Prod.fst) : k.isRaw = false := by
  unfold pack1 at h
  simp only [List.map_flatMap, List.mem_flatMap] at h
  obtain ⟨f, _, z, _, x, _, h⟩ := h
  revert h
  split
  · split
    · intro h
      simp only [List.map_cons, List.map_nil, List.mem_cons, List.not_mem_nil, or_false, or_self] at h
      rw [h]
      rfl
    · intro h; simp at h
  · intro h; simp at h

omit [DecidableEq N] in
theorem pack1_congr (conv : α → Option α) (folders : Folders N α) (d d' : Disk (Key1 N) (Content1 N α))
    (h : ∀ k : Key1 N, k.isRaw = true → d k = d' k) : pack1 conv folders d = pack1 conv folders d' := by
  unfold pack1
  have : ∀ x : N × α, d (.raw x.1) = d' (.raw x.1) := fun x => h _ rfl
  simp only [this]

omit [DecidableEq N] in
theorem download1_keys (folders : Folders N α) (k : Key1 N) (h : k ∈ (download1 folders).map Prod.fst) : k.isRaw = true := by
  unfold download1 at h
  simp only [List.map_flatMap, List.mem_flatMap, List.map_cons, List.mem_cons, List.map_nil, List.not_mem_nil, or_false, or_self] at h
  obtain ⟨f, _, rfl | ⟨z, _, rfl⟩⟩ := h <;> rfl

omit [DecidableEq N] in
theorem extract1_keys (folders : Folders N α) (d : Disk (Key1 N) (Content1 N α)) (k : Key1 N) (h : k ∈ (extract1 folders d).map Prod.fst) :
    k.isRaw = true := by
  unfold extract1 at h
  simp only [List.map_flatMap, List.mem_flatMap] at h
  obtain ⟨f, _, z, _, h⟩ := h
  revert h
  split
  · intro h
    simp only [List.map_flatMap, List.mem_flatMap, List.map_cons, List.mem_cons, List.map_nil, List.not_mem_nil, or_false, or_self] at h
    obtain ⟨x, _, rfl⟩ := h
    rfl
  · intro h; simp at h

theorem obtain1_keys (folders : Folders N α) (m : Nat) (d : Disk (Key1 N) (Content1 N α)) (k : Key1 N) (h : k ∈ (obtain1 folders m d).map Prod.fst) :
    k.isRaw = true := by
  unfold obtain1 at h
  rw [List.map_append, List.mem_append] at h
  rcases h with h | h
  · exact download1_keys folders k (take_keys _ _ _ h)
  · exact extract1_keys folders _ k h

/-- Packing does not change the raw directory. -/
theorem pack1_raw (conv : α → Option α) (folders : Folders N α) (d d' : Disk (Key1 N) (Content1 N α)) (n : Nat) (k : Key1 N) (hk : k.isRaw = true) :
    apply d ((pack1 conv folders d').take n) k = d k := by
  refine apply_of_not_mem _ _ _ fun h => ?_
  rw [pack1_keys conv folders d' k (take_keys _ _ _ h)] at hk
  cases hk

/-- Once the raw directory is not empty it does not change any more. -/
theorem later_raw {conv : α → Option α} {folders : Folders N α} {d0 d : Disk (Key1 N) (Content1 N α)} (hne : ¬ RawEmpty d0)
    (h : Later conv folders d0 d) : ∀ k : Key1 N, k.isRaw = true → d k = d0 k := by
  induction h with
  | start => exact fun _ _ => rfl
  | run d m empty n h he ih =>
    intro k hk
    have : empty = false := by
      cases empty with
      | false => rfl
      | true => exact absurd (fun k hk => (ih k hk).symm.trans (he.1 rfl k hk)) hne
    subst this
    rw [← ih k hk]
    exact pack1_raw conv folders d d n k hk

/-- Every packed sample on the disk is one that a run on this disk would write. -/
theorem later_packed {conv : α → Option α} {folders : Folders N α} {d0 d : Disk (Key1 N) (Content1 N α)}
    (h0 : ∀ k : Key1 N, k.isRaw = false → d0 k ≠ none → k ∈ (pack1 conv folders d0).map Prod.fst)
    (h : Later conv folders d0 d) : ∀ k : Key1 N, k.isRaw = false → d k ≠ none → k ∈ (pack1 conv folders d).map Prod.fst := by
  induction h with
  | start => exact h0
  | run d m empty n h he ih =>
    intro k hk hne
    cases empty with
    | false =>
      have hw : writes1 conv folders m false d = pack1 conv folders d := rfl
      rw [hw] at hne ⊢
      rw [pack1_congr conv folders _ d (fun k hk => pack1_raw conv folders d d n k hk)]
      rcases mem_or_of_apply _ _ _ hne with h | h
      · exact take_keys _ _ _ h
      · exact ih k hk h
    | true =>
      have hempty := he.1 rfl
      have hnil : pack1 conv folders d = [] := by
        rw [pack1_congr conv folders d (fun _ => none) hempty]
        unfold pack1
        simp
      have hdk : d k = none := by
        by_contra hc
        have := ih k hk hc
        rw [hnil] at this
        simp at this
      have hw : writes1 conv folders m true d = obtain1 folders m d ++ pack1 conv folders (apply d (obtain1 folders m d)) := rfl
      rw [hw, List.take_append, apply_append] at hne ⊢
      by_cases hlen : n ≤ (obtain1 folders m d).length
      · rw [Nat.sub_eq_zero_of_le hlen, List.take_zero] at hne
        exfalso
        rcases mem_or_of_apply _ _ _ hne with h | h
        · simp at h
        · rcases mem_or_of_apply _ _ _ h with h | h
          · rw [obtain1_keys folders m d k (take_keys _ _ _ h)] at hk
            cases hk
          · exact h hdk
      · rw [List.take_of_length_le (by omega)] at hne ⊢
        rw [pack1_congr conv folders _ (apply d (obtain1 folders m d)) (fun k hk => pack1_raw conv folders _ _ _ k hk)]
        rcases mem_or_of_apply _ _ _ hne with h | h
        · exact take_keys _ _ _ h
        · exfalso
          rcases mem_or_of_apply _ _ _ h with h | h
          · rw [obtain1_keys folders m d k h] at hk
            cases hk
          · exact h hdk

/-- A run that is not interrupted. -/
def complete1 (conv : α → Option α) (folders : Folders N α) (empty : Bool) (d : Disk (Key1 N) (Content1 N α)) : Disk (Key1 N) (Content1 N α) :=
  apply d (writes1 conv folders (download1 folders).length empty d)

/-- The writes `ws` leave `v` at `k`, whatever was there before. -/
def Settles {K V : Type} [DecidableEq K] (ws : List (K × V)) (k : K) (v : V) : Prop := ∀ d, apply d ws k = some v

theorem Settles.flatMap {K V A : Type} [DecidableEq K] (g : A → List (K × V)) (k : K) (v : V) (xs : List A)
    (h : ∀ x ∈ xs, Settles (g x) k v ∨ k ∉ (g x).map Prod.fst) (he : ∃ x ∈ xs, Settles (g x) k v) : Settles (xs.flatMap g) k v := by
  induction xs with
  | nil => obtain ⟨x, hx, _⟩ := he; simp at hx
  | cons x xs ih =>
    intro d
    rw [List.flatMap_cons, apply_append]
    by_cases hs : ∃ y ∈ xs, Settles (g y) k v
    · exact ih (fun y hy => h y (by simp [hy])) hs _
    · have hn : k ∉ (xs.flatMap g).map Prod.fst := by
        rw [List.map_flatMap, List.mem_flatMap]
        rintro ⟨y, hy, hk⟩
        rcases h y (by simp [hy]) with h1 | h1
        · exact hs ⟨y, hy, h1⟩
        · exact h1 hk
      rw [apply_of_not_mem _ _ _ hn]
      obtain ⟨y, hy, h1⟩ := he
      rcases List.mem_cons.1 hy with rfl | hy
      · exact h1 d
      · exact absurd ⟨y, hy, h1⟩ hs

theorem Settles.pair {K V : Type} [DecidableEq K] (k : K) (u v : V) : Settles [(k, u), (k, v)] k v := fun d => by
  simp [apply, put]

/-- An archive is complete when the download has not been interrupted. -/
theorem download1_zip (folders : Folders N α)
    (hz : ∀ f ∈ folders, ∀ z ∈ f.2, ∀ f' ∈ folders, ∀ z' ∈ f'.2, f.1 = f'.1 → z.1 = z'.1 → z.2 = z'.2)
    (f : Nat × List (N × List (N × α))) (hf : f ∈ folders) (z : N × List (N × α)) (hzf : z ∈ f.2) :
    Settles (download1 folders) (.zip f.1 z.1) (.archive z.2) := by
  have key : ∀ f' ∈ folders, (∃ z' ∈ f'.2, f.1 = f'.1 ∧ z.1 = z'.1) →
      Settles ((Key1.folder f'.1, Content1.directory) :: f'.2.flatMap (fun z => [(.zip f'.1 z.1, .cut), (.zip f'.1 z.1, .archive z.2)]))
        (.zip f.1 z.1) (.archive z.2) := by
    rintro f' hf' ⟨z', hz', he1, he2⟩ d
    rw [apply_cons]
    refine Settles.flatMap _ _ _ _ (fun x hx => ?_) ⟨z', hz', ?_⟩ _
    · by_cases hc : z.1 = x.1
      · left
        rw [he1, hc, hz f hf z hzf f' hf' x hx he1 hc]
        exact Settles.pair _ _ _
      · right
        simp [hc]
    · rw [he1, he2, hz f hf z hzf f' hf' z' hz' he1 he2]
      exact Settles.pair _ _ _
  refine Settles.flatMap _ _ _ _ (fun f' hf' => ?_) ⟨f, hf, key f hf ⟨z, hzf, rfl, rfl⟩⟩
  by_cases hc : ∃ z' ∈ f'.2, f.1 = f'.1 ∧ z.1 = z'.1
  · exact Or.inl (key f' hf' hc)
  · right
    intro hm
    simp only [List.map_cons, List.map_flatMap, List.mem_cons, List.mem_flatMap, List.map_nil, List.not_mem_nil, or_false, or_self] at hm
    rcases hm with hm | ⟨z', hz', hm⟩
    · cases hm
    · simp only [Key1.zip.injEq] at hm
      exact hc ⟨z', hz', hm⟩

/-- **C105**, the reference: a run from scratch that is not interrupted extracts every published sample and packs it, unless the
conversion refuses it; and it packs nothing else. Archives of the same name in the same folder and samples of the same name
are understood to be the same. -/
theorem C105_from_scratch (conv : α → Option α) (folders : Folders N α)
    (hz : ∀ f ∈ folders, ∀ z ∈ f.2, ∀ f' ∈ folders, ∀ z' ∈ f'.2, f.1 = f'.1 → z.1 = z'.1 → z.2 = z'.2)
    (hx : ∀ f ∈ folders, ∀ z ∈ f.2, ∀ x ∈ z.2, ∀ f' ∈ folders, ∀ z' ∈ f'.2, ∀ x' ∈ z'.2, x.1 = x'.1 → x.2 = x'.2) :
    (∀ f ∈ folders, ∀ z ∈ f.2, ∀ x ∈ z.2,
      complete1 conv folders true (fun _ => none) (.raw x.1) = some (.sample x.2) ∧
      complete1 conv folders true (fun _ => none) (.packed x.1) = (conv x.2).map .sample) ∧
    ∀ name, (∀ f ∈ folders, ∀ z ∈ f.2, ∀ x ∈ z.2, x.1 ≠ name) → complete1 conv folders true (fun _ => none) (.packed name) = none := by
  have hdl : ∀ f ∈ folders, ∀ z ∈ f.2, apply (fun _ => (none : Option (Content1 N α))) (download1 folders) (.zip f.1 z.1) = some (.archive z.2) :=
    fun f hf z hzf => download1_zip folders hz f hf z hzf _
  have hraw : ∀ f ∈ folders, ∀ z ∈ f.2, ∀ x ∈ z.2,
      apply (fun _ => none) (obtain1 folders (download1 folders).length (fun _ => none)) (.raw x.1) = some (Content1.sample x.2) := by
    intro f hf z hzf x hxz
    unfold obtain1
    rw [List.take_length, apply_append]
    have key : ∀ f' ∈ folders, ∀ z' ∈ f'.2, (∃ x' ∈ z'.2, x.1 = x'.1) →
        Settles (z'.2.flatMap (fun x => [(Key1.raw x.1, (Content1.cut : Content1 N α)), (.raw x.1, .sample x.2)])) (.raw x.1) (.sample x.2) := by
      rintro f' hf' z' hz' ⟨x', hx', he⟩
      refine Settles.flatMap _ _ _ _ (fun y hy => ?_) ⟨x', hx', ?_⟩
      · by_cases hc : x.1 = y.1
        · left
          rw [hc, hx f hf z hzf x hxz f' hf' z' hz' y hy hc]
          exact Settles.pair _ _ _
        · right
          simp [hc]
      · rw [he, hx f hf z hzf x hxz f' hf' z' hz' x' hx' he]
        exact Settles.pair _ _ _
    have key2 : ∀ f' ∈ folders, ∀ z' ∈ f'.2, Settles (z'.2.flatMap (fun x => [(Key1.raw x.1, (Content1.cut : Content1 N α)), (.raw x.1, .sample x.2)])) (.raw x.1) (.sample x.2) ∨
        Key1.raw x.1 ∉ (z'.2.flatMap (fun x => [(Key1.raw x.1, (Content1.cut : Content1 N α)), (.raw x.1, .sample x.2)])).map Prod.fst := by
      intro f' hf' z' hz'
      by_cases hc : ∃ x' ∈ z'.2, x.1 = x'.1
      · exact Or.inl (key f' hf' z' hz' hc)
      · right
        intro hm
        simp only [List.map_flatMap, List.mem_flatMap, List.map_cons, List.mem_cons, List.map_nil, List.not_mem_nil, or_false, or_self,
          Key1.raw.injEq] at hm
        exact hc hm
    have key3 : ∀ f' ∈ folders, (∃ z' ∈ f'.2, ∃ x' ∈ z'.2, x.1 = x'.1) → Settles (f'.2.flatMap (fun z' =>
        match apply (fun _ => (none : Option (Content1 N α))) (download1 folders) (.zip f'.1 z'.1) with
        | some (.archive l) => l.flatMap (fun x => [(Key1.raw x.1, (Content1.cut : Content1 N α)), (.raw x.1, .sample x.2)])
        | _ => [])) (.raw x.1) (.sample x.2) := by
      rintro f' hf' ⟨z', hz', hc⟩
      refine Settles.flatMap _ _ _ _ (fun y hy => ?_) ⟨z', hz', ?_⟩
      · simp only [hdl f' hf' y hy]
        exact key2 f' hf' y hy
      · simp only [hdl f' hf' z' hz']
        exact key f' hf' z' hz' hc
    refine Settles.flatMap _ _ _ _ (fun f' hf' => ?_) ⟨f, hf, key3 f hf ⟨z, hzf, x, hxz, rfl⟩⟩ _
    by_cases hc : ∃ z' ∈ f'.2, ∃ x' ∈ z'.2, x.1 = x'.1
    · exact Or.inl (key3 f' hf' hc)
    · right
      intro hm
      simp only [List.map_flatMap, List.mem_flatMap] at hm
      obtain ⟨z', hz', hm⟩ := hm
      simp only [hdl f' hf' z' hz', List.map_flatMap, List.mem_flatMap, List.map_cons, List.mem_cons, List.map_nil, List.not_mem_nil,
        or_false, or_self, Key1.raw.injEq] at hm
      exact hc ⟨z', hz', hm⟩
  have hfull : complete1 conv folders true (fun _ => none) =
      apply (apply (fun _ => none) (obtain1 folders (download1 folders).length (fun _ => none)))
        (pack1 conv folders (apply (fun _ => none) (obtain1 folders (download1 folders).length (fun _ => none)))) := by
    unfold complete1 writes1
    rw [if_pos rfl, apply_append]
  generalize ho : apply (fun _ => none) (obtain1 folders (download1 folders).length (fun _ => (none : Option (Content1 N α)))) = o at hraw hfull
  have hop : ∀ name, o (.packed name) = none := by
    intro name
    rw [← ho, apply_of_not_mem]
    intro hm
    have := obtain1_keys folders _ _ _ hm
    cases this
  -- what one sample contributes
  let g : N × α → List (Key1 N × Content1 N α) := fun x =>
    match conv x.2 with
    | some b => [(.packed x.1, .cut), (.packed x.1, .sample b)]
    | none => []
  have hpack : pack1 conv folders o = folders.flatMap (fun f => f.2.flatMap (fun z => z.2.flatMap g)) := by
    unfold pack1
    refine List.flatMap_congr fun f hf => List.flatMap_congr fun z hzf => List.flatMap_congr fun x hxz => ?_
    rw [hraw f hf z hzf x hxz]
    cases hcv : conv x.2 <;> simp [g, hcv]
  have hpack' : pack1 conv folders o = (folders.flatMap (fun f => f.2.flatMap (fun z => z.2))).flatMap g := by
    rw [hpack]
    simp only [List.flatMap_assoc]
  have hkeys : ∀ x : N × α, ∀ k ∈ (g x).map Prod.fst, k = .packed x.1 := by
    intro x k hk
    simp only [g] at hk
    split at hk
    · simpa using hk
    · simp at hk
  rw [hfull]
  refine ⟨fun f hf z hzf x hxz => ⟨?_, ?_⟩, fun name hn => ?_⟩
  · have := pack1_raw conv folders o o (pack1 conv folders o).length (.raw x.1) rfl
    rw [List.take_length] at this
    rw [this]
    exact hraw f hf z hzf x hxz
  · rw [hpack']
    cases hcv : conv x.2 with
    | none =>
      rw [apply_of_not_mem, hop]
      · rfl
      intro hm
      rw [List.map_flatMap, List.mem_flatMap] at hm
      obtain ⟨y, hy, hm⟩ := hm
      simp only [List.mem_flatMap] at hy
      obtain ⟨f', hf', z', hz', hy⟩ := hy
      have h1 := hkeys y _ hm
      simp only [Key1.packed.injEq] at h1
      have h2 := hx f hf z hzf x hxz f' hf' z' hz' y hy h1
      simp only [g] at hm
      rw [← h2, hcv] at hm
      simp at hm
    | some b =>
      have hg : ∀ f' ∈ folders, ∀ z' ∈ f'.2, ∀ y ∈ z'.2, x.1 = y.1 → Settles (g y) (.packed x.1) (.sample b) := by
        intro f' hf' z' hz' y hy he
        have h2 := hx f hf z hzf x hxz f' hf' z' hz' y hy he
        simp only [g]
        rw [← h2, hcv, he]
        exact Settles.pair _ _ _
      refine Settles.flatMap _ _ _ _ (fun y hy => ?_) ⟨x, ?_, hg f hf z hzf x hxz rfl⟩ _
      · simp only [List.mem_flatMap] at hy
        obtain ⟨f', hf', z', hz', hy⟩ := hy
        by_cases hc : x.1 = y.1
        · exact Or.inl (hg f' hf' z' hz' y hy hc)
        · right
          intro hm
          have := hkeys y _ hm
          simp only [Key1.packed.injEq] at this
          exact hc this
      · simp only [List.mem_flatMap]
        exact ⟨f, hf, z, hzf, hxz⟩
  · rw [hpack', apply_of_not_mem, hop]
    intro hm
    rw [List.map_flatMap, List.mem_flatMap] at hm
    obtain ⟨y, hy, hm⟩ := hm
    simp only [List.mem_flatMap] at hy
    obtain ⟨f', hf', z', hz', hy⟩ := hy
    have h1 := hkeys y _ hm
    simp only [Key1.packed.injEq] at h1
    exact hn f' hf' z' hz' y hy h1.symm

/-- **C105** if no interruption hits the download or the extraction, that is, the raw directory is empty or as an uninterrupted run leaves it: whatever
the number of interrupted runs, the next run that is not interrupted leaves the disk exactly as an uninterrupted run from scratch does. -/
theorem C105_rerun_partial (conv : α → Option α) (folders : Folders N α) (d : Disk (Key1 N) (Content1 N α))
    (h : Later conv folders (fun _ => none) d)
    (hraw : RawEmpty d ∨ ∀ k : Key1 N, k.isRaw = true → d k = complete1 conv folders true (fun _ => none) k)
    (empty : Bool) (he : empty = true ↔ RawEmpty d) :
    complete1 conv folders empty d = complete1 conv folders true (fun _ => none) := by
  have hp := later_packed (conv := conv) (folders := folders) (d0 := fun _ => none) (fun _ _ h => absurd rfl h) h
  by_cases hemp : RawEmpty d
  · have : empty = true := he.2 hemp
    subst this
    have hd : d = fun _ => none := by
      funext k
      cases hk : k.isRaw with
      | true => exact hemp k hk
      | false =>
        by_contra hc
        have := hp k hk hc
        rw [pack1_congr conv folders d (fun _ => none) hemp] at this
        unfold pack1 at this
        simp at this
    rw [hd]
  · have : empty = false := by
      cases empty with
      | false => rfl
      | true => exact absurd (he.1 rfl) hemp
    subst this
    rcases hraw with hraw | hraw
    · exact absurd hraw hemp
    · set o := obtain1 folders (download1 folders).length (fun _ => (none : Option (Content1 N α))) with ho
      have hfull : complete1 conv folders true (fun _ => none) = apply (apply (fun _ => none) o) (pack1 conv folders (apply (fun _ => none) o)) := by
        unfold complete1 writes1
        rw [if_pos rfl, apply_append]
      have hr : ∀ k : Key1 N, k.isRaw = true → d k = apply (fun _ => none) o k := by
        intro k hk
        rw [hraw k hk, hfull]
        have := pack1_raw conv folders (apply (fun _ => none) o) (apply (fun _ => none) o) (pack1 conv folders (apply (fun _ => none) o)).length k hk
        rwa [List.take_length] at this
      have hc : complete1 conv folders false d = apply d (pack1 conv folders d) := rfl
      rw [hc, hfull, pack1_congr conv folders d _ hr]
      funext k
      refine apply_congr _ _ _ k fun hk => ?_
      cases hkr : k.isRaw with
      | true => exact hr k hkr
      | false =>
        have h1 : d k = none := by
          by_contra hne
          have := hp k hkr hne
          rw [pack1_congr conv folders d _ hr] at this
          exact hk this
        rw [h1]
        symm
        refine apply_of_not_mem _ _ _ fun hm => ?_
        rw [obtain1_keys folders _ _ k hm] at hkr
        cases hkr

/-- **C105** fails if the download or the extraction is interrupted, even by the Ctrl-C that the script calls safe: as soon as the raw directory has an
entry, no later run downloads or extracts anything. In particular, if the first run is interrupted when it has made the directory of the
first folder, no later run ever packs a sample. -/
theorem C105_refuted (conv : α → Option α) (f : Nat × List (N × List (N × α))) (rest : Folders N α) :
    (∀ d0 d : Disk (Key1 N) (Content1 N α), ¬ RawEmpty d0 → Later conv (f :: rest) d0 d → ∀ k : Key1 N, k.isRaw = true → d k = d0 k) ∧
    (∀ d, Later conv (f :: rest) (apply (fun _ => none) ((writes1 conv (f :: rest) (download1 (f :: rest)).length true (fun _ => none)).take 1)) d →
      ∀ name, d (.packed name) = none) := by
  refine ⟨fun d0 d hne h => later_raw hne h, ?_⟩
  intro d h name
  have h1 : apply (fun _ => none) ((writes1 conv (f :: rest) (download1 (f :: rest)).length true (fun _ => none)).take 1) =
      put (fun _ => (none : Option (Content1 N α))) (.folder f.1, .directory) := by
    unfold writes1 obtain1
    rw [if_pos rfl]
    unfold download1
    simp only [List.flatMap_cons, List.cons_append, List.length_cons, List.take_succ_cons, List.take_zero]
    rfl
  rw [h1] at h
  have hne : ¬ RawEmpty (put (fun _ => (none : Option (Content1 N α))) (Key1.folder f.1, .directory)) := by
    intro he
    have := he (.folder f.1) rfl
    rw [show put (fun _ => (none : Option (Content1 N α))) (Key1.folder f.1, .directory) (Key1.folder f.1) = some .directory from if_pos rfl] at this
    cases this
  have hraw := later_raw hne h
  have hp := later_packed (d0 := put (fun _ => (none : Option (Content1 N α))) (Key1.folder f.1, .directory)) (by
    intro k hk hc
    cases k with
    | packed n => exact absurd (if_neg (by intro h; cases h)) hc
    | _ => cases hk) h
  by_contra hc
  have := hp (.packed name) rfl hc
  have hnil : pack1 conv (f :: rest) d = [] := by
    unfold pack1
    have : ∀ x : N × α, d (.raw x.1) = none := fun x => by
      rw [hraw (.raw x.1) rfl]
      exact if_neg (by intro h; cases h)
    simp [this]
  rw [hnil] at this
  simp at this

/-- Two folders with an archive each. -/
def demoFolders : Folders Char Nat := [(1, [('y', [('a', 10)])]), (2, [('z', [('b', 20)])])]

/-- Without interruptions both samples are packed; a first run ended by Ctrl-C after the first archive packs the sample of this archive, and the
second run, although not interrupted, no other. -/
example : (match complete1 (fun x => some (x + 1)) demoFolders true (fun _ => none) (.packed 'a'), complete1 (fun x => some (x + 1)) demoFolders true (fun _ => none) (.packed 'b'),
      apply (fun _ => none) (writes1 (fun x => some (x + 1)) demoFolders 3 true (fun _ => none)) (.packed 'a'),
      complete1 (fun x => some (x + 1)) demoFolders false (apply (fun _ => none) (writes1 (fun x => some (x + 1)) demoFolders 3 true (fun _ => none))) (.packed 'b') with
    | some (.sample 11), some (.sample 21), some (.sample 11), none => true
    | _, _, _, _ => false) = true := by decide +kernel

/-- The hypotheses of `C105_from_scratch` are met by the two folders. -/
example : (∀ f ∈ demoFolders, ∀ z ∈ f.2, ∀ f' ∈ demoFolders, ∀ z' ∈ f'.2, f.1 = f'.1 → z.1 = z'.1 → z.2 = z'.2) ∧
    (∀ f ∈ demoFolders, ∀ z ∈ f.2, ∀ x ∈ z.2, ∀ f' ∈ demoFolders, ∀ z' ∈ f'.2, ∀ x' ∈ z'.2, x.1 = x'.1 → x.2 = x'.2) := by
  decide +kernel

/-- The hypotheses of `C105_rerun_partial` are met by a run that was interrupted while it packed the first sample. -/
example : (match apply (fun _ => none) ((writes1 (fun x => some (x + 1)) demoFolders 6 true (fun _ => none)).take 11) with
    | d => match d (.packed 'a'), d (.raw 'b'), d (.packed 'b') with
      | some .cut, some (.sample 20), none => true
      | _, _, _ => false) = true := by decide +kernel

end class1

end Verif.Crash
