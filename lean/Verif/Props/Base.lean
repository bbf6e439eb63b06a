import Verif.Proofs.BaseHist
import Verif.Spec.BaseDemo
import Verif.Model.BaseInit
/-!
# Properties C01 - C12 of the base scheduler
-/

namespace Verif.Base
open Verif
variable {V D Key : Type}

/-- The file order of the `k`-th pass (counted from 0) through the data: the list given at construction, or,
if shuffling is on, the outcome of the `(k+1)`-st shuffle. -/
def passOrder (w : World V D Key) (cfg : Cfg) (fl : List String) (key : Key) (k : Nat) : List String :=
  if cfg.randomize then epochOrder w key fl (k + 1) else fl

/-! ## C01 -/

/-- What a non-looping scheduler really delivers, for every sequence of batch sizes: the slices of the files in
the order in force, where a file listed directly after itself is served only once. -/
theorem C01_delivered_exactly (zero : V) (w : World V D Key) (cfg : Cfg) (hloop : cfg.loop = false)
    (hp : cfg.randomize = true → PermOK w) (fl : List String) (key : Key) (c : String → List (Sample V))
    (hy : ∀ p ∈ fl, Yields w p (c p)) {fsh o1 o2 named} (hu : Uniform (fl.flatMap c) fsh o1 o2 named)
    (ns : List Nat) (fuel : Nat) (hf : fl.length < fuel) :
    ∃ outs s', runBatches zero w cfg fuel ns (init w cfg fl key) = some (outs, s') ∧
      outs.flatMap delivered =
        (((dropRepeats (passOrder w cfg fl key 0)).flatMap c).take ns.sum).map Sample.row := by
  have hperm := shuffle_perm hp fl key
  have hfl : (init w cfg fl key : St D Key).fileList = passOrder w cfg fl key 0 := shuffles_order w cfg fl key 0
  have hmem : ∀ p, p ∈ (init w cfg fl key : St D Key).fileList ↔ p ∈ fl := fun p => hperm.mem_iff
  have hi : Inv w c (init w cfg fl key : St D Key) := inv_fresh (fun p hp' => hy p ((hmem p).mp hp'))
  obtain ⟨s', _, _, _, _, h5⟩ := runBatches_nonloop zero hloop ns _ hi
  have hrem : rem c (init w cfg fl key : St D Key) = (dropRepeats (passOrder w cfg fl key 0)).flatMap c := by
    rw [rem_fresh _ rfl rfl, streamAfter_none, hfl]
  have hlen : (init w cfg fl key : St D Key).fileList.length = fl.length := hperm.length_eq
  refine ⟨_, s', h5 fuel (by omega), ?_⟩
  rw [hrem]
  refine delivered_takeBatches_nonloop zero cfg hloop ns _ (uniform_sub hu ?_)
  intro x hx
  obtain ⟨p, hp', hxp⟩ := List.mem_flatMap.mp hx
  exact List.mem_flatMap.mpr ⟨p, (hmem p).mp (hfl ▸ (mem_dropRepeats _ _).mp hp'), hxp⟩

/-- C01, for file lists in which (after shuffling) no file directly follows itself; missing: lists with
adjacent repetitions, for which the claim is false (`C01_refuted`). -/
theorem C01_every_slice_once_partial (zero : V) (w : World V D Key) (cfg : Cfg) (hloop : cfg.loop = false)
    (hp : cfg.randomize = true → PermOK w) (fl : List String) (key : Key) (c : String → List (Sample V))
    (hy : ∀ p ∈ fl, Yields w p (c p)) {fsh o1 o2 named} (hu : Uniform (fl.flatMap c) fsh o1 o2 named)
    (hrep : List.IsChain (· ≠ ·) (passOrder w cfg fl key 0))
    (ns : List Nat) (fuel : Nat) (hf : fl.length < fuel) :
    ∃ outs s', runBatches zero w cfg fuel ns (init w cfg fl key) = some (outs, s') ∧
      outs.flatMap delivered = (((passOrder w cfg fl key 0).flatMap c).take ns.sum).map Sample.row := by
  have := C01_delivered_exactly zero w cfg hloop hp fl key c hy hu ns fuel hf
  rwa [dropRepeats_eq_self _ hrep] at this

/-- The hypotheses of C01 are met by a list with an unreadable file and an empty one. -/
example : ∃ outs s', runBatches 0 Demo.world ⟨false, true⟩ 7 [2, 2, 2] (init Demo.world ⟨false, true⟩ ["a", "x", "e", "b"] (.seed 0))
      = some (outs, s') ∧
    outs.flatMap delivered = [(Demo.sample "b" 3).row, (Demo.sample "a" 1).row, (Demo.sample "a" 2).row] :=
  C01_every_slice_once_partial 0 Demo.world ⟨false, true⟩ rfl (fun _ => Demo.world_perm) ["a", "x", "e", "b"] (.seed 0)
    Demo.contents (fun p hp => Demo.world_yields p (by rintro rfl; revert hp; decide)) (Demo.world_uniform _)
    (by decide) [2, 2, 2] 7 (by decide)

/-- The full C01 is false: a file listed twice in a row is served once. -/
theorem C01_refuted :
    ∃ outs s', runBatches 0 Demo.world ⟨false, false⟩ 7 [2, 2, 2] (init Demo.world ⟨false, false⟩ ["b", "b"] (.seed 0))
        = some (outs, s') ∧
      outs.flatMap delivered = [(Demo.sample "b" 3).row] ∧
      (((["b", "b"] : List String).flatMap Demo.contents).take 6).map Sample.row
        = [(Demo.sample "b" 3).row, (Demo.sample "b" 3).row] :=
  ⟨_, _, rfl, rfl, rfl⟩

/-! ## C02 -/

/-- C02: every batch returned by `get_batch(n)`, from any state, shows in its first rows the samples just drawn
(flagged), followed by blank rows; it is cut short only if the scheduler does not loop and its next sample does
not exist. The only assumption on the loader is that extracting a slice does not itself raise `StopIteration`. -/
theorem C02_mask_marks_real_rows (zero : V) (w : World V D Key) (cfg : Cfg) (hw : WorldWF w)
    (hns : ∀ p d i, w.slice p d i ≠ .fail .stopIteration) (fuel n : Nat) (s s' : St D Key) (b : Batch V)
    (h : getBatch zero w cfg fuel n s = some (.ok b, s')) :
    ∃ xs s1, Draws w cfg fuel s xs s1 ∧ xs ≠ [] ∧ xs.length ≤ n ∧ Shows zero xs n b ∧
      (xs.length < n → cfg.loop = false ∧ getNext w cfg fuel s1 = some (.stop, s')) ∧ (xs.length = n → s' = s1) := by
  unfold getBatch at h
  cases hc : collect w cfg fuel n s with
  | none => rw [hc] at h; simp at h
  | some res =>
    obtain ⟨r, s0⟩ := res
    rw [hc] at h
    cases r with
    | error e => simp at h
    | ok xs =>
      obtain ⟨s1, hd, hcase⟩ := collect_draws n fuel s hc
      have hle := collect_length n fuel s hc
      have hcut : xs.length < n → cfg.loop = false ∧ getNext w cfg fuel s1 = some (.stop, s0) := by
        intro hlt
        rcases hcase with ⟨hl, _⟩ | ⟨_, hstop | hraise⟩
        · omega
        · exact ⟨(getNext_stop fuel _ _ hstop).1, hstop⟩
        · exact absurd hraise (getNext_no_raise_stop hns fuel s1 s0)
      have hwf : ∀ x ∈ xs, x.WF := fun x hx => by
        obtain ⟨p, d, i, hs⟩ := draws_slice hd x hx
        exact hw p d i x hs
      have hloop : cfg.loop = true → xs.length = n := by
        intro hl
        by_contra hne
        have := (hcut (by omega)).1
        simp [hl] at this
      simp only at h
      have hne : xs.isEmpty = false := by
        cases hxe : xs.isEmpty with
        | false => rfl
        | true =>
          rw [hxe] at h
          simp only [if_true] at h
          have hx : xs = [] := List.isEmpty_iff.mp hxe
          subst hx
          split at h
          · simp only [Option.some.injEq, Prod.mk.injEq] at h
            exact absurd rfl (assemble_ok h.1 hle hloop (by simp)).1
          · simp at h
      rw [hne] at h
      simp only [Bool.false_eq_true, if_false, Option.some.injEq, Prod.mk.injEq] at h
      obtain ⟨h1, rfl⟩ := h
      obtain ⟨hx, hs⟩ := assemble_ok h1 hle hloop hwf
      refine ⟨xs, s1, hd, hx, hle, hs, hcut, ?_⟩
      intro hl
      rcases hcase with ⟨_, h⟩ | ⟨h, _⟩
      · exact h
      · omega

/-- A batch that is cut short: two samples and one blank row. -/
example : getBatch 0 Demo.world ⟨false, false⟩ 7 3 (init Demo.world ⟨false, false⟩ ["a"] (.seed 0)) =
    some (.ok ⟨⟨[3, 1, 1, 1], [1, 2, 0]⟩, none, none, [true, true, false], some ["a", "a", ""]⟩,
      ⟨["a"], 1, some ("a", Demo.contents "a"), 2, .seed 0⟩) := rfl

/-! ## C03 -/

/-- C03: once a non-looping scheduler has raised `StopIteration` for a batch of at least one sample, or has
returned a batch with a blank row, every later request raises `StopIteration` and changes nothing. -/
theorem C03_exhaustion_permanent (zero : V) (w : World V D Key) (cfg : Cfg) (hloop : cfg.loop = false)
    (fuel n : Nat) (hn : 0 < n) (s s' : St D Key) (r : Except Exc (Batch V))
    (h : getBatch zero w cfg fuel n s = some (r, s'))
    (hr : r = .error .stopIteration ∨ ∃ b, r = .ok b ∧ false ∈ b.mask) (ms : List Nat) (fuel' : Nat) (hf : 0 < fuel') :
    runBatches zero w cfg fuel' ms s' = some (ms.map (fun _ => .error .stopIteration), s') := by
  obtain ⟨xs, hc, hlt⟩ := getBatch_short hloop h hn hr
  obtain ⟨s1, _, hcase⟩ := collect_draws n fuel s hc
  have hstuck : ∀ m, collect w cfg fuel' m s' = some (.ok [], s') := by
    intro m
    obtain ⟨f, rfl⟩ : ∃ f, fuel' = f + 1 := ⟨fuel' - 1, by omega⟩
    cases m with
    | zero => rfl
    | succ m =>
      rcases hcase with ⟨h1, _⟩ | ⟨_, h1 | h1⟩
      · omega
      · simp only [collect, (getNext_stop fuel _ _ h1).2 f]
      · simp only [collect, getNext_raise_stable hloop fuel _ _ h1 f, if_true]
  induction ms with
  | nil => rfl
  | cons m ms ih =>
    have hg : getBatch zero w cfg fuel' m s' = some (.error .stopIteration, s') := by
      simp [getBatch, hstuck, hloop]
    simp [runBatches, hg, ih]

/-- The situation of C03 occurs: the second request is cut short. -/
example : ∃ b s', getBatch 0 Demo.world ⟨false, false⟩ 7 3 (init Demo.world ⟨false, false⟩ ["a"] (.seed 0)) = some (.ok b, s') ∧
    false ∈ b.mask := ⟨_, _, rfl, by decide⟩

/-! ## C04 -/

/-- What a looping scheduler delivers, whatever batch sizes are requested: every request is answered by a full
batch of real rows, and the rows are those of pass 0, pass 1, ... through the data, where again a file listed
directly after itself is served only once. -/
theorem C04_epochs_exactly (zero : V) (w : World V D Key) (cfg : Cfg) (hloop : cfg.loop = true)
    (hp : cfg.randomize = true → PermOK w) (fl : List String) (key : Key) (c : String → List (Sample V))
    (hy : ∀ p ∈ fl, Yields w p (c p)) {fsh o1 o2 named} (hu : Uniform (fl.flatMap c) fsh o1 o2 named)
    (hne : ∃ p ∈ fl, c p ≠ [])
    (ns : List Nat) (hpos : ∀ n ∈ ns, 0 < n) (fuel : Nat) (hf : 2 * fl.length ≤ fuel) :
    ∃ outs s', runBatches zero w cfg fuel ns (init w cfg fl key) = some (outs, s') ∧
      (∀ r ∈ outs, ∃ b, r = .ok b ∧ ∀ m ∈ b.mask, m = true) ∧
      ∃ K, ns.sum ≤ ((List.range K).flatMap (fun k => (dropRepeats (passOrder w cfg fl key k)).flatMap c)).length ∧
        outs.flatMap delivered =
          (((List.range K).flatMap (fun k => (dropRepeats (passOrder w cfg fl key k)).flatMap c)).take ns.sum).map Sample.row := by
  have hperm := shuffle_perm hp fl key
  have hmem : ∀ p, p ∈ (init w cfg fl key : St D Key).fileList ↔ p ∈ fl := fun p => hperm.mem_iff
  have hi : Inv w c (init w cfg fl key : St D Key) := inv_fresh (fun p hp' => hy p ((hmem p).mp hp'))
  have hlen : (init w cfg fl key : St D Key).fileList.length = fl.length := hperm.length_eq
  obtain ⟨p0, hp0, hc0⟩ := hne
  obtain ⟨xs, s', j, hxl, _, _, hstream, hrun⟩ := runBatches_loop zero hloop hp ns _ hpos hi ⟨p0, (hmem p0).mpr hp0, hc0⟩
  have hall : loopStream w cfg c (init w cfg fl key : St D Key) j =
      (List.range (j + 1)).flatMap (fun k => (dropRepeats (passOrder w cfg fl key k)).flatMap c) := by
    rw [loopStream_init]
    simp only [streamAfter_none, shuffles_order]
    rfl
  have h0 := hstream 0
  rw [Nat.zero_add, hall] at h0
  have hpass : ∀ k p, p ∈ passOrder w cfg fl key k → p ∈ fl := by
    intro k p hpk
    unfold passOrder at hpk
    split at hpk
    · rename_i hr
      exact (epochOrder_perm (hp hr) key fl (k + 1)).mem_iff.mp hpk
    · exact hpk
  have hux : Uniform xs fsh o1 o2 named := by
    refine uniform_sub hu (fun x hx => ?_)
    have hx' : x ∈ (List.range (j + 1)).flatMap (fun k => (dropRepeats (passOrder w cfg fl key k)).flatMap c) := by
      rw [h0]; exact List.mem_append_left _ hx
    obtain ⟨k, _, hxk⟩ := List.mem_flatMap.mp hx'
    obtain ⟨p, hpk, hxp⟩ := List.mem_flatMap.mp hxk
    exact List.mem_flatMap.mpr ⟨p, hpass k p ((mem_dropRepeats _ _).mp hpk), hxp⟩
  obtain ⟨hd, hok⟩ := delivered_takeBatches_loop zero cfg ns xs hpos hxl hux
  refine ⟨_, s', hrun fuel (by omega), hok, j + 1, ?_, ?_⟩
  · rw [h0, List.length_append, hxl]; omega
  · rw [hd, h0, ← hxl, List.take_left']
    rfl

/-- C04 for duplicate-free file lists: the samples form a sequence of complete epochs, each of which visits a
permutation of the file list (the list itself if shuffling is off). Missing: lists with repetitions, in which a
file listed directly after itself is served once (`C04_refuted`). -/
theorem C04_complete_epochs_partial (zero : V) (w : World V D Key) (cfg : Cfg) (hloop : cfg.loop = true)
    (hp : cfg.randomize = true → PermOK w) (fl : List String) (key : Key) (c : String → List (Sample V))
    (hy : ∀ p ∈ fl, Yields w p (c p)) {fsh o1 o2 named} (hu : Uniform (fl.flatMap c) fsh o1 o2 named)
    (hne : ∃ p ∈ fl, c p ≠ []) (hnd : fl.Nodup)
    (ns : List Nat) (hpos : ∀ n ∈ ns, 0 < n) (fuel : Nat) (hf : 2 * fl.length ≤ fuel) :
    ∃ (order : Nat → List String) (outs : List (Except Exc (Batch V))) (s' : St D Key),
      (∀ k, (order k).Perm fl) ∧ (cfg.randomize = false → ∀ k, order k = fl) ∧
      runBatches zero w cfg fuel ns (init w cfg fl key) = some (outs, s') ∧
      (∀ r ∈ outs, ∃ b, r = .ok b ∧ ∀ m ∈ b.mask, m = true) ∧
      ∃ K, ns.sum ≤ ((List.range K).flatMap (fun k => (order k).flatMap c)).length ∧
        outs.flatMap delivered = (((List.range K).flatMap (fun k => (order k).flatMap c)).take ns.sum).map Sample.row := by
  have hord : ∀ k, (passOrder w cfg fl key k).Perm fl := by
    intro k
    unfold passOrder
    split
    · rename_i hr; exact epochOrder_perm (hp hr) key fl (k + 1)
    · exact List.Perm.refl _
  obtain ⟨outs, s', h1, h2, K, h3, h4⟩ := C04_epochs_exactly zero w cfg hloop hp fl key c hy hu hne ns hpos fuel hf
  have heq : (fun k => (dropRepeats (passOrder w cfg fl key k)).flatMap c) = fun k => (passOrder w cfg fl key k).flatMap c := by
    funext k
    rw [dropRepeats_eq_self]
    exact nodup_chain ((hord k).nodup_iff.mpr hnd)
  rw [heq] at h3 h4
  exact ⟨passOrder w cfg fl key, outs, s', hord, fun hr k => by simp [passOrder, hr], h1, h2, K, h3, h4⟩

/-- The hypotheses of C04 are met. -/
example : ∃ outs s', runBatches 0 Demo.world ⟨true, true⟩ 8 [2, 1, 2] (init Demo.world ⟨true, true⟩ ["a", "x", "e", "b"] (.seed 0))
      = some (outs, s') ∧ (∀ r ∈ outs, ∃ b, r = .ok b ∧ ∀ m ∈ b.mask, m = true) := by
  obtain ⟨_, outs, s', _, _, h1, h2, _⟩ := C04_complete_epochs_partial 0 Demo.world ⟨true, true⟩ rfl (fun _ => Demo.world_perm)
    ["a", "x", "e", "b"] (.seed 0) Demo.contents (fun p hp => Demo.world_yields p (by rintro rfl; revert hp; decide))
    (Demo.world_uniform _) ⟨"a", by decide, by decide⟩ (by decide) [2, 1, 2] (by decide) 8 (by decide)
  exact ⟨outs, s', h1, h2⟩

/-- The full C04 is false: in every epoch a file listed twice in a row is served once. -/
theorem C04_refuted :
    ∃ outs s', runBatches 0 Demo.world ⟨true, false⟩ 8 [2, 2] (init Demo.world ⟨true, false⟩ ["b", "b", "a"] (.seed 0)) = some (outs, s') ∧
      outs.flatMap delivered = [Demo.sample "b" 3, Demo.sample "a" 1, Demo.sample "a" 2, Demo.sample "b" 3].map Sample.row ∧
      ((["b", "b", "a"] : List String).flatMap Demo.contents).map Sample.row
        = [Demo.sample "b" 3, Demo.sample "b" 3, Demo.sample "a" 1, Demo.sample "a" 2].map Sample.row :=
  ⟨_, _, rfl, rfl, rfl⟩

/-! ## C05 -/

/-- C05 where it holds: if some file yields a slice, every request of a looping scheduler is answered, by any
history of positive sizes, within `2 * len(file_list)` passes of the loop per sample. Missing: data sets without
a single loadable slice. -/
theorem C05_looping_answers_partial (zero : V) (w : World V D Key) (cfg : Cfg) (hloop : cfg.loop = true)
    (hp : cfg.randomize = true → PermOK w) (fl : List String) (key : Key) (c : String → List (Sample V))
    (hy : ∀ p ∈ fl, Yields w p (c p)) (hne : ∃ p ∈ fl, c p ≠ []) (ns : List Nat) (hpos : ∀ n ∈ ns, 0 < n) :
    ∃ r, runBatches zero w cfg (2 * fl.length) ns (init w cfg fl key) = some r := by
  have hperm := shuffle_perm hp fl key
  have hmem : ∀ p, p ∈ (init w cfg fl key : St D Key).fileList ↔ p ∈ fl := fun p => hperm.mem_iff
  have hi : Inv w c (init w cfg fl key : St D Key) := inv_fresh (fun p hp' => hy p ((hmem p).mp hp'))
  have hlen : (init w cfg fl key : St D Key).fileList.length = fl.length := hperm.length_eq
  obtain ⟨p0, hp0, hc0⟩ := hne
  obtain ⟨xs, s', j, _, _, _, _, hrun⟩ := runBatches_loop zero hloop hp ns _ hpos hi ⟨p0, (hmem p0).mpr hp0, hc0⟩
  exact ⟨_, hrun _ (by omega)⟩

/-- C05 is false in general: if no file of the (non-empty) list yields a slice, `get_batch` of a looping
scheduler never returns, however many passes of the loop are allowed. -/
theorem C05_refuted (zero : V) (w : World V D Key) (cfg : Cfg) (hloop : cfg.loop = true)
    (hp : cfg.randomize = true → PermOK w) (fl : List String) (hfl : fl ≠ []) (key : Key)
    (hy : ∀ p ∈ fl, Yields w p []) (n : Nat) (hn : 0 < n) (fuel : Nat) :
    getBatch zero w cfg fuel n (init w cfg fl key) = none := by
  have hperm := shuffle_perm hp fl key
  have hmem : ∀ p, p ∈ (init w cfg fl key : St D Key).fileList ↔ p ∈ fl := fun p => hperm.mem_iff
  have hi : Inv w (fun _ => []) (init w cfg fl key : St D Key) := inv_fresh (fun p hp' => hy p ((hmem p).mp hp'))
  have hne : (init w cfg fl key : St D Key).fileList ≠ [] := by
    intro h
    have hl : (init w cfg fl key : St D Key).fileList.length = fl.length := hperm.length_eq
    rw [h] at hl
    exact hfl (List.eq_nil_of_length_eq_zero hl.symm)
  obtain ⟨m, rfl⟩ : ∃ m, n = m + 1 := ⟨n - 1, by omega⟩
  simp [getBatch, collect, getNext_nothing hloop hp fuel _ hi hne]

/-- A list of one unreadable file is such a data set. -/
example (fuel : Nat) : getBatch 0 Demo.world ⟨true, false⟩ fuel 1 (init Demo.world ⟨true, false⟩ ["x"] (.seed 0)) = none :=
  C05_refuted 0 Demo.world ⟨true, false⟩ rfl (by simp) ["x"] (by simp) (.seed 0)
    (fun p hp => by
      have : p = "x" := by simpa using hp
      subst this; exact Demo.world_yields "x" (by decide)) 1 (by decide) fuel

/-! ## C06 -/

/-- The paths that can be loaded. -/
def loadable (w : World V D Key) (p : String) : Bool := (w.load p).isOk

/-- C06 for unshuffled lists in which the readable files, taken alone, contain no immediate repetition:
the outcomes of any history of requests are those for the list without the unreadable files. Missing: readable
files that repeat (then the claim is false, `C06_refuted`), and shuffled lists (permutations of different
lengths cannot be compared). -/
theorem C06_unreadable_skipped_partial (zero : V) (w : World V D Key) (cfg : Cfg) (hr : cfg.randomize = false)
    (fl : List String) (key : Key) (c : String → List (Sample V)) (hy : ∀ p ∈ fl, Yields w p (c p))
    (hrep : List.IsChain (· ≠ ·) (fl.filter (loadable w)))
    (hne : cfg.loop = true → ∃ p ∈ fl, c p ≠ []) (ns : List Nat) (hpos : ∀ n ∈ ns, 0 < n)
    (fuel : Nat) (hf : 2 * fl.length < fuel) :
    ∃ outs s1 s2, runBatches zero w cfg fuel ns (init w cfg fl key) = some (outs, s1) ∧
      runBatches zero w cfg fuel ns (init w cfg (fl.filter (loadable w)) key) = some (outs, s2) := by
  -- contents, made empty outside the list
  let c' : String → List (Sample V) := fun p => if loadable w p then c p else []
  have hyc : ∀ p ∈ fl, Yields w p (c' p) := by
    intro p hp
    have h := hy p hp
    by_cases hl : loadable w p = true
    · simp only [c', if_pos hl]; exact h
    · simp only [c', if_neg hl]
      unfold Yields
      unfold loadable at hl
      cases hw : w.load p with
      | ok d => rw [hw] at hl; simp [Except.isOk, Except.toBool] at hl
      | error e => rfl
  have hbad : ∀ p, loadable w p = false → c' p = [] := fun p hp => by simp [c', hp]
  have hfl : ∀ l : List String, (init w cfg l key : St D Key).fileList = l := fun l => by simp [init, shuffle, hr]
  have hsub : ∀ p ∈ fl.filter (loadable w), p ∈ fl := fun p hp => (List.mem_filter.mp hp).1
  have hi1 : Inv w c' (init w cfg fl key : St D Key) := inv_fresh (by simpa [hfl, init, shuffle, hr] using hyc)
  have hi2 : Inv w c' (init w cfg (fl.filter (loadable w)) key : St D Key) :=
    inv_fresh (fun p hp => hyc p (hsub p (by simpa [shuffle, hr] using hp)))
  have hs1 : streamAfter c' none fl = (fl.filter (loadable w)).flatMap c' := streamAfter_none_filter hbad fl hrep
  have hs2 : streamAfter c' none (fl.filter (loadable w)) = (fl.filter (loadable w)).flatMap c' := by
    rw [streamAfter_none, dropRepeats_eq_self _ hrep]
  have hll : (fl.filter (loadable w)).length ≤ fl.length := List.length_filter_le _ _
  cases hloop : cfg.loop with
  | false =>
    obtain ⟨s1, _, _, _, _, h1⟩ := runBatches_nonloop zero hloop ns _ hi1
    obtain ⟨s2, _, _, _, _, h2⟩ := runBatches_nonloop zero hloop ns _ hi2
    have e1 : rem c' (init w cfg fl key : St D Key) = rem c' (init w cfg (fl.filter (loadable w)) key : St D Key) := by
      rw [rem_fresh _ rfl rfl, rem_fresh _ rfl rfl, hfl, hfl, hs1, hs2]
    refine ⟨_, s1, s2, h1 fuel (by rw [hfl]; omega), ?_⟩
    rw [h2 fuel (by rw [hfl]; omega), e1]
  | true =>
    have hp : cfg.randomize = true → PermOK w := by simp [hr]
    obtain ⟨p0, hp0, hc0⟩ := hne hloop
    have hl0 : loadable w p0 = true := by
      by_contra hl
      have h := hy p0 hp0
      unfold Yields at h
      unfold loadable at hl
      cases hw : w.load p0 with
      | ok d => rw [hw] at hl; simp [Except.isOk, Except.toBool] at hl
      | error e => rw [hw] at h; exact hc0 h
    have hc0' : c' p0 ≠ [] := by simpa [c', hl0] using hc0
    obtain ⟨xs1, s1, j1, hx1, _, _, hst1, hrun1⟩ := runBatches_loop zero hloop hp ns _ hpos hi1 ⟨p0, by rw [hfl]; exact hp0, hc0'⟩
    obtain ⟨xs2, s2, j2, hx2, _, _, hst2, hrun2⟩ := runBatches_loop zero hloop hp ns _ hpos hi2
      ⟨p0, by rw [hfl]; exact List.mem_filter.mpr ⟨hp0, hl0⟩, hc0'⟩
    have e : ∀ K, loopStream w cfg c' (init w cfg fl key : St D Key) K =
        loopStream w cfg c' (init w cfg (fl.filter (loadable w)) key : St D Key) K := by
      intro K
      rw [loopStream_init, loopStream_init]
      simp only [shuffles_order, hr, Bool.false_eq_true, if_false, hs1, hs2]
    have hxs : xs1 = xs2 := by
      have a := hst1 j2
      have b := hst2 j1
      rw [e, Nat.add_comm j2 j1, b] at a
      exact (List.append_inj_left a (by rw [hx1, hx2])).symm
    refine ⟨_, s1, s2, hrun1 fuel (by rw [hfl]; omega), ?_⟩
    rw [hrun2 fuel (by rw [hfl]; omega), hxs]

/-- The hypotheses of C06 are met by a list with unreadable files. -/
example : ∃ outs s1 s2, runBatches 0 Demo.world ⟨true, false⟩ 9 [2, 3] (init Demo.world ⟨true, false⟩ ["x", "a", "y", "b"] (.seed 0))
      = some (outs, s1) ∧
    runBatches 0 Demo.world ⟨true, false⟩ 9 [2, 3] (init Demo.world ⟨true, false⟩ ["a", "b"] (.seed 0)) = some (outs, s2) :=
  C06_unreadable_skipped_partial 0 Demo.world ⟨true, false⟩ rfl ["x", "a", "y", "b"] (.seed 0) Demo.contents
    (fun p hp => Demo.world_yields p (by rintro rfl; revert hp; decide)) (by decide)
    (fun _ => ⟨"a", by decide, by decide⟩) [2, 3] (by decide) 9 (by decide)

/-- The full C06 is false: removing the unreadable file between two occurrences of "b" changes the stream. -/
theorem C06_refuted :
    ∃ o1 s1 o2 s2, runBatches 0 Demo.world ⟨false, false⟩ 9 [2] (init Demo.world ⟨false, false⟩ ["b", "x", "b"] (.seed 0)) = some (o1, s1) ∧
      runBatches 0 Demo.world ⟨false, false⟩ 9 [2]
        (init Demo.world ⟨false, false⟩ ((["b", "x", "b"] : List String).filter (loadable Demo.world)) (.seed 0)) = some (o2, s2) ∧
      o1.flatMap delivered = [(Demo.sample "b" 3).row, (Demo.sample "b" 3).row] ∧ o2.flatMap delivered = [(Demo.sample "b" 3).row] :=
  ⟨_, _, _, _, rfl, rfl, rfl, rfl⟩

/-! ## C07 -/

/-- C07: without shuffling, after any history of requests (of any size, successful or failing) and resets the
file list is the one given at construction, and a `reset()` then restores exactly the state of a freshly
constructed scheduler. -/
theorem C07_reset_restarts (zero : V) (w : World V D Key) (cfg : Cfg) (hr : cfg.randomize = false) (fl : List String)
    (key : Key) (fuel : Nat) (ops : List Op) (s : St D Key)
    (h : runOps zero w cfg fuel ops (init w cfg fl key) = some s) :
    s.fileList = fl ∧ reset w cfg s = init w cfg fl key := by
  obtain ⟨k, hk⟩ := init_later h
  rw [shuffles_fixed w cfg hr] at hk
  simp only [Prod.mk.injEq] at hk
  exact ⟨hk.1, by simp [reset, init, hk.1, hk.2]⟩

/-- A history for C07 that stops in the middle of a file, with a failing request before. -/
example : ∃ s, runOps 0 Demo.world ⟨false, false⟩ 9 [.getBatch 1, .getBatch 9, .getBatch 1, .reset, .getBatch 1]
    (init Demo.world ⟨false, false⟩ ["a", "b"] (.seed 0)) = some s ∧ s.sliceIdx = 1 := ⟨_, rfl, rfl⟩

/-! ## C08 -/

/-- C08: whatever permutations the random generator produces, after any history the file list is a permutation
of the list given at construction. -/
theorem C08_shuffling_permutes (zero : V) (w : World V D Key) (hp : PermOK w) (cfg : Cfg) (fl : List String) (key : Key)
    (fuel : Nat) (ops : List Op) (s : St D Key) (h : runOps zero w cfg fuel ops (init w cfg fl key) = some s) :
    s.fileList.Perm fl := by
  obtain ⟨k, hk⟩ := init_later h
  have : s.fileList = passOrder w cfg fl key k := by
    have := congrArg Prod.fst hk
    rw [shuffles_order] at this
    exact this
  rw [this]
  unfold passOrder
  split
  · exact epochOrder_perm hp key fl (k + 1)
  · exact List.Perm.refl _

/-- A history for C08 with three shuffles (the example permutation reverses). -/
example : ∃ s, runOps 0 Demo.world ⟨true, true⟩ 9 [.getBatch 4, .reset] (init Demo.world ⟨true, true⟩ ["a", "b"] (.seed 0)) = some s ∧
    s.fileList = ["b", "a"] := ⟨_, rfl, rfl⟩

/-! ## C09 -/

/-- C09, first half: with shuffling, the file order and the key after any history are determined by the key and
list given at construction and the number of shuffles performed so far (at least the one at construction). -/
theorem C09_order_depends_on_key_alone (zero : V) (w : World V D Key) (cfg : Cfg) (hr : cfg.randomize = true)
    (fl : List String) (key : Key) (fuel : Nat) (ops : List Op) (s : St D Key)
    (h : runOps zero w cfg fuel ops (init w cfg fl key) = some s) :
    ∃ k, 0 < k ∧ s.fileList = epochOrder w key fl k ∧ s.key = epochKey w key k := by
  obtain ⟨k, hk⟩ := init_later h
  rw [shuffles_random w cfg hr] at hk
  simp only [Prod.mk.injEq] at hk
  exact ⟨k + 1, by omega, hk.1, hk.2⟩

/-- C09, second half: the keys handed to the successive shuffles are pairwise different (as derivations), and
none of them is ever the key that is kept. -/
theorem C09_shuffle_keys_distinct (w : World V D KeyTerm) (hs : ∀ k, w.split k = k.split2) (key : KeyTerm) :
    Function.Injective (fun k => (w.split (epochKey w key k)).2) ∧
    ∀ i j, (w.split (epochKey w key i)).2 ≠ epochKey w key (j + 1) := by
  constructor
  · intro i j h
    have := congrArg KeyTerm.depth h
    simp only [hs, KeyTerm.split2, KeyTerm.depth, epochKey_depth w hs] at this
    omega
  · intro i j h
    simp only [hs, KeyTerm.split2, epochKey] at h
    simp at h

/-- Two histories with the same number of shuffles but different requests end with the same order. -/
example : ∃ s t, runOps 0 Demo.world ⟨true, true⟩ 9 [.getBatch 4] (init Demo.world ⟨true, true⟩ ["a", "b"] (.seed 0)) = some s ∧
    runOps 0 Demo.world ⟨true, true⟩ 9 [.getBatch 1, .reset] (init Demo.world ⟨true, true⟩ ["a", "b"] (.seed 0)) = some t ∧
    s.fileList = t.fileList ∧ s.key = t.key := ⟨_, _, rfl, rfl, rfl, rfl⟩

/-! ## C11 -/

/-- C11 for an arbitrary loader and arbitrary state: if `get_batch(m)` returns a batch and the following
`get_batch(n)` returns a batch or reports exhaustion, then `get_batch(m+n)` in the original state draws the very
same samples in the same order and leaves the scheduler in the same state. -/
theorem C11_batch_boundaries (zero : V) (w : World V D Key) (cfg : Cfg) (hw : WorldWF w)
    (hns : ∀ p d i, w.slice p d i ≠ .fail .stopIteration) (fuel m n : Nat) (hn : 0 < n) (s s1 s2 : St D Key) (b1 : Batch V)
    (r2 : Except Exc (Batch V)) (h1 : getBatch zero w cfg fuel m s = some (.ok b1, s1))
    (h2 : getBatch zero w cfg fuel n s1 = some (r2, s2)) (hr2 : (∃ b2, r2 = .ok b2) ∨ (r2 = .error .stopIteration)) :
    ∃ xs1 xs2 t r, Draws w cfg fuel s (xs1 ++ xs2) t ∧ Shows zero xs1 m b1 ∧ (∀ b2, r2 = .ok b2 → Shows zero xs2 n b2) ∧
      (r2 = .error .stopIteration → xs2 = []) ∧
      getBatch zero w cfg fuel (m + n) s = some (r, s2) ∧ (∀ b, r = .ok b → Shows zero (xs1 ++ xs2) (m + n) b) ∧
      (∀ fsh o1 o2 named, Uniform (xs1 ++ xs2) fsh o1 o2 named → ∃ b, r = .ok b ∧
        delivered (.ok b) = delivered (.ok b1) ++ delivered r2) := by
  obtain ⟨xs1, hc1, hx1, hs1, _⟩ := getBatch_collect hns hw h1
  obtain ⟨xs2, hc2, ha2⟩ := getBatch_collect' hns hw h2 hr2
  obtain ⟨t1, hd1, hcase1⟩ := collect_draws m fuel s hc1
  obtain ⟨t2, hd2, hcase2⟩ := collect_draws n fuel s1 hc2
  -- the combined loop
  have hcomb : collect w cfg fuel (m + n) s = some (.ok (xs1 ++ xs2), s2) ∧ ∃ t, Draws w cfg fuel s (xs1 ++ xs2) t := by
    rcases Nat.lt_or_ge xs1.length m with hlt | hge
    · rcases hcase1 with ⟨h, _⟩ | ⟨_, hst | hra⟩
      · omega
      · have hstop := (getNext_stop fuel _ _ hst).2
        have hfuel : fuel ≠ 0 := by rintro rfl; simp [getNext] at hst
        obtain ⟨f, rfl⟩ : ∃ f, fuel = f + 1 := ⟨fuel - 1, by omega⟩
        obtain ⟨n', rfl⟩ : ∃ n', n = n' + 1 := ⟨n - 1, by omega⟩
        have hnil := collect_succ_stop (n := n') (hstop f)
        rw [hc2] at hnil
        simp only [Option.some.injEq, Prod.mk.injEq, Except.ok.injEq] at hnil
        obtain ⟨rfl, rfl⟩ := hnil
        rw [List.append_nil]
        exact ⟨collect_add_short _ _ m s hc1 hlt, t1, hd1⟩
      · exact absurd hra (getNext_no_raise_stop hns fuel _ _)
    · have hl : xs1.length = m := Nat.le_antisymm (collect_length m fuel s hc1) hge
      rcases hcase1 with ⟨_, rfl⟩ | ⟨h, _⟩
      · refine ⟨?_, t2, draws_append hd1 hd2⟩
        rw [collect_add fuel n m s hc1 hl, hc2]; rfl
      · omega
  obtain ⟨hcc, t, hdt⟩ := hcomb
  have hne : (xs1 ++ xs2) ≠ [] := by simp [hx1]
  have hbatch : getBatch zero w cfg fuel (m + n) s = some (assemble zero cfg (xs1 ++ xs2) (m + n), s2) := by
    have : (xs1 ++ xs2).isEmpty = false := by simp [hx1]
    simp [getBatch, hcc, hx1]
  have hle := collect_length _ fuel s hcc
  have hloop : cfg.loop = true → (xs1 ++ xs2).length = m + n := by
    intro hl
    obtain ⟨t', _, hcase⟩ := collect_draws _ fuel s hcc
    rcases hcase with ⟨h, _⟩ | ⟨_, h | h⟩
    · exact h
    · have := (getNext_stop fuel _ _ h).1; simp [hl] at this
    · exact absurd h (getNext_no_raise_stop hns fuel _ _)
  have hwf : ∀ x ∈ xs1 ++ xs2, x.WF := fun x hx => by
    obtain ⟨p, d, i, hs⟩ := draws_slice hdt x hx
    exact hw p d i x hs
  refine ⟨xs1, xs2, t, _, hdt, hs1, fun b2 hb2 => (ha2.1 b2 hb2), ha2.2, hbatch, ?_, ?_⟩
  · intro b hb
    exact (assemble_ok hb hle hloop hwf).2
  · intro fsh o1 o2 named hu
    obtain ⟨b, hb, _, hdel⟩ := assemble_uniform zero cfg hne hle hloop hu
    refine ⟨b, hb, ?_⟩
    rw [hdel, List.map_append, delivered_shows hs1 (uniform_sub hu (by simp +contextual))]
    congr 1
    rcases hr2 with ⟨b2, rfl⟩ | rfl
    · rw [delivered_shows (ha2.1 b2 rfl) (uniform_sub hu (by simp +contextual))]
    · rw [ha2.2 rfl]; rfl

/-- Two requests and the combined one; the second of the two is cut short. -/
example : ∃ b1 s1 b2 s2 b, getBatch 0 Demo.world ⟨false, false⟩ 9 2 (init Demo.world ⟨false, false⟩ ["a", "b"] (.seed 0)) = some (.ok b1, s1) ∧
    getBatch 0 Demo.world ⟨false, false⟩ 9 2 s1 = some (.ok b2, s2) ∧
    getBatch 0 Demo.world ⟨false, false⟩ 9 4 (init Demo.world ⟨false, false⟩ ["a", "b"] (.seed 0)) = some (.ok b, s2) ∧
    delivered (.ok b) = delivered (.ok b1) ++ delivered (.ok b2) := ⟨_, _, _, _, _, rfl, rfl, rfl, rfl⟩

/-! ## C12 -/

/-- C12 is false: with the files "b" (one slice) and "f" (every slice fails), `get_batch(2)` fails after having
taken the slice of "b", and no later request, of any size, ever delivers it. -/
theorem C12_refuted :
    ∃ s', getBatch 0 Demo.world ⟨false, false⟩ 9 2 (init Demo.world ⟨false, false⟩ ["b", "f"] (.seed 0)) = some (.error .typeError, s') ∧
      delivered (.ok ⟨⟨[1, 1, 1, 1], [3]⟩, none, none, [true], some ["b"]⟩) = [(Demo.sample "b" 3).row] ∧
      ∀ (ms : List Nat) fuel outs s'', runBatches 0 Demo.world ⟨false, false⟩ fuel ms s' = some (outs, s'') → outs.flatMap delivered = [] := by
  refine ⟨_, rfl, rfl, ?_⟩
  intro ms
  induction ms with
  | nil =>
    intro fuel outs s'' h
    simp only [runBatches, Option.some.injEq, Prod.mk.injEq] at h
    rw [← h.1]; rfl
  | cons m ms ih =>
    intro fuel outs s'' h
    have hg : ∀ r t, getBatch 0 Demo.world ⟨false, false⟩ fuel m ⟨["b", "f"], 1, some ("f", []), 0, .seed 0⟩ = some (r, t) →
        delivered r = [] ∧ t = ⟨["b", "f"], 1, some ("f", []), 0, .seed 0⟩ := by
      intro r t hgb
      cases m with
      | zero =>
        simp only [getBatch, collect, List.isEmpty_nil, if_true, Bool.false_eq_true, if_false, Option.some.injEq, Prod.mk.injEq] at hgb
        rw [← hgb.1, ← hgb.2]; exact ⟨rfl, rfl⟩
      | succ m =>
        cases fuel with
        | zero => simp [getBatch, collect, getNext] at hgb
        | succ f =>
          have : getBatch 0 Demo.world ⟨false, false⟩ (f + 1) (m + 1) ⟨["b", "f"], 1, some ("f", []), 0, .seed 0⟩ =
            some (.error .typeError, ⟨["b", "f"], 1, some ("f", []), 0, .seed 0⟩) := rfl
          rw [this] at hgb
          simp only [Option.some.injEq, Prod.mk.injEq] at hgb
          rw [← hgb.1, ← hgb.2]; exact ⟨rfl, rfl⟩
    simp only [runBatches] at h
    split at h
    · simp at h
    · rename_i r t hgb
      obtain ⟨hr, rfl⟩ := hg r t hgb
      split at h
      · simp at h
      · rename_i rs t' hrs
        simp only [Option.some.injEq, Prod.mk.injEq] at h
        rw [← h.1, List.flatMap_cons, hr, List.nil_append]
        exact ih fuel rs t' hrs

theorem getNext_raise_again {w : World V D Key} {cfg : Cfg} {e : Exc} :
    ∀ (fuel : Nat) (s s' : St D Key), getNext w cfg fuel s = some (.raise e, s') → s'.fileList ≠ [] →
      ∀ f, getNext w cfg (f + 1) s' = some (.raise e, s')
  | 0, s, s', h => by simp [getNext] at h
  | fuel + 1, s, s', h => by
    intro hne
    simp only [getNext] at h
    split at h
    · exact getNext_raise_again fuel _ s' h hne
    · simp at h
    · simp at h
    · rename_i hi
      simp only [Option.some.injEq, Prod.mk.injEq, Next.raise.injEq] at h
      obtain ⟨rfl, rfl⟩ := h
      intro f
      unfold iter at hi
      split at hi
      · rename_i hlt
        obtain ⟨h1, h2, h3⟩ := body_raise hi
        simp [getNext, iter, h2, h3, hlt, h1]
      · split at hi
        · obtain ⟨h1, h2, h3⟩ := body_raise hi
          have hpos := List.length_pos_iff.mpr hne
          have hlt : (reset w cfg s).index < (reset w cfg s).fileList.length := by rw [← h3]; exact hpos
          simp [getNext, iter, h2, h3, hlt, h1]
        · simp at hi

/-- What remains of C12: when `get_batch` fails with an exception from extracting a
slice, exactly the samples `xs` drawn before are lost; nothing behind the failing slice is skipped, since every
later request fails at the same place with the same exception and leaves the state unchanged. Missing: the
samples `xs` themselves. -/
theorem C12_failure_repeats_partial (zero : V) (w : World V D Key) (cfg : Cfg) (fuel n : Nat)
    (s s' : St D Key) (e : Exc) (he : e ≠ .stopIteration) (hv : e ≠ .valueError) (hfl : s'.fileList ≠ [])
    (h : getBatch zero w cfg fuel n s = some (.error e, s')) :
    ∃ xs s1, Draws w cfg fuel s xs s1 ∧ xs.length < n ∧ getNext w cfg fuel s1 = some (.raise e, s') ∧
      ∀ m fuel', 0 < m → 0 < fuel' → getBatch zero w cfg fuel' m s' = some (.error e, s') := by
  obtain ⟨xs, s1, hd, hl, hg⟩ := getBatch_error he hv h
  refine ⟨xs, s1, hd, hl, hg, ?_⟩
  intro m fuel' hm hf
  obtain ⟨f, rfl⟩ : ∃ f, fuel' = f + 1 := ⟨fuel' - 1, by omega⟩
  obtain ⟨m, rfl⟩ : ∃ k, m = k + 1 := ⟨m - 1, by omega⟩
  simp [getBatch, collect, getNext_raise_again fuel _ _ hg hfl f, he]

/-- The hypotheses of the partial C12 are met (by the same run as in the refutation). -/
example : ∃ s', getBatch 0 Demo.world ⟨false, false⟩ 9 2 (init Demo.world ⟨false, false⟩ ["b", "f"] (.seed 0)) =
    some (.error .typeError, s') ∧ s'.fileList ≠ [] := ⟨_, rfl, by decide⟩

/-- The same with a looping scheduler. -/
example : ∃ s', getBatch 0 Demo.world ⟨true, false⟩ 9 3 (init Demo.world ⟨true, false⟩ ["b", "f"] (.seed 0)) =
    some (.error .typeError, s') ∧ s'.fileList ≠ [] := ⟨_, rfl, by decide⟩

end Verif.Base

/-! ## C10 -/

namespace Verif.BaseInit
open Verif

/-- The specified expansion: every directory is replaced, in place, by a sorted arrangement of its matching
files; everything else is kept. -/
inductive Expands (fs : FS) : List String → List String → Prop
  | nil : Expands fs [] []
  | file {p l l'} (h : fs.isDir p = false) (t : Expands fs l l') : Expands fs (p :: l) (p :: l')
  | dir {p l l'} (found : List String) (h : fs.isDir p = true) (hperm : found.Perm (fs.glob p))
      (hsorted : found.Pairwise (· ≤ ·)) (t : Expands fs l l') : Expands fs (p :: l) (found ++ l')

/-- C10: the constructor succeeds with the list `fl` and the flags `r`, `lp` iff the flags are these booleans and
the argument is a list of strings which expands to the non-empty list `fl` of existing files; every other call
raises `ValueError`. -/
theorem C10_constructor_accepts (fs : FS) (fileList randomize loop : Val) :
    (∀ fl r lp, init fs fileList randomize loop = .ok (fl, r, lp) ↔
      randomize = .bool r ∧ loop = .bool lp ∧
      ∃ l : List String, fileList = .list (l.map some) ∧ Expands fs l fl ∧ fl ≠ [] ∧ ∀ p ∈ fl, fs.isFile p = true) ∧
    (∀ e, init fs fileList randomize loop = .error e → e = .valueError) := by
  have hstr : ∀ items l, strings items = some l ↔ items = l.map some := by
    intro items
    induction items with
    | nil => intro l; cases l <;> simp [strings]
    | cons a items ih =>
      intro l
      cases a with
      | none => cases l <;> simp [strings]
      | some a =>
        simp only [strings, Option.map_eq_some_iff]
        constructor
        · rintro ⟨l', h1, rfl⟩; simp [(ih l').mp h1]
        · intro h
          cases l with
          | nil => simp at h
          | cons b l =>
            simp only [List.map_cons, List.cons.injEq, Option.some.injEq] at h
            exact ⟨l, (ih l).mpr h.2, by rw [h.1]⟩
  have hexp : ∀ l fl, Expands fs l fl ↔ fl = expand fs l := by
    have hs : ∀ l : List String, (l.mergeSort (· ≤ ·)).Pairwise (· ≤ ·) := by
      intro l
      have := List.pairwise_mergeSort (le := fun (a b : String) => decide (a ≤ b))
        (fun a b c h1 h2 => by simp only [decide_eq_true_eq] at h1 h2 ⊢; exact le_trans h1 h2)
        (fun a b => by simp only [Bool.or_eq_true, decide_eq_true_eq]; exact le_total a b) l
      simpa using this
    intro l
    induction l with
    | nil =>
      intro fl
      constructor
      · intro h; cases h; rfl
      · rintro rfl; exact .nil
    | cons p l ih =>
      intro fl
      cases hd : fs.isDir p with
      | false =>
        constructor
        · intro h
          cases h with
          | file h t => simp [expand, hd, (ih _).mp t]
          | dir found h _ _ t => simp [hd] at h
        · intro h
          simp only [expand, hd, Bool.false_eq_true, if_false] at h
          rw [h]
          exact .file hd ((ih _).mpr rfl)
      | true =>
        constructor
        · intro h
          cases h with
          | file h t => simp [hd] at h
          | dir found h hp hso t =>
            simp only [expand, hd, if_true, (ih _).mp t]
            congr 1
            have hp' : found.Perm ((fs.glob p).mergeSort (· ≤ ·)) := hp.trans (List.mergeSort_perm _ _).symm
            exact hp'.eq_of_pairwise (fun a b _ _ h1 h2 => le_antisymm h1 h2) hso (hs _)
        · intro h
          simp only [expand, hd, if_true] at h
          rw [h]
          exact .dir _ hd (List.mergeSort_perm _ _) (hs _) ((ih _).mpr rfl)
  have hchk : ∀ l, (checkFiles fs l = .ok () ↔ ∀ p ∈ l, fs.isFile p = true) ∧ ∀ e, checkFiles fs l = .error e → e = .valueError := by
    intro l
    induction l with
    | nil => simp [checkFiles]
    | cons p l ih =>
      cases hf : fs.isFile p with
      | true => simpa [checkFiles, hf] using ih
      | false =>
        simp only [checkFiles, hf, Bool.false_eq_true, if_false]
        refine ⟨⟨by simp, fun h => ?_⟩, fun e h => by simpa using h.symm⟩
        have := h p (by simp)
        simp [hf] at this
  constructor
  · intro fl r lp
    constructor
    · intro h
      unfold init at h
      cases fileList with
      | list items =>
        simp only at h
        cases hs : strings items with
        | none => rw [hs] at h; simp at h
        | some l =>
          rw [hs] at h
          simp only at h
          split at h
          · simp at h
          · rename_i hne
            cases hc : checkFiles fs (expand fs l) with
            | error e => rw [hc] at h; simp at h
            | ok u =>
              rw [hc] at h
              cases randomize with
              | bool r' =>
                cases loop with
                | bool lp' =>
                  simp only [Except.ok.injEq, Prod.mk.injEq] at h
                  obtain ⟨rfl, rfl, rfl⟩ := h
                  exact ⟨rfl, rfl, l, by rw [(hstr _ _).mp hs], (hexp _ _).mpr rfl, by simpa using hne, (hchk _).1.mp hc⟩
                | _ => simp at h
              | _ => simp at h
      | _ => simp at h
    · rintro ⟨rfl, rfl, l, rfl, he, hne, hf⟩
      have h1 := (hstr (l.map some) l).mpr rfl
      have h2 := (hexp _ _).mp he
      subst h2
      have h3 := (hchk _).1.mpr hf
      simp [init, h1, h3, hne]
  · intro e h
    unfold init at h
    cases fileList with
    | list items =>
      simp only at h
      split at h
      · simpa using h.symm
      · split at h
        · simpa using h.symm
        · split at h
          · rename_i hc
            simp only [Except.error.injEq] at h
            rw [← h]; exact (hchk _).2 _ hc
          · split at h
            · split at h
              · simp at h
              · simpa using h.symm
            · simpa using h.symm
    | _ => simpa using h.symm

/-- A call accepted by the constructor: one directory with two matches, one file. -/
example : init ⟨fun p => decide (p = "d"), fun p => decide (p ≠ "d"), fun _ => ["d/2", "d/1"]⟩
    (.list [some "x", some "d"]) (.bool true) (.bool false) = .ok (["x", "d/1", "d/2"], true, false) :=
  ((C10_constructor_accepts _ _ _ _).1 _ _ _).mpr ⟨rfl, rfl, ["x", "d"], rfl,
    .file (by decide) (.dir ["d/1", "d/2"] (by decide) (List.Perm.swap _ _ _) (by decide) .nil), by decide, by decide⟩

end Verif.BaseInit
