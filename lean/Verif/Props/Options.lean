import Verif.Spec.Keys
import Verif.Props.Make
/-!
# The configuration matters through the documented keys only (C141)
-/

namespace Verif.Options
open Verif Verif.Make Verif.Make.Spec

theorem Agree.item {ks : List String} {d d' : Dict} (h : Agree ks d d') {k : String} (hk : k ∈ ks) : Make.item d' k = Make.item d k := by
  unfold Make.item; rw [h k hk]

theorem Agree.getD {ks : List String} {d d' : Dict} (h : Agree ks d d') {k : String} (hk : k ∈ ks) (v : Val) : Make.getD d' k v = Make.getD d k v := by
  unfold Make.getD; rw [h k hk]

theorem Agree.size {ks : List String} {d d' : Dict} (h : Agree ks d d') {k : String} (hk : k ∈ ks) : sizeOption d' k = sizeOption d k := by
  unfold sizeOption; rw [h.getD hk]

theorem finish_agree (w : World) {d d' : Dict} (h : Agree synthKeys d d') (inc : Bool) (b l : Int) (p : Pipe) : finish w d' inc b l p = finish w d inc b l p := by
  unfold finish synthFromConfig
  have hi (k : String) (hk : k ∈ synthKeys) : Make.item d' k = Make.item d k := h.item hk
  have hg (k : String) (v : Val) (hk : k ∈ synthKeys) : Make.getD d' k v = Make.getD d k v := h.getD hk v
  rw [hg "mask" _ (by decide), hg "histogram" _ (by decide), hg "batches_per_flow_batch" _ (by decide), hg "device_ids" _ (by decide), hi "batch_size" (by decide),
    hi "image_shape" (by decide), hi "img_offset" (by decide), hi "seeding_density_range" (by decide), hi "p_hide_img1" (by decide), hi "p_hide_img2" (by decide),
    hi "diameter_ranges" (by decide), hi "diameter_var" (by decide), hi "intensity_ranges" (by decide), hi "intensity_var" (by decide), hi "rho_ranges" (by decide),
    hi "rho_var" (by decide), hi "dt" (by decide), hi "noise_uniform" (by decide), hi "noise_gaussian_mean" (by decide), hi "noise_gaussian_std" (by decide),
    hi "batches_per_flow_batch" (by decide), hi "flow_fields_per_batch" (by decide), hi "flow_field_size" (by decide), hi "resolution" (by decide),
    hi "velocities_per_pixel" (by decide), hi "seed" (by decide), hi "max_speed_x" (by decide), hi "max_speed_y" (by decide), hi "min_speed_x" (by decide),
    hi "min_speed_y" (by decide), hi "output_units" (by decide)]

/-- The common part of `make`. -/
theorem fromDict_agree (w : World) {ks : List String} (hks : ∀ k ∈ realKeys, k ∈ ks) {d d' : Dict} (h : Agree ks d d')
    (hf : ∀ inc, Make.getD d "include_images" (.bool false) = .bool inc → ∀ b l p, finish w d' inc b l p = finish w d inc b l p) : fromDict w d' = fromDict w d := by
  have m {k : String} (hk : k ∈ realKeys) : k ∈ ks := hks k hk
  unfold fromDict
  rw [h _ (m (k := "scheduler_class") (by decide)), h _ (m (k := "batch_size") (by decide)), h _ (m (k := "flow_fields_per_batch") (by decide)),
    h.size (m (k := "buffer_size") (by decide)), h.size (m (k := "episode_length") (by decide)), h.getD (m (k := "include_images") (by decide)), h.getD (m (k := "seed") (by decide)),
    h.getD (m (k := "image_shape") (by decide)), h.getD (m (k := "file_list") (by decide)), h.getD (m (k := "randomize") (by decide)), h.getD (m (k := "loop") (by decide))]
  cases hi : Make.getD d "include_images" (.bool false) with
  | bool inc => simp only [hf inc hi]
  | _ => rfl

/-- **C141.** `make` looks at the documented keys only: two configurations that give them the same values have the same outcome, whatever else they contain, on every machine. -/
theorem C141_keys (w : World) (d d' : Dict) (h : Agree synthKeys d d') : make w (.dict d') = make w (.dict d) :=
  fromDict_agree w (by decide) h (fun inc _ => finish_agree w h inc)

/-- **C141**, with images of files: of the keys that concern the making of images only the shape is looked at. -/
theorem C141_real (w : World) (d d' : Dict) (h : Agree realKeys d d') (hi : d.lookup "include_images" = some (.bool true)) : make w (.dict d') = make w (.dict d) := by
  refine fromDict_agree w (fun _ hk => hk) h (fun inc hinc b l p => ?_)
  unfold Make.getD at hinc
  rw [hi] at hinc
  obtain rfl : inc = true := by simpa using hinc.symm
  rfl

theorem lookup_filter {d : Dict} {k : String} {f : String × Val → Bool} (hf : ∀ v, f (k, v) = true) : (d.filter f).lookup k = d.lookup k := by
  induction d with
  | nil => rfl
  | cons q d ih =>
    obtain ⟨k', v'⟩ := q
    by_cases hk : k = k'
    · subst hk
      rw [List.filter_cons, if_pos (hf v')]
      simp [List.lookup_cons]
    · rw [List.filter_cons]
      have e : (k == k') = false := by simpa using hk
      split <;> simp [List.lookup_cons, e, ih]

/-- **C141**: what is not a documented key, like a misspelled one, is ignored without a word, wherever it stands. -/
theorem C141_ignored (w : World) (d : Dict) : make w (.dict (d.filter (fun q => decide (q.1 ∈ synthKeys)))) = make w (.dict d) :=
  C141_keys w d _ (fun k hk => lookup_filter (fun _ => by simpa using hk))

theorem lookup_perm {d d' : Dict} (hn : (d.map Prod.fst).Nodup) (hp : d'.Perm d) (k : String) : d'.lookup k = d.lookup k := by
  have hmem {e : Dict} (hn : (e.map Prod.fst).Nodup) (v : Val) : e.lookup k = some v ↔ (k, v) ∈ e := by
    induction e with
    | nil => simp
    | cons q e ih =>
      obtain ⟨k', v'⟩ := q
      simp only [List.map_cons, List.nodup_cons] at hn
      by_cases hk : k = k'
      · subst hk
        simp only [List.lookup_cons, beq_self_eq_true, List.mem_cons, Prod.mk.injEq, true_and, Option.some.injEq]
        constructor
        · intro h; exact .inl h.symm
        · rintro (h | h)
          · exact h.symm
          · exact absurd (List.mem_map_of_mem (f := Prod.fst) h) hn.1
      · have e : (k == k') = false := by simpa using hk
        simp [List.lookup_cons, e, ih hn.2, hk]
  have hn' : (d'.map Prod.fst).Nodup := (hp.map Prod.fst).nodup_iff.mpr hn
  cases h : d'.lookup k with
  | some v => exact ((hmem hn v).mpr (hp.mem_iff.mp ((hmem hn' v).mp h))).symm
  | none =>
    cases h2 : d.lookup k with
    | none => rfl
    | some v => rw [(hmem hn' v).mpr (hp.mem_iff.mpr ((hmem hn v).mp h2))] at h; cases h

/-- **C141**: the order of the entries of a configuration does not matter. -/
theorem C141_order (w : World) (d d' : Dict) (hn : (d.map Prod.fst).Nodup) (hp : d'.Perm d) : make w (.dict d') = make w (.dict d) :=
  C141_keys w d d' (fun k _ => lookup_perm hn hp k)

/-! ## None of the keys is superfluous -/

/-- A machine on which constructors refuse some arguments. -/
def picky : World :=
  { World.fine with
    baseInit := fun a => match a.fileList, a.randomize, a.loop with | .list (_ :: _), .bool false, .bool true => .ok () | _, _, _ => .error .valueError
    synthInit := fun _ a => match a.deviceIds, a.mask, a.histogram with | .none, none, none => .ok () | _, _, _ => .error .valueError }

/-- For every key a value with which, or without a value of which, `make` fails on the machine above. -/
def spoiled (k : String) : Dict :=
  if k ∈ ["mask", "histogram", "device_ids", "include_images", "buffer_size", "episode_length"] then (k, .int (-1)) :: demo
  else if k = "randomize" then (k, .bool true) :: demo
  else if k = "loop" then (k, .bool false) :: demo
  else demo.filter (fun q => q.1 != k)

/-- **C141**: each of the keys has an influence: there is a machine and a configuration accepted there, such that another value of this key alone, or its absence, makes
`make` fail. -/
theorem C141_each : ∀ k ∈ synthKeys, ∃ w d d', (∀ k', k' ≠ k → d'.lookup k' = d.lookup k') ∧ (∃ s, make w (.dict d) = .ok s) ∧ ∃ e, make w (.dict d') = .error e := by
  have ok : ∃ s, make picky (.dict demo) = .ok s := by exact ⟨_, rfl⟩
  have bad : ∀ k ∈ synthKeys, (match make picky (.dict (spoiled k)) with | .ok _ => false | .error _ => true) = true := by decide +kernel
  intro k hk
  refine ⟨picky, demo, spoiled k, fun k' hne => ?_, ok, ?_⟩
  · have hc (v : Val) : ((k, v) :: demo : Dict).lookup k' = demo.lookup k' := by
      have e : (k' == k) = false := by simpa using hne
      simp [List.lookup_cons, e]
    unfold spoiled
    split
    · exact hc _
    · split
      · exact hc _
      · split
        · exact hc _
        · exact lookup_filter (fun _ => by simpa using hne)
  · have := bad k hk
    cases h : make picky (.dict (spoiled k)) with
    | ok s => rw [h] at this; cases this
    | error e => exact ⟨e, rfl⟩

/-! ## Concrete cases -/

/-- A misspelled option (`buffersize`) is ignored: there is no prefetching. -/
example : ∃ p a, make .fine (.dict (("buffersize", .int 8) :: demo.filter (fun q => q.1 != "buffer_size"))) = .ok (.synthetic p a) ∧
    layers p = [.episodic 4 3, .base .mat] := ⟨_, _, rfl, rfl⟩

example : (demo.map Prod.fst).Nodup ∧ demo.reverse.Perm demo := ⟨by decide, List.reverse_perm _⟩

end Verif.Options
