import Verif.Model.FromConfig
import Verif.Spec.Make
/-!
# C152: `from_config` builds what the configuration says
-/

namespace Verif.FromConfig
open Verif Verif.Make

/-- The item of a configuration, or this value if it has none. -/
def Is (d : Dict) (name : String) (dflt v : Val) : Prop := d.lookup name = some v ∨ d.lookup name = none ∧ v = dflt

theorem is_getD (d : Dict) (name : String) (dflt : Val) : Is d name dflt (getD d name dflt) := by
  unfold Is getD
  cases d.lookup name <;> simp

theorem is_unique {d : Dict} {name : String} {dflt v : Val} (h : Is d name dflt v) : v = getD d name dflt := by
  unfold getD
  rcases h with h | ⟨h, rfl⟩ <;> simp [h]

/-- **C152** (partial). What a scheduler is built with by `from_config`, for every configuration: the files, the order, the loop and the images asked for,
whatever else the configuration holds. Missing from C152: what is left out is not always what the constructor makes of it (`C152_refuted_loop`), and the
key (`C152_refuted_key`) and the images of HDF5 files are ignored. -/
theorem C152_options_partial (kind : Kind) (c : Config) (a : BaseArgs) (h : fromConfig kind c = .ok a) :
    a.kind = kind ∧ Is c.entries "file_list" (.list []) a.fileList ∧ Is c.entries "randomize" (.bool false) a.randomize ∧
    Is c.entries "loop" (.bool (decide (kind ≠ .mat))) a.loop ∧
    (kind ≠ .h5 → ∃ v, a.includeImages = some v ∧ Is c.entries "include_images" (.bool false) v) ∧
    (kind = .mat → ∃ v w, Is c.entries "output_shape" (.tuple [.int 256, .int 256]) v ∧ toTuple v = .ok w ∧ a.outputShape = some w) := by
  cases kind with
  | h5 => cases h; exact ⟨rfl, is_getD _ _ _, is_getD _ _ _, is_getD _ _ _, by simp, by simp⟩
  | npy => cases h; exact ⟨rfl, is_getD _ _ _, is_getD _ _ _, is_getD _ _ _, fun _ => ⟨_, rfl, is_getD _ _ _⟩, by simp⟩
  | mat =>
    unfold fromConfig andThen at h
    cases ht : toTuple (getD c.entries "output_shape" (.tuple [.int 256, .int 256])) with
    | error e => rw [ht] at h; cases h
    | ok w =>
      rw [ht] at h
      cases h
      exact ⟨rfl, is_getD _ _ _, is_getD _ _ _, is_getD _ _ _, fun _ => ⟨_, rfl, is_getD _ _ _⟩, fun _ => ⟨_, w, is_getD _ _ _, ht, rfl⟩⟩

/-- **C152** (partial): `from_config` builds what the constructor builds from the same options, if these name the files and whether to loop, give no
key, and give the output shape as a tuple. -/
theorem C152_constructor_partial (kind : Kind) (c : Config) (a : BaseArgs) (h : construct kind c = .ok a) (hk : c.key = none)
    (hl : kind ≠ .mat → ∃ v, c.entries.lookup "loop" = some v) (hs : ∀ v, c.entries.lookup "output_shape" = some v → ∃ l, v = .tuple l) :
    fromConfig kind c = .ok a := by
  unfold construct at h
  split at h
  swap
  · cases h
  split at h
  · cases h
  rename_i files hf
  cases h
  have e1 : getD c.entries "file_list" (.list []) = files := by simp [getD, hf]
  cases kind with
  | h5 =>
    obtain ⟨v, hv⟩ := hl (by decide)
    simp only [fromConfig, e1]
    simp [getD, hv, hk]
  | npy =>
    obtain ⟨v, hv⟩ := hl (by decide)
    simp only [fromConfig, e1]
    simp [getD, hv, hk]
  | mat =>
    have : toTuple (getD c.entries "output_shape" (.tuple [.int 256, .int 256])) = .ok (getD c.entries "output_shape" (.tuple [.int 256, .int 256])) := by
      unfold getD
      cases hv : c.entries.lookup "output_shape" with
      | none => rfl
      | some v => obtain ⟨l, rfl⟩ := hs v hv; rfl
    simp only [fromConfig, this, andThen, e1, hk]
    simp

/-- **C152 is false** for a loop that is left out: whatever the files, the HDF5 and NumPy schedulers built from the configuration loop, those built by the
constructor with the same options do not; the MAT scheduler does not loop either way. -/
theorem C152_refuted_loop (files : Val) :
    (∀ kind, kind ≠ .mat → (fromConfig kind ⟨[("file_list", files)], none⟩).map BaseArgs.loop = .ok (.bool true)) ∧
    (fromConfig .mat ⟨[("file_list", files)], none⟩).map BaseArgs.loop = .ok (.bool false) ∧
    ∀ kind, (construct kind ⟨[("file_list", files)], none⟩).map BaseArgs.loop = .ok (.bool false) := by
  refine ⟨?_, rfl, ?_⟩
  · intro kind hk; cases kind <;> first | rfl | exact absurd rfl hk
  · intro kind; cases kind <;> rfl

/-- **C152 is false** for the key: whatever key the configuration holds, the scheduler works with `PRNGKey(0)`; the constructor takes it. -/
theorem C152_refuted_key (kind : Kind) (entries : Dict) (k : KeyTerm) :
    fromConfig kind ⟨entries, some k⟩ = fromConfig kind ⟨entries, none⟩ ∧
    (∀ a, fromConfig kind ⟨entries, some k⟩ = .ok a → a.usedKey = .seed 0) ∧
    ∀ a, construct kind ⟨entries, some k⟩ = .ok a → a.usedKey = k := by
  refine ⟨by cases kind <;> rfl, ?_, ?_⟩
  · intro a h
    cases kind with
    | h5 => cases h; rfl
    | npy => cases h; rfl
    | mat =>
      simp only [fromConfig, andThen] at h
      cases ht : toTuple (getD entries "output_shape" (.tuple [.int 256, .int 256])) with
      | error e => rw [ht] at h; cases h
      | ok w => rw [ht] at h; cases h; rfl
  · intro a h
    unfold construct at h
    split at h
    · split at h
      · cases h
      · cases h; rfl
    · cases h

/-- **C152**, names that are no options: `from_config` ignores them (a misspelt `randomise`, `include_images` for HDF5 files), the constructor rejects them. -/
theorem C152_ignored (kind : Kind) (c : Config) (name : String) (v : Val) (h : name ∉ parameters kind) :
    fromConfig kind { c with entries := (name, v) :: c.entries } = fromConfig kind c ∧
    construct kind { c with entries := (name, v) :: c.entries } = .error .typeError := by
  have hg : ∀ n dflt, n ∈ parameters kind → getD ((name, v) :: c.entries) n dflt = getD c.entries n dflt := by
    intro n dflt hn
    have : (n == name) = false := by rw [beq_eq_false_iff_ne]; rintro rfl; exact h hn
    simp [getD, List.lookup_cons, this]
  constructor
  · cases kind with
    | h5 =>
      simp only [fromConfig]
      rw [hg _ _ (by decide), hg _ _ (by decide), hg _ _ (by decide)]
    | npy =>
      simp only [fromConfig]
      rw [hg _ _ (by decide), hg _ _ (by decide), hg _ _ (by decide), hg _ _ (by decide)]
    | mat =>
      simp only [fromConfig]
      rw [hg _ _ (by decide), hg _ _ (by decide), hg _ _ (by decide), hg _ _ (by decide), hg _ _ (by decide)]
  · unfold construct
    have : (((name, v) :: c.entries).all fun q => (parameters kind).contains q.1) = false := by
      simp [h]
    rw [this]; rfl

/-- **C152** for the sampler of real images: the batch size asked for, and otherwise the 1 of the constructor. -/
theorem C152_real (d : Dict) : Is d "batch_size" (.int 1) (realBatchSize d) := is_getD _ _ _

/-- `make` passes all options but the output shape, which it passes for images: nothing depends on these defaults there. -/
theorem make_complete (kind : Kind) (kw : Make.Kw) :
    fromConfig kind ⟨[("file_list", kw.fileList), ("randomize", kw.randomize), ("loop", kw.loop), ("include_images", .bool kw.includeImages)] ++
      (match kw.outputShape with | some v => [("output_shape", v)] | none => []), some kw.key⟩ =
    (match kind, kw.outputShape with
      | .mat, some v => (toTuple v).map (fun w => { baseFromConfig .mat kw with outputShape := some w })
      | _, _ => .ok (baseFromConfig kind kw)) := by
  cases kind with
  | h5 => cases kw.outputShape <;> rfl
  | npy => cases kw.outputShape <;> rfl
  | mat =>
    cases hs : kw.outputShape with
    | none => simp [fromConfig, baseFromConfig, getD, List.lookup, toTuple, andThen, hs]
    | some v =>
      have e : getD ([("file_list", kw.fileList), ("randomize", kw.randomize), ("loop", kw.loop), ("include_images", .bool kw.includeImages)] ++
        [("output_shape", v)]) "output_shape" (.tuple [.int 256, .int 256]) = v := rfl
      simp only [fromConfig, e, andThen]
      cases toTuple v <;> rfl

/-- Options that the constructor and `from_config` understand alike. -/
example := C152_constructor_partial .npy ⟨[("file_list", .list [.str "a.npy"]), ("loop", .bool true)], none⟩ _ rfl rfl (fun _ => ⟨_, rfl⟩)
  (fun v h => by simp [List.lookup] at h)
example : "randomise" ∉ parameters .mat ∧ "include_images" ∉ parameters .h5 := by decide

end Verif.FromConfig
