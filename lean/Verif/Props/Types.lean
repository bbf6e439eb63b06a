import Verif.Proofs.Types
/-!
# Properties of the data classes (C45-C47)
-/

namespace Verif.Types
open Verif Spec

/-- Non-NaN values for the two fields whose checks NaN slips through. -/
def NoNaN (s : Types.Spec) : Prop := ¬ IsNaN s.noiseGaussianStd ∧ ¬ IsNaN s.dt

/-- **C45**, the integers: Python's integers, and the booleans as 1 and 0. -/
theorem C45_integers (v : Val) (z : Int) : v.asInt = some z ↔ v = .int z ∨ (v = .bool true ∧ z = 1) ∨ (v = .bool false ∧ z = 0) := by
  cases v with
  | bool b => cases b <;> simp [Val.asInt, eq_comm]
  | int y => simp [Val.asInt]
  | _ => simp [Val.asInt]

/-- **C45**, the numbers: integers, booleans as 1 and 0, and floats, infinite and NaN included. -/
theorem C45_numbers (v : Val) (x : Num) : v.asNum = some x ↔ v = .float x ∨ (∃ z : Int, v = .int z ∧ x = .fin z) ∨ (v = .bool true ∧ x = .fin 1) ∨ (v = .bool false ∧ x = .fin 0) := by
  cases v with
  | bool b => cases b <;> simp [Val.asNum, eq_comm]
  | int y => simp [Val.asNum, eq_comm]
  | float y => simp [Val.asNum]
  | _ => simp [Val.asNum]

/-- **C45** (partial). For every choice of values of the sixteen fields, the constructor succeeds iff all documented
constraints hold, except that NaN is let through for `noise_gaussian_std` and `dt`. Where the fields that are compared
without type check hold numbers, every rejection is a `ValueError`. Missing from C45: NaN is not rejected for the two
fields (`C45_refuted_nan`), and comparisons with non-numbers raise `TypeError` (`C45_refuted_type`). -/
theorem C45_accepts_documented_partial (s : Types.Spec) :
    (s.construct = .ok s ↔
      MostlyValid s ∧ (NonNegative s.noiseGaussianStd ∨ IsNaN s.noiseGaussianStd) ∧ (Positive s.dt ∨ IsNaN s.dt)) ∧
    (NoNaN s → (s.construct = .ok s ↔ Valid s)) ∧
    (Valid s → s.construct = .ok s) ∧
    (Comparable s → s.construct ≠ .ok s → s.construct = .error .valueError) := by
  have key : s.construct = .ok s ↔ s.validate = .ok () := by
    unfold Types.Spec.construct
    split
    · rename_i u h; cases u; simp [h]
    · rename_i h; simp [h]
  have h1 := key.trans (validate_ok_iff s)
  refine ⟨h1, ?_, ?_, ?_⟩
  · rintro ⟨ha, hb⟩
    rw [h1]
    unfold Valid
    constructor
    · rintro ⟨h, h2, h3⟩; exact ⟨h, h2.resolve_right ha, h3.resolve_right hb⟩
    · rintro ⟨h, h2, h3⟩; exact ⟨h, .inl h2, .inl h3⟩
  · rintro ⟨h, h2, h3⟩; exact h1.2 ⟨h, .inl h2, .inl h3⟩
  · intro hc hne
    unfold Types.Spec.construct at hne ⊢
    split at hne
    · exact absurd rfl hne
    · rename_i e he
      rw [validate_err hc he]

theorem construct_eq {s : Types.Spec} (h : s.validate = .ok ()) : s.construct = .ok s := by
  unfold Types.Spec.construct; rw [h]

theorem construct_err {s : Types.Spec} {e : Exc} (h : s.validate = .error e) : s.construct = .error e := by
  unfold Types.Spec.construct; rw [h]

/-- The default specification is accepted, and valid. -/
example : Types.Spec.default.construct = .ok Types.Spec.default := construct_eq (by decide +kernel)
example : Valid Types.Spec.default :=
  (C45_accepts_documented_partial Types.Spec.default).2.1 (by constructor <;> (intro h; cases h)) |>.1 (construct_eq (by decide +kernel))
/-- A density range in the wrong order is not. -/
example : (Types.Spec.construct { Types.Spec.default with seedingDensityRange := .tuple [.int 1, .int 0] }) =
    .error .valueError := construct_err (by decide +kernel)

/-- **C45 is false** for NaN: a specification whose `dt` and noise level are NaN is accepted. -/
theorem C45_refuted_nan :
    ∃ s : Types.Spec, s.construct = .ok s ∧ ¬ Positive s.dt ∧ ¬ NonNegative s.noiseGaussianStd := by
  refine ⟨{ Types.Spec.default with dt := .float .nan, noiseGaussianStd := .float .nan },
    construct_eq (by decide +kernel), ?_, ?_⟩
  · rintro ⟨x, ⟨h1, h2⟩, _⟩; cases h1; exact h2 rfl
  · rintro ⟨x, ⟨h1, h2⟩, _⟩; cases h1; exact h2 rfl

/-- **C45 is false** for non-numbers: an unusable value is rejected with `TypeError` instead of `ValueError`. -/
theorem C45_refuted_type :
    ∃ s : Types.Spec, s.construct = .error .typeError :=
  ⟨{ Types.Spec.default with pHide1 := .str "0.1" }, construct_err (by decide +kernel)⟩

/-- **C46** for specifications. For every specification and every set of keyword arguments: if `update` succeeds, each
field has the value given for its name, and the old value if none was given; it succeeds iff the constructor accepts
those values, and otherwise raises what the constructor raises. -/
theorem C46_update (s : Types.Spec) (kw : Kwargs) :
    (∀ s', s.update kw = .ok s' → ∀ f, s'.get f = (match kw.lookup f.name with | some v => v | none => s.get f)) ∧
    ∃ target : Types.Spec, (∀ f, target.get f = (match kw.lookup f.name with | some v => v | none => s.get f)) ∧
      s.update kw = target.construct := by
  have main : ∃ target : Types.Spec,
      (∀ f, target.get f = (match kw.lookup f.name with | some v => v | none => s.get f)) ∧
      s.update kw = target.construct := by
    refine ⟨_, ?_, rfl⟩
    intro f
    cases f <;> simp only [Types.Spec.get, kwGet, Field.name] <;> split <;> rename_i h <;> rw [h] <;> rfl
  refine ⟨?_, main⟩
  obtain ⟨target, ht, hu⟩ := main
  intro s' hs' f
  rw [hu] at hs'
  have : s' = target := by
    unfold Types.Spec.construct at hs'
    split at hs'
    · cases hs'; rfl
    · cases hs'
  rw [this]; exact ht f

/-- Two specifications with the same fields are the same, so the theorem determines the result. -/
theorem Spec.ext_get {s t : Types.Spec} (h : ∀ f, s.get f = t.get f) : s = t := by
  cases s; cases t
  have h1 := h .batchSize; have h2 := h .imageShape; have h3 := h .imgOffset; have h4 := h .seedingDensityRange
  have h5 := h .pHide1; have h6 := h .pHide2; have h7 := h .diameterRanges; have h8 := h .diameterVar
  have h9 := h .intensityRanges; have h10 := h .intensityVar; have h11 := h .rhoRanges; have h12 := h .rhoVar
  have h13 := h .dt; have h14 := h .noiseUniform; have h15 := h .noiseGaussianMean; have h16 := h .noiseGaussianStd
  simp only [Types.Spec.get] at *
  subst_vars; rfl

/-- **C46**, consequences: updating with nothing, or with the name of no field, changes nothing; a later update of the
same names wins. -/
theorem C46_update_nothing (s : Types.Spec) (kw : Kwargs) (h : ∀ f : Field, kw.lookup f.name = none) :
    s.update kw = s.construct := by
  obtain ⟨t, ht, hu⟩ := (C46_update s kw).2
  rw [hu]
  congr 1
  apply Spec.ext_get
  intro f
  rw [ht f, h f]

theorem C46_update_twice (s s' : Types.Spec) (kw kw' : Kwargs) (h : s.update kw = .ok s') :
    s'.update kw' = s.update (kw' ++ kw) := by
  obtain ⟨t, ht, hu⟩ := (C46_update s' kw').2
  obtain ⟨t', ht', hu'⟩ := (C46_update s (kw' ++ kw)).2
  have hs := (C46_update s kw).1 s' h
  rw [hu, hu']
  congr 1
  apply Spec.ext_get
  intro f
  rw [ht f, ht' f, hs f, List.lookup_append]
  cases kw'.lookup f.name <;> simp

/-- A keyword that is not the name of a field is ignored. -/
example : Types.Spec.default.update [("dtt", .int 5)] = .ok Types.Spec.default :=
  construct_eq (by decide +kernel)
example : Types.Spec.default.update [("dt", .int 5), ("p_hide_img1", .int 0)] =
    .ok { Types.Spec.default with dt := .int 5, pHide1 := .int 0 } := construct_eq (by decide +kernel)
example : Types.Spec.default.update [("dt", .int 0)] = .error .valueError := construct_err (by decide +kernel)

/-- **C46** for batches and for scheduler data: every field has the value given under its name, the others the old one. -/
theorem C46_update_batch {L : Type} (b : Batch L) (kw : List (String × Tree L)) :
    [(b.update kw).images1, (b.update kw).images2, (b.update kw).flowFields, (b.update kw).params, (b.update kw).done,
      (b.update kw).mask, (b.update kw).files] =
    [("images1", b.images1), ("images2", b.images2), ("flow_fields", b.flowFields), ("params", b.params), ("done", b.done),
      ("mask", b.mask), ("files", b.files)].map
      (fun f => match kw.lookup f.1 with | some v => v | none => f.2) := by
  simp only [List.map_cons, List.map_nil, Batch.update, objGet]
  congr 1
  · split <;> rename_i h <;> rw [h] <;> rfl
  congr 1
  · split <;> rename_i h <;> rw [h] <;> rfl
  congr 1
  · split <;> rename_i h <;> rw [h] <;> rfl
  congr 1
  · split <;> rename_i h <;> rw [h] <;> rfl
  congr 1
  · split <;> rename_i h <;> rw [h] <;> rfl
  congr 1
  · split <;> rename_i h <;> rw [h] <;> rfl
  congr 1
  · split <;> rename_i h <;> rw [h] <;> rfl

theorem C46_update_scheduler_data {L : Type} (b : SchedulerData L) (kw : List (String × Tree L)) :
    [(b.update kw).flowFields, (b.update kw).images1, (b.update kw).images2, (b.update kw).mask, (b.update kw).files] =
    [("flow_fields", b.flowFields), ("images1", b.images1), ("images2", b.images2), ("mask", b.mask), ("files", b.files)].map
      (fun f => match kw.lookup f.1 with | some v => v | none => f.2) := by
  simp only [List.map_cons, List.map_nil, SchedulerData.update, objGet]
  congr 1
  · split <;> rename_i h <;> rw [h] <;> rfl
  congr 1
  · split <;> rename_i h <;> rw [h] <;> rfl
  congr 1
  · split <;> rename_i h <;> rw [h] <;> rfl
  congr 1
  · split <;> rename_i h <;> rw [h] <;> rfl
  congr 1
  · split <;> rename_i h <;> rw [h] <;> rfl

/-- **C47.** Flattening a batch and putting it together again gives the same batch, whatever objects its fields hold. -/
theorem C47_batch_round_trip {L : Type} (b : Batch L) : Batch.unflatten b.flatten = some b := by
  have h := Tree.fill_leaves (Tree.node .batch b.treeFlatten) []
  rw [List.append_nil] at h
  unfold Batch.unflatten Batch.flatten
  rw [h]
  rfl

/-- **C47** for parameter objects. -/
theorem C47_params_round_trip {L : Type} (p : Params L) : Params.unflatten p.flatten = some p := by
  have h := Tree.fill_leaves (Tree.node .params p.treeFlatten) []
  rw [List.append_nil] at h
  unfold Params.unflatten Params.flatten
  rw [h]
  rfl

/-- **C47.** Flattening is injective: batches with the same leaves and structure are the same. -/
theorem C47_injective {L : Type} (b b' : Batch L) (h : b.flatten = b'.flatten) : b = b' := by
  have := C47_batch_round_trip b
  rw [h, C47_batch_round_trip] at this
  exact (Option.some.inj this).symm

theorem C47_params_injective {L : Type} (p p' : Params L) (h : p.flatten = p'.flatten) : p = p' := by
  have := C47_params_round_trip p
  rw [h, C47_params_round_trip] at this
  exact (Option.some.inj this).symm

/-- **C47**, per field: the leaves of a batch are those of its seven fields in the declared order, so mapping a function
over the leaves acts on every field and nothing else. -/
theorem C47_leaves {L : Type} (b : Batch L) :
    b.flatten.1 = b.images1.leaves ++ b.images2.leaves ++ b.flowFields.leaves ++ b.params.leaves ++ b.done.leaves ++
      b.mask.leaves ++ b.files.leaves := by
  simp [Batch.flatten, Batch.treeFlatten, Tree.leaves, Tree.leaves.go]

/-- A batch with a parameter object inside, without mask, with two files. -/
example : Batch.flatten (L := String) ⟨.leaf "i1", .leaf "i2", .leaf "ff",
      .node .params (Params.treeFlatten ⟨.leaf "s", .leaf "d", .leaf "i", .leaf "r"⟩), .leaf "done", .node .none [],
      .node .tuple [.leaf "a", .leaf "b"]⟩ =
    (["i1", "i2", "ff", "s", "d", "i", "r", "done", "a", "b"],
      .node .batch [.leaf (), .leaf (), .leaf (), .node .params [.leaf (), .leaf (), .leaf (), .leaf ()], .leaf (),
        .node .none [], .node .tuple [.leaf (), .leaf ()]]) := rfl

end Verif.Types
