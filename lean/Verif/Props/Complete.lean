import Verif.Proofs.WholeIff
/-!
# Property C113: `make` accepts exactly the complete configurations
-/

namespace Verif.Whole
open Verif Verif.Whole.Spec

/-- The file list and flags of a scheduler of any class that was built for synthetic images. -/
theorem base_files {E : Env} {d : Make.Dict} {kind : Make.Kind} {root : KeyTerm} {fl : List String} {c : Base.Cfg}
    (h : buildBase E (Make.baseFromConfig kind
        { fileList := Make.getD d "file_list" (.list []), randomize := Make.getD d "randomize" (.bool false),
          loop := Make.getD d "loop" (.bool true), key := root, includeImages := false, outputShape := none }) = .ok (fl, c)) :
    FilesOf E kind d fl ∧ Extensions kind d fl ∧ c = { randomize := c.randomize, loop := c.loop } ∧
      Make.Spec.ValueOr d "randomize" (.bool false) (.bool c.randomize) ∧ Make.Spec.ValueOr d "loop" (.bool true) (.bool c.loop) := by
  have fin : ∀ {l : List String} {r lp : Bool}, baseVal (Make.getD d "file_list" (.list [])) = .list (l.map some) →
      baseVal (Make.getD d "randomize" (.bool false)) = .bool r → baseVal (Make.getD d "loop" (.bool true)) = .bool lp →
      BaseInit.Expands (E.fs kind) l fl → fl ≠ [] →
      d.lookup "file_list" = some (.list (l.map .str)) ∧ Make.Spec.ValueOr d "randomize" (.bool false) (.bool r) ∧
        Make.Spec.ValueOr d "loop" (.bool true) (.bool lp) := by
    intro l r lp h1 h2 h3 h4 h5
    have h1' := baseVal_list h1
    refine ⟨?_, ?_, ?_⟩
    · rcases Make.getD_valueOr d "file_list" (.list []) with ⟨_, g⟩ | g
      · rw [h1'] at g
        simp only [Val.list.injEq, List.map_eq_nil_iff] at g
        subst g
        cases h4
        exact absurd rfl h5
      · rw [h1'] at g; exact g
    · have := Make.getD_valueOr d "randomize" (.bool false)
      rwa [baseVal_bool h2] at this
    · have := Make.getD_valueOr d "loop" (.bool true)
      rwa [baseVal_bool h3] at this
  have str_inj : ∀ {l l' : List String}, l.map Val.str = l'.map Val.str → l = l' := fun {l l'} e =>
    List.map_injective_iff.mpr (fun a b h => by cases h; rfl) e
  unfold buildBase at h
  cases kind with
  | h5 =>
    simp only [Make.baseFromConfig] at h
    split at h
    · rename_i q hq
      cases h
      obtain ⟨h1, h2, l, h3, h4, h5, h6, h7⟩ := ((FormatInit.C86_hdf5_constructor_partial _ _ _ _).1 q.1 q.2.1 q.2.2).mp hq
      obtain ⟨k1, k2, k3⟩ := fin h3 h1 h2 h4 h5
      refine ⟨⟨l, k1, h4, h5, h6⟩, ?_, rfl, k2, k3⟩
      intro paths hp
      rw [k1] at hp
      simp only [Option.some.injEq, Val.list.injEq] at hp
      rw [← str_inj hp]
      exact h7
    · cases h
  | mat =>
    simp only [Make.baseFromConfig] at h
    split at h
    · rename_i q hq
      cases h
      obtain ⟨_, _, h1, h2, l, h3, h4, h5, h6⟩ := ((FormatInit.C86_mat_constructor _ _ _ _ _ _).1 q.1 q.2.1 q.2.2).mp hq
      obtain ⟨k1, k2, k3⟩ := fin h3 h1 h2 h4 h5
      exact ⟨⟨l, k1, h4, h5, fun p hp => (h6 p hp).1⟩, fun p hp => (h6 p hp).2, rfl, k2, k3⟩
    · cases h
  | npy =>
    simp only [Make.baseFromConfig] at h
    split at h
    · rename_i q hq
      cases h
      obtain ⟨h1, h2, l, h3, h4, h5, h6, _⟩ := ((FormatInit.C86_numpy_constructor _ _ _ _ _).1 q.1 q.2.1 q.2.2).mp hq
      obtain ⟨k1, k2, k3⟩ := fin h3 h1 h2 h4 h5
      exact ⟨⟨l, k1, h4, h5, fun p hp => (h6 p hp).1⟩, fun p hp => (h6 p hp).2, rfl, k2, k3⟩
    · cases h

/-- For any rounding: a configuration for synthetic images without episodes and buffer is accepted iff it is complete and the geometry is
accepted. -/
theorem accepted_iff (E : Env) (d : Make.Dict) (kind : Make.Kind) (hp : Plain d kind false) (hperm : ∀ k n, (E.perm k n).Perm (List.range n)) :
    (∃ s, Make.make (world E) (.dict d) = .ok s) ↔
      ∃ files r lp a g, Complete E d kind files r lp a ∧ Geometry.build E.fl E.fl32 a.geometry = .ok g := by
  constructor
  · rintro ⟨s, h⟩
    have hd : Make.Spec.ConfigOf (world E) (.dict d) d := rfl
    have hseed : ∃ k, E.prngKey (Make.getD d "seed" (.int 0)) = .ok k := by
      have hf : Make.fromDict (world E) d = .ok s := h
      unfold Make.fromDict at hf
      rw [hp.schedulerClass] at hf
      dsimp only at hf
      rw [Make.andThen_ok] at hf
      obtain ⟨kind', hk, hf⟩ := hf
      split at hf
      · cases hf
      split at hf
      · cases hf
      rw [Make.raiseIf_ok] at hf
      obtain ⟨hb0, hf⟩ := hf
      rw [getD_of hp.includeImages] at hf
      simp only [Make.andThen_ok, Make.raiseIf_ok] at hf
      obtain ⟨buf, hbuf, len, hlen, hff, root, hroot, _⟩ := hf
      exact ⟨root, hroot⟩
    obtain ⟨k, hseed⟩ := hseed
    obtain ⟨b, root, shape, ⟨files, c⟩, _, _, _, hsh, hb, hfin⟩ := make_steps hd h hp
    simp only [Bool.false_eq_true, if_false, Except.ok.injEq] at hsh
    subst hsh
    obtain ⟨f1, f2, f3, f4, f5⟩ := base_files hb
    unfold Make.finish at hfin
    rw [if_neg (by decide)] at hfin
    split at hfin
    · cases hfin
    rw [if_neg (by decide)] at hfin
    simp only [Make.andThen_ok] at hfin
    obtain ⟨_, _, hfin⟩ := hfin
    obtain ⟨sa, a, m, hs, h1, h2, h3, h4, h5⟩ := synth_configured hfin
    rw [hs] at hfin
    obtain ⟨p1, p2⟩ := synth_proper hfin h1
    obtain ⟨_, _, _, _, _, _, _, k8, _⟩ := Synthetic.make_ok h2
    have hne : files ≠ [] := by obtain ⟨_, _, _, hne, _⟩ := f1; exact hne
    obtain ⟨lp, r⟩ := c
    refine ⟨files, r, lp, a, m.geo, ⟨f1, f2, f4, f5, ?_, h3, p1, ?_, fine_of_make h2, h5, p2⟩, k8⟩
    · obtain ⟨v, hv, _⟩ := h3.seed
      refine ⟨v, k, ⟨v, hv, rfl⟩, ?_⟩
      rw [← hseed]
      unfold Make.getD
      rw [hv]
      rfl
    · exact (grid_iff rfl hb (fun _ => hperm) hne).mp h4
  · rintro ⟨files, r, lp, a, g, h, hg⟩
    have hpx : a.pixels ≠ none := by
      rcases h.configured.units with ⟨e, _⟩ | ⟨e, _⟩ <;> rw [e] <;> simp
    obtain ⟨m, hm⟩ := make_of h.fine hpx hg
    have hne : files ≠ [] := by obtain ⟨_, _, _, hne, _⟩ := h.found; exact hne
    obtain ⟨sv, k, ⟨_, hsv, rfl⟩, hk⟩ := h.seed
    have hb := base_accepted h (root := k.split2.2)
    have h3 := (grid_iff rfl hb (fun _ => hperm) hne).mpr h.grid
    obtain ⟨sa, hsyn, _⟩ := synth_accepted h.configured h.proper h3 (by rw [h.single]; rfl) h.unused hm
    suffices hs : Make.make (world E) (.dict d) = .ok (.synthetic (.base (Make.baseFromConfig kind
        { fileList := Make.getD d "file_list" (.list []), randomize := Make.getD d "randomize" (.bool false),
          loop := Make.getD d "loop" (.bool true), key := k.split2.2, includeImages := false, outputShape := none })) sa) from ⟨_, hs⟩
    obtain ⟨bs, kbs, hbs⟩ := h.configured.batchSize
    obtain ⟨ff, kff, hff⟩ := h.configured.ffpb
    obtain ⟨bp, kbp, hbp⟩ := h.configured.bpfb
    have hbs0 := h.fine.ranges.batchSize
    have hbs' : bs.asInt = some (a.spec.batchSize : Int) := hbs
    have hcls : Make.getBaseScheduler (.str (Make.Spec.ext kind)) = .ok kind := by cases kind <;> rfl
    have e1 := getD_of hp.includeImages
    have e2 := Make.sizeOption_ok.2 hp.noEpisodes
    have e3 := Make.sizeOption_ok.2 hp.noBuffer
    have e4 : (world E).prngKey (Make.getD d "seed" (.int 0)) = .ok k := by
      unfold Make.getD; rw [hsv]; exact hk
    have e5 : (world E).baseInit (Make.baseFromConfig kind
        { fileList := Make.getD d "file_list" (.list []), randomize := Make.getD d "randomize" (.bool false),
          loop := Make.getD d "loop" (.bool true), key := k.split2.2, includeImages := false, outputShape := none }) = .ok () := by
      simp only [world, hb]
    have e6 : Make.getD d "batches_per_flow_batch" .none = bp := by unfold Make.getD; rw [kbp]; rfl
    have e7 : Make.finish (world E) d false a.spec.batchSize 0 (.base (Make.baseFromConfig kind
        { fileList := Make.getD d "file_list" (.list []), randomize := Make.getD d "randomize" (.bool false),
          loop := Make.getD d "loop" (.bool true), key := k.split2.2, includeImages := false, outputShape := none })) =
        .ok (.synthetic (.base (Make.baseFromConfig kind
        { fileList := Make.getD d "file_list" (.list []), randomize := Make.getD d "randomize" (.bool false),
          loop := Make.getD d "loop" (.bool true), key := k.split2.2, includeImages := false, outputShape := none })) sa) := by
      unfold Make.finish
      rw [e6, if_neg (by decide)]
      have hbpn : bp ≠ .none := by rintro rfl; cases hbp
      cases bp <;> first | exact absurd rfl hbpn | exact hsyn
    show Make.fromDict (world E) d = _
    unfold Make.fromDict
    rw [hp.schedulerClass]
    simp only [hcls, kbs, hbs', e1, e2, e3, kff, e4, Make.andThen, Make.raiseIf, Option.isNone_some, Bool.false_and, Bool.false_eq_true, if_false]
    rw [if_neg (by simp; omega)]
    simp only [e5, Make.withEpisodes, Make.withPrefetch, Make.andThen]
    exact e7

/-- **C113** (partial) in exact arithmetic: accepted are exactly the complete configurations whose window, with the way of the fastest particles,
lies inside the flow field. Missing from C113: with floats the decision at the very limit may differ (`C50_refuted`); infinite numbers, which the
model rejects. -/
theorem C113_exact_partial (E : Env) (hfl : E.fl = id) (d : Make.Dict) (kind : Make.Kind) (hp : Plain d kind false)
    (hperm : ∀ k n, (E.perm k n).Perm (List.range n)) :
    (∃ s, Make.make (world E) (.dict d) = .ok s) ↔
      ∃ files r lp a, Complete E d kind files r lp a ∧ Geometry.Possible a.geometry := by
  rw [accepted_iff E d kind hp hperm, hfl]
  constructor
  · rintro ⟨files, r, lp, a, g, h, hg⟩
    exact ⟨files, r, lp, a, h,
      (Geometry.C50_rejects_impossible_partial E.fl32 a.geometry h.fine.flowFieldSize h.fine.flowShape h.fine.resolution).2.mp ⟨g, hg⟩⟩
  · rintro ⟨files, r, lp, a, h, hg⟩
    obtain ⟨g, hg⟩ :=
      (Geometry.C50_rejects_impossible_partial E.fl32 a.geometry h.fine.flowFieldSize h.fine.flowShape h.fine.resolution).2.mpr hg
    exact ⟨files, r, lp, a, g, h, hg⟩

/-- **C113** (partial) with Python's floats: a complete configuration with a hundredth of a pixel to spare on each side is accepted. -/
theorem C113_float_partial (E : Env) (hfl : E.fl = binary64) (d : Make.Dict) (kind : Make.Kind) (hp : Plain d kind false)
    (hperm : ∀ k n, (E.perm k n).Perm (List.range n)) {files : List String} {r lp : Bool} {a : Synthetic.Args}
    (h : Complete E d kind files r lp a) (hm : Geometry.Moderate a.geometry) (hg : Geometry.PossibleBy (1 / (100 * a.resolution)) a.geometry) :
    ∃ s, Make.make (world E) (.dict d) = .ok s := by
  obtain ⟨g, hg⟩ := (Geometry.C50_float_partial E.fl32 a.geometry h.fine.flowFieldSize h.fine.flowShape h.fine.resolution h.fine.ranges.dt hm).1 hg
  rw [accepted_iff E d kind hp hperm]
  exact ⟨files, r, lp, a, g, h, by rw [hfl]; exact hg⟩

/-! ## Real images -/

theorem shape_of {v t : Val} (ht : Make.toTuple v = .ok t) {h w : Int} (hs : shapeVal t = .tuple [some h, some w]) :
    ∃ x y, Items [x, y] v ∧ IsInt h x ∧ IsInt w y := by
  unfold shapeVal at hs
  split at hs
  swap
  · cases hs
  rename_i l
  simp only [FormatInit.ShapeVal.tuple.injEq] at hs
  match l, hs with
  | [], hs => cases hs
  | [_], hs => simp at hs
  | _ :: _ :: _ :: _, hs => simp at hs
  | [x, y], hs =>
    simp only [List.map_cons, List.map_nil, List.cons.injEq, and_true] at hs
    refine ⟨x, y, ?_, hs.1, hs.2⟩
    unfold Make.toTuple at ht
    split at ht
    · cases ht; exact .inr rfl
    · cases ht; exact .inl rfl
    · rename_i s
      simp only [Except.ok.injEq, Val.tuple.injEq] at ht
      have hx : x ∈ s.toList.map (fun c => Val.str (String.singleton c)) := by rw [ht]; simp
      obtain ⟨c, _, rfl⟩ := List.mem_map.mp hx
      exact absurd hs.1 (by simp [Val.asInt])
    · rename_i ks
      simp only [Except.ok.injEq, Val.tuple.injEq] at ht
      have hx : x ∈ ks.map Val.str := by rw [ht]; simp
      obtain ⟨c, _, rfl⟩ := List.mem_map.mp hx
      exact absurd hs.1 (by simp [Val.asInt])
    · cases ht

/-- **C113** for real images: a configuration for real images without episodes and buffer is accepted iff it is complete. -/
theorem C113_real_iff (E : Env) (d : Make.Dict) (hp : Plain d .mat true) :
    (∃ s, Make.make (world E) (.dict d) = .ok s) ↔ ∃ files r lp b, CompleteReal E d files r lp b := by
  constructor
  · rintro ⟨s, h⟩
    have hf : Make.fromDict (world E) d = .ok s := h
    unfold Make.fromDict at hf
    rw [hp.schedulerClass] at hf
    dsimp only at hf
    rw [Make.andThen_ok] at hf
    obtain ⟨kind', hk, hf⟩ := hf
    cases hk
    split at hf
    · cases hf
    rename_i bs hbs
    split at hf
    · cases hf
    rename_i b hb
    rw [Make.raiseIf_ok] at hf
    obtain ⟨hb0, hf⟩ := hf
    rw [getD_of hp.includeImages] at hf
    simp only [Make.andThen_ok, Make.raiseIf_ok, if_true] at hf
    obtain ⟨buf, hbuf, len, hlen, hff, root, hroot, hmat, shape, ⟨t, ht, hshape⟩, u, hu, p, hpp, hfin⟩ := hf
    cases hshape
    simp only [world] at hu
    split at hu
    swap
    · cases hu
    rename_i q hq
    unfold buildBase at hq
    simp only [Make.baseFromConfig] at hq
    split at hq
    swap
    · cases hq
    rename_i q' hq'
    obtain ⟨_, ⟨hh, w, hs, hh0, hw0⟩, h1, h2, l, h3, h4, h5, h6⟩ := ((FormatInit.C86_mat_constructor _ _ _ _ _ _).1 q'.1 q'.2.1 q'.2.2).mp hq'
    obtain ⟨x, y, hi, hx, hy⟩ := shape_of ht hs
    refine ⟨q'.1, q'.2.1, q'.2.2, b, ⟨⟨l, ?_, h4, h5, fun p hp => (h6 p hp).1⟩, fun p hp => (h6 p hp).2, ?_, ?_,
      ⟨_, root, Make.getD_valueOr d "seed" (.int 0), hroot⟩, ⟨⟨bs, hbs, hb⟩, by simpa using hb0⟩,
      ⟨_, x, y, hh, w, Make.getD_valueOr d "image_shape" _, hi, hx, hy, hh0, hw0⟩, ?_⟩⟩
    · have h3' := baseVal_list h3
      rcases Make.getD_valueOr d "file_list" (.list []) with ⟨_, g⟩ | g
      · rw [h3'] at g
        simp only [Val.list.injEq, List.map_eq_nil_iff] at g
        subst g
        generalize q'.1 = fl at h4 h5
        cases h4
        exact absurd rfl h5
      · rw [h3'] at g; exact g
    · have := Make.getD_valueOr d "randomize" (.bool false)
      rwa [baseVal_bool h1] at this
    · have := Make.getD_valueOr d "loop" (.bool true)
      rwa [baseVal_bool h2] at this
    · cases hl : d.lookup "flow_fields_per_batch" with
      | none => rw [hl] at hff; cases hff
      | some v => exact ⟨v, hl, trivial⟩
  · rintro ⟨files, r, lp, b, hc⟩
    obtain ⟨⟨bs, hbs, hb⟩, hb0⟩ := hc.batchSize
    obtain ⟨sv, k, hsv, hk⟩ := hc.seed
    obtain ⟨v, x, y, hh, w, hv, hi, hx, hy, hh0, hw0⟩ := hc.imageShape
    obtain ⟨fv, hfv, _⟩ := hc.flowFieldsPerBatch
    obtain ⟨paths, h1, h2, h3, h4⟩ := hc.found
    have ex := hc.extensions
    have e1 := getD_of hp.includeImages
    have e2 := Make.sizeOption_ok.2 hp.noEpisodes
    have e3 := Make.sizeOption_ok.2 hp.noBuffer
    have e4 : (world E).prngKey (Make.getD d "seed" (.int 0)) = .ok k := by rw [getD_of hsv]; exact hk
    have e5 : Make.toTuple (Make.getD d "image_shape" (.tuple [.int 256, .int 256])) = .ok (.tuple [x, y]) := by rw [getD_of hv]; exact tuple_of hi
    have e6 : Make.getD d "file_list" (.list []) = .list (paths.map .str) := by unfold Make.getD; rw [h1]; rfl
    have hb' : bs.asInt = some b := hb
    have hbase : buildBase E (Make.baseFromConfig .mat
        { fileList := Make.getD d "file_list" (.list []), randomize := Make.getD d "randomize" (.bool false),
          loop := Make.getD d "loop" (.bool true), key := k.split2.2, includeImages := true, outputShape := some (.tuple [x, y]) }) =
        .ok (files, { randomize := r, loop := lp }) := by
      have := ((FormatInit.C86_mat_constructor (E.fs .mat) (.list (paths.map some)) (.bool r) (.bool lp) (.bool true)
        (.tuple [some hh, some w])).1 files r lp).mpr
        ⟨⟨_, rfl⟩, ⟨hh, w, rfl, hh0, hw0⟩, rfl, rfl, paths, rfl, h2, h3, fun p hp => ⟨h4 p hp, ex p hp⟩⟩
      unfold buildBase
      have hx' : x.asInt = some hh := hx
      have hy' : y.asInt = some w := hy
      simp only [Make.baseFromConfig, e6, getD_of hc.randomizeFlag, getD_of hc.loopFlag, files_list, Option.getD]
      simp only [baseVal, shapeVal, List.map, hx', hy', this]
    have e7 : (world E).baseInit (Make.baseFromConfig .mat
        { fileList := Make.getD d "file_list" (.list []), randomize := Make.getD d "randomize" (.bool false),
          loop := Make.getD d "loop" (.bool true), key := k.split2.2, includeImages := true, outputShape := some (.tuple [x, y]) }) = .ok () := by
      simp only [world, hbase]
    show ∃ s, Make.fromDict (world E) d = .ok s
    unfold Make.fromDict
    rw [hp.schedulerClass]
    simp only [show Make.getBaseScheduler (.str (Make.Spec.ext .mat)) = .ok .mat from rfl, hbs, hb', e1, e2, e3, hfv, e4, e5, Make.andThen, Make.raiseIf,
      Option.isNone_some, Bool.true_and, Bool.false_eq_true, if_false, if_true, ne_eq, not_true_eq_false, decide_false]
    rw [if_neg (by simpa using hb0)]
    simp only [e7, Make.withEpisodes, Make.withPrefetch, Make.andThen, lt_irrefl, if_false]
    refine ⟨.real (.base (Make.baseFromConfig .mat
        { fileList := Make.getD d "file_list" (.list []), randomize := Make.getD d "randomize" (.bool false),
          loop := Make.getD d "loop" (.bool true), key := k.split2.2, includeImages := true, outputShape := some (.tuple [x, y]) })) b, ?_⟩
    unfold Make.finish
    rw [if_pos rfl]
    simp only [world, realInit, hasImages, Make.baseFromConfig]
    rw [if_neg (by omega)]
    rfl

/-- The configuration may be given as a dictionary or as a file. -/
theorem make_config {w : Make.World} {arg : Make.Arg} {d : Make.Dict} (h : Make.Spec.ConfigOf w arg d) : Make.make w arg = Make.make w (.dict d) := by
  cases arg with
  | other => exact h.elim
  | dict d' => cases h; rfl
  | path f =>
    obtain ⟨h1, h2, h3, h4⟩ := h
    simp only [Make.make, h1, h2, h3, h4]
    rfl

/-! ## Cases -/

/-- The configuration of `Props/Whole.lean` is complete. -/
example : ∃ files r lp a, Complete demoEnv demoDict .h5 files r lp a ∧ Geometry.Possible a.geometry := by
  rw [← C113_exact_partial demoEnv rfl demoDict .h5 ⟨rfl, .inl ⟨rfl, rfl⟩, ⟨le_refl _, .inl ⟨rfl, rfl⟩⟩, ⟨le_refl _, .inl ⟨rfl, rfl⟩⟩⟩
    (fun _ _ => List.Perm.refl _)]
  have h : (Make.make (world demoEnv) (.dict demoDict)).isOk = true := by decide +kernel
  cases hm : Make.make (world demoEnv) (.dict demoDict) with
  | error e => rw [hm] at h; cases h
  | ok s => exact ⟨s, rfl⟩

/-- Without `dt` it is not. -/
example : ∀ files r lp a, ¬ Complete demoEnv (demoDict.filter (fun q => q.1 != "dt")) .h5 files r lp a := by
  intro files r lp a h
  obtain ⟨v, hv, _⟩ := h.configured.dt
  have : List.lookup "dt" (demoDict.filter (fun q => q.1 != "dt")) = none := by decide +kernel
  rw [this] at hv
  cases hv

/-- The configuration for real images is complete. -/
example : ∃ files r lp b, CompleteReal demoEnv demoReal files r lp b := by
  rw [← C113_real_iff demoEnv demoReal ⟨rfl, .inr rfl, ⟨le_refl _, .inl ⟨rfl, rfl⟩⟩, ⟨le_refl _, .inl ⟨rfl, rfl⟩⟩⟩]
  have h : (Make.make (world demoEnv) (.dict demoReal)).isOk = true := by decide +kernel
  cases hm : Make.make (world demoEnv) (.dict demoReal) with
  | error e => rw [hm] at h; cases h
  | ok s => exact ⟨s, rfl⟩

end Verif.Whole
