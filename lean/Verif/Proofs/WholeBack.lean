import Verif.Proofs.Whole
import Verif.Spec.Complete
import Verif.Props.Types
/-!
# Lemmas: a complete configuration is accepted
-/

namespace Verif.Whole
open Verif Verif.Whole.Spec

theorem rat_of {v : Val} {q : ℚ} (h : IsNum q v) : rat v = some q := by
  unfold rat; rw [show v.asNum = some (.fin q) from h]

theorem nat_of {v : Val} {n : Nat} (h : IsInt n v) : nat v = some n := by
  unfold nat; rw [show v.asInt = some (n : Int) from h]

theorem tuple_of {v : Val} {l : List Val} (h : Items l v) : Make.toTuple v = .ok (.tuple l) := by
  rcases h with rfl | rfl <;> rfl

theorem items_of {v : Val} {l : List Val} (h : Items l v) : Make.items v = .ok l := by
  rcases h with rfl | rfl <;> rfl

/-- A list of pairs becomes a list of tuples with the same numbers. -/
theorem tuples_of {l : List (ℚ × ℚ)} {vs : List Val} (h : List.Forall₂ IsPair l vs) :
    ∃ ts, Make.tuples vs = .ok ts ∧ ts.mapM (two rat) = some l ∧
      List.Forall₂ (fun q t => ∃ a b, t = Val.tuple [a, b] ∧ IsNum q.1 a ∧ IsNum q.2 b) l ts := by
  induction h with
  | nil => exact ⟨[], rfl, rfl, .nil⟩
  | cons h1 _ ih =>
    obtain ⟨a, b, hi, ha, hb⟩ := h1
    obtain ⟨ts, e1, e2, e3⟩ := ih
    refine ⟨.tuple [a, b] :: ts, ?_, ?_, .cons ⟨a, b, rfl, ha, hb⟩ e3⟩
    · simp only [Make.tuples, tuple_of hi, e1, Make.andThen]
    · rw [List.mapM_cons, e2]
      simp only [two, rat_of ha, rat_of hb]
      rfl

theorem tupleList_of {l : List (ℚ × ℚ)} {v : Val} (h : IsPairs l v) :
    ∃ ts, Make.tupleList v = .ok (.list ts) ∧ ranges (.list ts) = some l ∧
      List.Forall₂ (fun q t => ∃ a b, t = Val.tuple [a, b] ∧ IsNum q.1 a ∧ IsNum q.2 b) l ts := by
  obtain ⟨vs, hi, hp⟩ := h
  obtain ⟨ts, e1, e2, e3⟩ := tuples_of hp
  exact ⟨ts, by simp only [Make.tupleList, items_of hi, e1, Make.andThen], e2, e3⟩

theorem pair_of {q : ℚ × ℚ} {v : Val} (h : IsPair q v) :
    ∃ a b, Make.toTuple v = .ok (.tuple [a, b]) ∧ two rat (.tuple [a, b]) = some q ∧ IsNum q.1 a ∧ IsNum q.2 b := by
  obtain ⟨a, b, hi, ha, hb⟩ := h
  exact ⟨a, b, tuple_of hi, by simp only [two, rat_of ha, rat_of hb], ha, hb⟩

/-! ## Documented ranges -/

theorem isNumber_of {q : ℚ} {v : Val} (h : IsNum q v) : Types.Spec.IsNumber v (.fin q) := ⟨h, by simp⟩

theorem nonNegative_of {q : ℚ} {v : Val} (h : IsNum q v) (hq : 0 ≤ q) : Types.Spec.NonNegative v :=
  ⟨_, isNumber_of h, hq⟩

theorem lt_of {a b : ℚ} (h : a < b) : Types.Spec.Lt (.fin a) (.fin b) :=
  ⟨le_of_lt h, by simp only [ne_eq, Num.fin.injEq]; exact ne_of_lt h⟩

theorem rangesWith_of {P : Num → Num → Prop} {l : List (ℚ × ℚ)} {ts : List Val} (hne : l ≠ [])
    (h : List.Forall₂ (fun q t => ∃ a b, t = Val.tuple [a, b] ∧ IsNum q.1 a ∧ IsNum q.2 b) l ts)
    (hP : ∀ q ∈ l, P (.fin q.1) (.fin q.2)) : Types.Spec.RangesWith P (.list ts) := by
  refine ⟨ts, rfl, ?_, ?_⟩
  · rintro rfl
    cases h
    exact hne rfl
  · clear hne
    intro r hr
    induction h with
    | nil => cases hr
    | cons h1 _ ih =>
      rcases List.mem_cons.mp hr with rfl | hr
      · obtain ⟨a, b, e, ha, hb⟩ := h1
        exact ⟨a, b, _, _, e, isNumber_of ha, isNumber_of hb, hP _ (by simp)⟩
      · exact ih (fun q hq => hP q (by simp [hq])) hr

theorem mapM_of : ∀ {vs : List Val} {zs : List Int}, List.Forall₂ IsInt zs vs → vs.mapM Val.asInt = some zs := by
  intro vs zs h
  induction h with
  | nil => rfl
  | cons h1 _ ih =>
    rw [List.mapM_cons, ih, show _ = _ from h1]; rfl

theorem devices_of {D n : Nat} {v : Val} (h : IsDevices D n v) (hr : ∀ vs zs, Items vs v → List.Forall₂ IsInt zs vs → ∀ z ∈ zs, -(D : Int) ≤ z) : deviceCount D v = .ok n := by
  rcases h with ⟨rfl, rfl⟩ | ⟨vs, zs, hi, hz, rfl⟩
  · rfl
  · have hin : (zs.filter (· < (D : Int))).any (· < -(D : Int)) = false := by
      rw [List.any_eq_false]
      intro z hz'
      have := hr vs zs hi hz z (List.mem_filter.mp hz').1
      simpa using this
    rcases hi with rfl | rfl <;>
    · unfold deviceCount
      simp only [mapM_of hz, hin, Bool.false_eq_true, if_false]

theorem mask_of {E : Env} {m : Option ((Nat × Nat) × (Nat → Nat → ℚ))} {v : Val} (h : IsMask E m v) :
    ∃ p, Make.optionalFile (world E) (loadMask E) v = .ok p ∧ maskOf E p = some m := by
  rcases h with ⟨rfl, rfl⟩ | ⟨p, hh, w, data, rfl, hf, hn, h01, rfl⟩
  · exact ⟨none, rfl, rfl⟩
  · refine ⟨some p, ?_, ?_⟩
    · have hw : (world E).isFile p = true := hf
      have hall : data.all (fun v => decide (v = 0) || decide (v = 1)) = true := by
        rw [List.all_eq_true]; intro x hx; simpa using h01 x hx
      unfold Make.optionalFile
      simp only [hw, if_true, loadMask, hn, hall, Make.andThen]
    · simp only [maskOf, hn]

theorem histogram_of {E : Env} {m : Option (List ℚ)} {v : Val} (h : IsHistogram E m v) :
    ∃ p, Make.optionalFile (world E) ((world E).loadHistogram) v = .ok p ∧ histogramOf E p = some m := by
  rcases h with ⟨rfl, rfl⟩ | ⟨p, n, data, rfl, hf, hn, rfl⟩
  · exact ⟨none, rfl, rfl⟩
  · refine ⟨some p, ?_, ?_⟩
    · unfold Make.optionalFile
      simp only [world, hf, if_true, hn, Make.andThen]
    · simp only [histogramOf, hn]

theorem item_of {d : Make.Dict} {k : String} {v : Val} (h : d.lookup k = some v) : Make.item d k = .ok v := by
  unfold Make.item; rw [h]

theorem getD_of {d : Make.Dict} {k : String} {dflt v : Val} (h : Make.Spec.ValueOr d k dflt v) : Make.getD d k dflt = v := by
  unfold Make.getD
  rcases h with ⟨h1, h2⟩ | h1
  · rw [h1, h2]; rfl
  · rw [h1]; rfl

/-- A specification with these numbers is accepted. -/
theorem spec_accepted {p : Generate.Params ℚ} {off : ℚ × ℚ} (hok : Synthetic.specOK p off = true) {s : Types.Spec}
    (hb : IsInt p.batchSize s.batchSize)
    (hshape : ∃ x y, s.imageShape = .tuple [x, y] ∧ IsInt p.imageShape.1 x ∧ IsInt p.imageShape.2 y)
    (hoff : ∃ x y, s.imgOffset = .tuple [x, y] ∧ IsNum off.1 x ∧ IsNum off.2 y)
    (hdens : ∃ x y, s.seedingDensityRange = .tuple [x, y] ∧ IsNum p.densityRange.1 x ∧ IsNum p.densityRange.2 y)
    (h1 : IsNum p.pHide1 s.pHide1) (h2 : IsNum p.pHide2 s.pHide2)
    (hdr : ∃ ts, s.diameterRanges = .list ts ∧ List.Forall₂ (fun q t => ∃ a b, t = Val.tuple [a, b] ∧ IsNum q.1 a ∧ IsNum q.2 b) p.diameterRanges ts)
    (hdv : IsNum p.diameterVar s.diameterVar)
    (hir : ∃ ts, s.intensityRanges = .list ts ∧ List.Forall₂ (fun q t => ∃ a b, t = Val.tuple [a, b] ∧ IsNum q.1 a ∧ IsNum q.2 b) p.intensityRanges ts)
    (hiv : IsNum p.intensityVar s.intensityVar)
    (hrr : ∃ ts, s.rhoRanges = .list ts ∧ List.Forall₂ (fun q t => ∃ a b, t = Val.tuple [a, b] ∧ IsNum q.1 a ∧ IsNum q.2 b) p.rhoRanges ts)
    (hrv : IsNum p.rhoVar s.rhoVar) (hdt : IsNum p.dt s.dt) (hnu : IsNum p.noiseUniform s.noiseUniform)
    (hnm : IsNum p.noiseMean s.noiseGaussianMean) (hns : IsNum p.noiseStd s.noiseGaussianStd) : s.construct = .ok s := by
  simp only [Synthetic.specOK, Bool.and_eq_true, decide_eq_true_eq, List.all_eq_true] at hok
  obtain ⟨⟨⟨⟨⟨⟨⟨⟨⟨⟨⟨⟨⟨⟨⟨k1, k2⟩, k3⟩, k4⟩, k5⟩, k6⟩, k7⟩, k8⟩, k9⟩, k10⟩, k11⟩, k12⟩, k13⟩, k14⟩, k15⟩, k16⟩ := hok
  refine (Types.C45_accepts_documented_partial s).2.2.1 ⟨?_, nonNegative_of hns k15.2.2, ⟨_, isNumber_of hdt, lt_of k16⟩⟩
  obtain ⟨x1, x2, es, a1, a2⟩ := hshape
  obtain ⟨o1, o2, eo, b1, b2⟩ := hoff
  obtain ⟨d1, d2, ed, c1, c2⟩ := hdens
  obtain ⟨ts1, e1, f1⟩ := hdr
  obtain ⟨ts2, e2, f2⟩ := hir
  obtain ⟨ts3, e3, f3⟩ := hrr
  exact {
    batchSize := ⟨_, hb, by omega⟩
    imageShape := ⟨x1, x2, es, ⟨_, a1, by have := k2.1; omega⟩, ⟨_, a2, by have := k2.2; omega⟩⟩
    imgOffset := ⟨o1, o2, eo, nonNegative_of b1 k5.1, nonNegative_of b2 k5.2⟩
    density := ⟨d1, d2, ed, nonNegative_of c1 k6.1, nonNegative_of c2 k6.2⟩
    densityOrder := ⟨d1, d2, _, _, ed, isNumber_of c1, isNumber_of c2, k7⟩
    pHide1 := ⟨_, isNumber_of h1, k3.1, k3.2⟩
    pHide2 := ⟨_, isNumber_of h2, k4.1, k4.2⟩
    diameters := by rw [e1]; exact rangesWith_of (List.length_pos_iff.1 k8) f1 (fun q hq => ⟨lt_of (k9 q hq).1, (k9 q hq).2⟩)
    diameterVar := nonNegative_of hdv k14.1
    intensities := by rw [e2]; exact rangesWith_of (List.length_pos_iff.1 k10) f2 (fun q hq => ⟨lt_of (k11 q hq).1, (k11 q hq).2⟩)
    intensityVar := nonNegative_of hiv k14.2.1
    rhos := by
      rw [e3]
      exact rangesWith_of (List.length_pos_iff.1 k12) f3 (fun q hq => ⟨lt_of (k13 q hq).1, (k13 q hq).2.1, lt_of (k13 q hq).2.2⟩)
    rhoVar := nonNegative_of hrv k14.2.2
    noiseUniform := nonNegative_of hnu k15.1
    noiseGaussianMean := nonNegative_of hnm k15.2.1 }

/-- The converse of `synth_configured`: if the numbers of the configuration are acceptable, the sampler is built. -/
theorem synth_accepted {E : Env} {p : Make.Pipe} {d : Make.Dict} {a : Synthetic.Args} {m : Synthetic.Made}
    (hc : Configured E d a) (hcomp : Proper E d) (h3 : threeOf E p = some (a.flowShape, a.channels)) (he : a.isEpisodic = isEpisodic p)
    (hoff0 : a.spec.imgOffset = (0, 0)) (hm : Synthetic.make E.fl E.fl32 a = .ok m) :
    ∃ sa, Make.synthFromConfig (world E) p d = .ok (.synthetic p sa) ∧ synthBuild E p sa = .ok (a, m) := by
  obtain ⟨bs, kbs, hbs⟩ := hc.batchSize
  obtain ⟨shv, ksh, x1, x2, ish, hx1, hx2⟩ := hc.imageShape
  obtain ⟨ofv, kof, hof⟩ := hc.imgOffset
  obtain ⟨o1, o2, eo, tof, ho1, ho2⟩ := pair_of hof
  obtain ⟨dev, kde, hde⟩ := hc.density
  obtain ⟨d1, d2, ed, td, hd1, hd2⟩ := pair_of hde
  obtain ⟨h1v, kh1, hh1⟩ := hc.pHide1
  obtain ⟨h2v, kh2, hh2⟩ := hc.pHide2
  obtain ⟨drv, kdr, hdr⟩ := hc.diameterRanges
  obtain ⟨ts1, edr, rdr, fdr⟩ := tupleList_of hdr
  obtain ⟨dvv, kdv, hdv⟩ := hc.diameterVar
  obtain ⟨irv, kir, hir⟩ := hc.intensityRanges
  obtain ⟨ts2, eir, rir, fir⟩ := tupleList_of hir
  obtain ⟨ivv, kiv, hiv⟩ := hc.intensityVar
  obtain ⟨rrv, krr, hrr⟩ := hc.rhoRanges
  obtain ⟨ts3, err, rrr, frr⟩ := tupleList_of hrr
  obtain ⟨rvv, krv, hrv⟩ := hc.rhoVar
  obtain ⟨dtv, kdt, hdt⟩ := hc.dt
  obtain ⟨nuv, knu, hnu⟩ := hc.noiseUniform
  obtain ⟨nmv, knm, hnm⟩ := hc.noiseMean
  obtain ⟨nsv, kns, hns⟩ := hc.noiseStd
  obtain ⟨bpv, kbp, hbp⟩ := hc.bpfb
  obtain ⟨ffv, kff, hff⟩ := hc.ffpb
  obtain ⟨sev, kse, hse⟩ := hc.seed
  obtain ⟨fsv, kfs, y1, y2, rest, ifs, hy1, hy2⟩ := hc.flowFieldSize
  obtain ⟨rev, kre, hre⟩ := hc.resolution
  obtain ⟨vpv, kvp, hvp⟩ := hc.velocitiesPerPixel
  obtain ⟨axv, kax, hax⟩ := hc.maxSpeedX
  obtain ⟨ayv, kay, hay⟩ := hc.maxSpeedY
  obtain ⟨ixv, kix, hix⟩ := hc.minSpeedX
  obtain ⟨iyv, kiy, hiy⟩ := hc.minSpeedY
  obtain ⟨dv, kdv', hdevs⟩ := hc.devices
  obtain ⟨mv, kmv, hmv⟩ := hc.mask
  obtain ⟨mp, emp, omp⟩ := mask_of hmv
  obtain ⟨hv, khv, hhv⟩ := hc.histogram
  obtain ⟨hp, ehp, ohp⟩ := histogram_of hhv
  have hrest : rest.all (fun v => match v.asNum with | some q => (Num.fin 0).lt q | none => false) = true := by
    obtain ⟨v, kv, l, il, hl⟩ := hcomp.size
    rw [kfs] at kv
    cases kv
    have hll : l = y1 :: y2 :: rest := by
      rcases ifs with rfl | rfl <;> rcases il with iv | iv <;> cases iv <;> rfl
    subst hll
    rw [List.all_eq_true]
    intro z hz
    obtain ⟨q, ⟨hq, hn⟩, hle, hne⟩ := hl z (by simp [hz])
    rw [hq]
    cases q with
    | nan => exact absurd rfl hn
    | fin q =>
      have h1 : (0 : ℚ) ≤ q := hle
      have h2 : (0 : ℚ) ≠ q := fun e => hne (by rw [e])
      simpa [Num.lt] using lt_of_le_of_ne h1 h2
    | _ => first | rfl | exact hle.elim
  obtain ⟨k1, _⟩ := Synthetic.make_ok hm
  have hspec := spec_accepted (s := {
    batchSize := bs, imageShape := .tuple [x1, x2], imgOffset := .tuple [o1, o2],
    seedingDensityRange := .tuple [d1, d2], pHide1 := h1v, pHide2 := h2v, diameterRanges := .list ts1,
    diameterVar := dvv, intensityRanges := .list ts2, intensityVar := ivv,
    rhoRanges := .list ts3, rhoVar := rvv, dt := dtv, noiseUniform := nuv,
    noiseGaussianMean := nmv, noiseGaussianStd := nsv }) k1 hbs ⟨_, _, rfl, hx1, hx2⟩ ⟨_, _, rfl, ho1, ho2⟩ ⟨_, _, rfl, hd1, hd2⟩ hh1 hh2
    ⟨_, rfl, fdr⟩ hdv ⟨_, rfl, fir⟩ hiv ⟨_, rfl, frr⟩ hrv hdt hnu hnm hns
  obtain ⟨uv, kuv, huv⟩ : ∃ v, d.lookup "output_units" = some v ∧ unitsOf v = a.pixels := by
    rcases hc.units with ⟨e1, e2⟩ | ⟨e1, e2⟩
    · exact ⟨_, e2, by rw [e1]; rfl⟩
    · exact ⟨_, e2, by rw [e1]; rfl⟩
  have hdc := devices_of hdevs (fun vs zs => hcomp.devices dv vs zs kdv')
  have hbuild : synthBuild E p {
      spec := {
        batchSize := bs, imageShape := .tuple [x1, x2], imgOffset := .tuple [o1, o2],
        seedingDensityRange := .tuple [d1, d2], pHide1 := h1v, pHide2 := h2v, diameterRanges := .list ts1,
        diameterVar := dvv, intensityRanges := .list ts2, intensityVar := ivv,
        rhoRanges := .list ts3, rhoVar := rvv, dt := dtv, noiseUniform := nuv,
        noiseGaussianMean := nmv, noiseGaussianStd := nsv }
      batchesPerFlowBatch := bpv, flowFieldsPerBatch := ffv, flowFieldSize := .tuple (y1 :: y2 :: rest), resolution := rev,
      velocitiesPerPixel := vpv, seed := sev, maxSpeedX := axv, maxSpeedY := ayv, minSpeedX := ixv, minSpeedY := iyv,
      outputUnits := uv, deviceIds := dv, mask := mp, histogram := hp } = .ok (a, m) := by
    have hargs : synthArgs E p {
      spec := {
        batchSize := bs, imageShape := .tuple [x1, x2], imgOffset := .tuple [o1, o2],
        seedingDensityRange := .tuple [d1, d2], pHide1 := h1v, pHide2 := h2v, diameterRanges := .list ts1,
        diameterVar := dvv, intensityRanges := .list ts2, intensityVar := ivv,
        rhoRanges := .list ts3, rhoVar := rvv, dt := dtv, noiseUniform := nuv,
        noiseGaussianMean := nmv, noiseGaussianStd := nsv }
      batchesPerFlowBatch := bpv, flowFieldsPerBatch := ffv, flowFieldSize := .tuple (y1 :: y2 :: rest), resolution := rev,
      velocitiesPerPixel := vpv, seed := sev, maxSpeedX := axv, maxSpeedY := ayv, minSpeedX := ixv, minSpeedY := iyv,
      outputUnits := uv, deviceIds := dv, mask := mp, histogram := hp } = some a := by
      have hsh : two nat (.tuple [x1, x2]) = some a.spec.imageShape := by simp only [two, nat_of hx1, nat_of hx2]
      have hsize : sizeOf (.tuple (y1 :: y2 :: rest)) = some a.flowFieldSize := by
        simp only [sizeOf, rat_of hy1, rat_of hy2]
        exact if_pos hrest
      have hsp : specOf {
        batchSize := bs, imageShape := .tuple [x1, x2], imgOffset := .tuple [o1, o2],
        seedingDensityRange := .tuple [d1, d2], pHide1 := h1v, pHide2 := h2v, diameterRanges := .list ts1,
        diameterVar := dvv, intensityRanges := .list ts2, intensityVar := ivv,
        rhoRanges := .list ts3, rhoVar := rvv, dt := dtv, noiseUniform := nuv,
        noiseGaussianMean := nmv, noiseGaussianStd := nsv } = some (a.spec, a.imgOffset) := by
        simp only [specOf, nat_of hbs, hsh, tof, td, rat_of hh1, rat_of hh2, rdr, rat_of hdv, rir, rat_of hiv, rrr, rat_of hrv, rat_of hdt,
          rat_of hnu, rat_of hnm, rat_of hns, Option.bind_eq_bind, Option.bind_some, Option.some.injEq, Prod.mk.injEq, and_true]
        rw [← hoff0]
      have e1 : bpv.asInt = some a.bpfb := hbp
      have e2 : ffv.asInt = some a.ffpb := hff
      have e3 : sev.asInt = some a.seed := hse
      simp only [synthArgs, hsp, hdc, e1, e2, e3, hsize, h3, rat_of hre, rat_of hvp, rat_of hax, rat_of hay, rat_of hix, rat_of hiy, omp, ohp, huv,
        Option.bind_eq_bind, Option.bind_some, Except.toOption, ← he]
    unfold synthBuild
    simp only [hargs, hm]
  refine ⟨_, ?_, hbuild⟩
  have hinit : (world E).synthInit p {
      spec := {
        batchSize := bs, imageShape := .tuple [x1, x2], imgOffset := .tuple [o1, o2],
        seedingDensityRange := .tuple [d1, d2], pHide1 := h1v, pHide2 := h2v, diameterRanges := .list ts1,
        diameterVar := dvv, intensityRanges := .list ts2, intensityVar := ivv,
        rhoRanges := .list ts3, rhoVar := rvv, dt := dtv, noiseUniform := nuv,
        noiseGaussianMean := nmv, noiseGaussianStd := nsv }
      batchesPerFlowBatch := bpv, flowFieldsPerBatch := ffv, flowFieldSize := .tuple (y1 :: y2 :: rest), resolution := rev,
      velocitiesPerPixel := vpv, seed := sev, maxSpeedX := axv, maxSpeedY := ayv, minSpeedX := ixv, minSpeedY := iyv,
      outputUnits := uv, deviceIds := dv, mask := mp, histogram := hp } = .ok () := by
    simp only [world, hbuild]
  have emp' : Make.optionalFile (world E) (world E).loadMask (Make.getD d "mask" .none) = .ok mp := by rw [getD_of kmv]; exact emp
  have ehp' : Make.optionalFile (world E) (world E).loadHistogram (Make.getD d "histogram" .none) = .ok hp := by rw [getD_of khv]; exact ehp
  unfold Make.synthFromConfig
  simp only [emp', ehp', item_of kbs, item_of ksh, item_of kof, item_of kde, item_of kh1, item_of kh2, item_of kdr, item_of kdv, item_of kir,
    item_of kiv, item_of krr, item_of krv, item_of kdt, item_of knu, item_of knm, item_of kns, item_of kbp, item_of kff, item_of kse, item_of kfs,
    item_of kre, item_of kvp, item_of kax, item_of kay, item_of kix, item_of kiy, item_of kuv, getD_of kdv', tuple_of ish, eo, ed, edr, eir, err,
    tuple_of ifs, hspec, hinit, Make.andThen]


/-! ## The rest of `make` -/

theorem specOK_of {p : Generate.Params ℚ} {off : ℚ × ℚ} (h : Ranges p off) : Synthetic.specOK p off = true := by
  simp only [Synthetic.specOK, Bool.and_eq_true, decide_eq_true_eq, List.all_eq_true]
  exact ⟨⟨⟨⟨⟨⟨⟨⟨⟨⟨⟨⟨⟨⟨⟨h.batchSize, h.imageShape⟩, h.pHide1⟩, h.pHide2⟩, h.offset⟩, h.density.1, le_trans h.density.1 h.density.2⟩, h.density.2⟩,
    List.length_pos_iff.2 h.diameters.1⟩, h.diameters.2⟩, List.length_pos_iff.2 h.intensities.1⟩, h.intensities.2⟩,
    List.length_pos_iff.2 h.rhos.1⟩, h.rhos.2⟩, h.variances⟩, h.noise⟩, h.dt⟩

/-- The constructor succeeds if all is fine and the geometry is accepted. -/
theorem make_of {fl fl32 : ℚ → ℚ} {a : Synthetic.Args} (h : Fine a) (hp : a.pixels ≠ none) {g : Geometry.Geo}
    (hg : Geometry.build fl fl32 a.geometry = .ok g) : ∃ m, Synthetic.make fl fl32 a = .ok m := by
  obtain ⟨px, hpx⟩ := Option.ne_none_iff_exists'.mp hp
  have h1 := specOK_of h.ranges
  have h2 : Synthetic.maskOK a = true := by
    unfold Synthetic.maskOK
    cases hm : a.mask with
    | none => rfl
    | some m => simpa using h.mask m hm
  have h3 : Synthetic.histogramOK a = true := by
    unfold Synthetic.histogramOK
    cases hm : a.histogram with
    | none => rfl
    | some m =>
      obtain ⟨k1, k2⟩ := h.histogram m hm
      simp only [Synthetic.isClose, Bool.and_eq_true, decide_eq_true_eq]
      refine ⟨k1, ?_⟩
      rw [abs_of_nonneg (a := (((a.spec.imageShape.1 * a.spec.imageShape.2 : Nat)) : ℚ)) (Nat.cast_nonneg _)]
      push_cast
      exact k2
  have h4 : ∃ c, Sampler.Cfg.make a.spec.batchSize a.ndevices a.isEpisodic a.bpfb a.ffpb a.seed = .ok c := by
    have k1 := h.ranges.batchSize
    have k2 := h.devices
    have k3 := h.bpfb
    have k4 := h.ffpb
    have k5 := h.seed
    unfold Sampler.Cfg.make
    rw [if_neg (by omega), if_neg (by omega), if_neg (by omega), if_neg (by omega), if_neg (by omega), if_neg (by omega)]
    exact ⟨_, rfl⟩
  obtain ⟨c, h4⟩ := h4
  have h5 : ¬ (a.channels ≠ 2 ∧ a.channels ≠ 3) := by have := h.channels; omega
  unfold Synthetic.make
  rw [if_neg (by simp [h1]), if_neg (by simp [h2]), if_neg (by simp [h3]), h4]
  dsimp only
  rw [if_neg h5, if_neg (not_le.mpr h.velocitiesPerPixel), hpx]
  dsimp only
  rw [hg]
  exact ⟨_, rfl⟩

theorem files_list {l : List String} : baseVal (.list (l.map .str)) = .list (l.map some) := by
  simp [baseVal, Function.comp_def]

/-- The base scheduler is built. -/
theorem base_accepted {E : Env} {d : Make.Dict} {kind : Make.Kind} {files : List String} {r lp : Bool} {a : Synthetic.Args}
    (h : Complete E d kind files r lp a) (root : KeyTerm) :
    buildBase E (Make.baseFromConfig kind
        { fileList := Make.getD d "file_list" (.list []), randomize := Make.getD d "randomize" (.bool false),
          loop := Make.getD d "loop" (.bool true), key := root, includeImages := false, outputShape := none }) =
      .ok (files, { randomize := r, loop := lp }) := by
  obtain ⟨paths, h1, h2, h3, h4⟩ := h.found
  have hx := h.extensions
  have e1 : Make.getD d "file_list" (.list []) = .list (paths.map .str) := by unfold Make.getD; rw [h1]; rfl
  have e2 := getD_of h.randomizeFlag
  have e3 := getD_of h.loopFlag
  unfold buildBase
  cases kind with
  | h5 =>
    have := ((FormatInit.C86_hdf5_constructor_partial (E.fs .h5) (.list (paths.map some)) (.bool r) (.bool lp)).1 files r lp).mpr
      ⟨rfl, rfl, paths, rfl, h2, h3, h4, hx paths h1⟩
    simp only [Make.baseFromConfig, e1, e2, e3, files_list]
    simp only [baseVal, this]
  | mat =>
    have := ((FormatInit.C86_mat_constructor (E.fs .mat) (.list (paths.map some)) (.bool r) (.bool lp) (.bool false)
      (.tuple [some 256, some 256])).1 files r lp).mpr
      ⟨⟨_, rfl⟩, ⟨256, 256, rfl, by decide, by decide⟩, rfl, rfl, paths, rfl, h2, h3, fun p hp => ⟨h4 p hp, hx p hp⟩⟩
    simp only [Make.baseFromConfig, e1, e2, e3, files_list, Option.getD]
    simp only [baseVal, shapeVal, List.map, Val.asInt, this]
  | npy =>
    have := ((FormatInit.C86_numpy_constructor (E.fs .npy) (.list (paths.map some)) (.bool r) (.bool lp) (.bool false)).1 files r lp).mpr
      ⟨rfl, rfl, paths, rfl, h2, h3, fun p hp => ⟨h4 p hp, hx p hp⟩, false, rfl, by simp⟩
    simp only [Make.baseFromConfig, e1, e2, e3, files_list, Option.getD]
    simp only [baseVal, this]

end Verif.Whole
