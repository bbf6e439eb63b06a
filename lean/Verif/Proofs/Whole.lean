import Verif.Spec.Whole
import Verif.Proofs.Make
import Verif.Proofs.Synthetic
import Verif.Props.FormatInit
/-!
# Lemmas: what the values of a configuration become
-/

namespace Verif.Whole
open Verif Verif.Whole.Spec

theorem rat_some {v : Val} {q : ℚ} (h : rat v = some q) : IsNum q v := by
  unfold rat at h
  split at h
  · rename_i h1; cases h; exact h1
  · cases h

theorem nat_some {v : Val} {n : Nat} (h : nat v = some n) : IsInt n v := by
  unfold nat at h
  split at h
  · rename_i h1; cases h; exact h1
  · cases h

theorem rat_str (s : String) : rat (.str s) = none := rfl
theorem nat_str (s : String) : nat (.str s) = none := rfl

theorem two_tuple {α : Type} {f : Val → Option α} (hf : ∀ s, f (.str s) = none) {v t : Val} {q : α × α} (ht : Make.toTuple v = .ok t)
    (h : two f t = some q) : ∃ a b, Items [a, b] v ∧ f a = some q.1 ∧ f b = some q.2 := by
  unfold two at h
  split at h
  · rename_i a b
    split at h
    · rename_i x y h1 h2
      cases h
      unfold Make.toTuple at ht
      split at ht
      · cases ht; exact ⟨a, b, .inr rfl, h1, h2⟩
      · cases ht; exact ⟨a, b, .inl rfl, h1, h2⟩
      · rename_i s
        simp only [Except.ok.injEq, Val.tuple.injEq] at ht
        have ha : a ∈ s.toList.map (fun c => Val.str (String.singleton c)) := by rw [ht]; simp
        obtain ⟨c, _, rfl⟩ := List.mem_map.mp ha
        rw [hf] at h1; cases h1
      · rename_i ks
        simp only [Except.ok.injEq, Val.tuple.injEq] at ht
        have ha : a ∈ ks.map Val.str := by rw [ht]; simp
        obtain ⟨c, _, rfl⟩ := List.mem_map.mp ha
        rw [hf] at h1; cases h1
      · cases ht
    · cases h
  · cases h

theorem pair_some {v t : Val} {q : ℚ × ℚ} (ht : Make.toTuple v = .ok t) (h : two rat t = some q) : IsPair q v := by
  obtain ⟨a, b, h1, h2, h3⟩ := two_tuple rat_str ht h
  exact ⟨a, b, h1, rat_some h2, rat_some h3⟩

theorem tuples_pairs : ∀ (vs ts : List Val) (l : List (ℚ × ℚ)), Make.tuples vs = .ok ts → ts.mapM (two rat) = some l →
    List.Forall₂ IsPair l vs := by
  intro vs
  induction vs with
  | nil =>
    intro ts l h1 h2
    cases h1
    rw [List.mapM_nil] at h2
    cases h2
    exact .nil
  | cons v vs ih =>
    intro ts l h1 h2
    simp only [Make.tuples, Make.andThen_ok] at h1
    obtain ⟨t, ht, r, hr, h1⟩ := h1
    cases h1
    rw [List.mapM_cons] at h2
    simp only [Option.bind_eq_bind, Option.bind_eq_some_iff, Option.pure_def, Option.some.injEq] at h2
    obtain ⟨q, hq, qs, hqs, rfl⟩ := h2
    exact .cons (pair_some ht hq) (ih r qs hr hqs)

/-- A string does not have the form of a pair of numbers. -/
theorem not_pair_str (q : ℚ × ℚ) (s : String) : ¬ IsPair q (.str s) := by
  rintro ⟨a, b, h | h, _⟩ <;> cases h

theorem pairs_some {v t : Val} {l : List (ℚ × ℚ)} (ht : Make.tupleList v = .ok t) (h : ranges t = some l) (hne : l ≠ []) : IsPairs l v := by
  simp only [Make.tupleList, Make.andThen_ok] at ht
  obtain ⟨vs, hvs, r, hr, ht⟩ := ht
  cases ht
  have hf := tuples_pairs vs r l hr h
  have hmem : ∃ a ∈ vs, ∃ q, IsPair q a := by
    cases hf with
    | nil => exact absurd rfl hne
    | cons h1 _ => exact ⟨_, by simp, _, h1⟩
  unfold Make.items at hvs
  split at hvs
  · cases hvs; exact ⟨_, .inr rfl, hf⟩
  · cases hvs; exact ⟨_, .inl rfl, hf⟩
  · cases hvs
    obtain ⟨a, ha, q, hq⟩ := hmem
    obtain ⟨c, _, rfl⟩ := List.mem_map.mp ha
    exact absurd hq (not_pair_str q _)
  · cases hvs
    obtain ⟨a, ha, q, hq⟩ := hmem
    obtain ⟨c, _, rfl⟩ := List.mem_map.mp ha
    exact absurd hq (not_pair_str q _)
  · cases hvs

theorem size_some {v t : Val} {q : ℚ × ℚ} (ht : Make.toTuple v = .ok t) (h : sizeOf t = some q) :
    ∃ x y rest, Items (x :: y :: rest) v ∧ IsNum q.1 x ∧ IsNum q.2 y := by
  unfold sizeOf at h
  split at h
  · rename_i a b rest
    split at h
    · rename_i x y h1 h2
      split at h
      · cases h
        unfold Make.toTuple at ht
        split at ht
        · cases ht; exact ⟨a, b, rest, .inr rfl, rat_some h1, rat_some h2⟩
        · cases ht; exact ⟨a, b, rest, .inl rfl, rat_some h1, rat_some h2⟩
        · rename_i s
          simp only [Except.ok.injEq, Val.tuple.injEq] at ht
          have ha : a ∈ s.toList.map (fun c => Val.str (String.singleton c)) := by rw [ht]; simp
          obtain ⟨c, _, rfl⟩ := List.mem_map.mp ha
          cases h1
        · rename_i ks
          simp only [Except.ok.injEq, Val.tuple.injEq] at ht
          have ha : a ∈ ks.map Val.str := by rw [ht]; simp
          obtain ⟨c, _, rfl⟩ := List.mem_map.mp ha
          cases h1
        · cases ht
      · cases h
    · cases h
  · cases h

theorem units_some {v : Val} {b : Bool} (h : unitsOf v = some b) :
    b = true ∧ v = .str "pixels" ∨ b = false ∧ v = .str "measure units per second" := by
  unfold unitsOf at h
  split at h
  · cases h; exact .inl ⟨rfl, rfl⟩
  · cases h; exact .inr ⟨rfl, rfl⟩
  · cases h

theorem mapM_asInt : ∀ (vs : List Val) (zs : List Int), vs.mapM Val.asInt = some zs → List.Forall₂ IsInt zs vs := by
  intro vs
  induction vs with
  | nil => intro zs h; rw [List.mapM_nil] at h; cases h; exact .nil
  | cons v vs ih =>
    intro zs h
    rw [List.mapM_cons] at h
    simp only [Option.bind_eq_bind, Option.bind_eq_some_iff, Option.pure_def, Option.some.injEq] at h
    obtain ⟨q, hq, qs, hqs, rfl⟩ := h
    exact .cons hq (ih qs hqs)

theorem devices_some {D n : Nat} {v : Val} (h : deviceCount D v = .ok n) : IsDevices D n v := by
  unfold deviceCount at h
  split at h
  · cases h; exact .inl ⟨rfl, rfl⟩
  · rename_i l
    split at h
    · cases h
    · rename_i zs hz
      split at h
      · cases h
      · cases h; exact .inr ⟨_, zs, .inl rfl, mapM_asInt _ _ hz, rfl⟩
  · rename_i l
    split at h
    · cases h
    · rename_i zs hz
      split at h
      · cases h
      · cases h; exact .inr ⟨_, zs, .inr rfl, mapM_asInt _ _ hz, rfl⟩
  · cases h

theorem item_ok {d : Make.Dict} {k : String} {v : Val} (h : Make.item d k = .ok v) : d.lookup k = some v := by
  unfold Make.item at h
  split at h
  · cases h; assumption
  · cases h

theorem mask_some {E : Env} {v : Val} {p : Option String} {m : Option ((Nat × Nat) × (Nat → Nat → ℚ))}
    (hp : Make.optionalFile (world E) (loadMask E) v = .ok p) (h : maskOf E p = some m) : IsMask E m v := by
  unfold Make.optionalFile at hp
  split at hp
  · cases hp; cases h; exact .inl ⟨rfl, rfl⟩
  · rename_i s
    split at hp
    · rename_i hfile
      simp only [Make.andThen_ok] at hp
      obtain ⟨_, hl, hp⟩ := hp
      cases hp
      unfold maskOf at h
      dsimp only at h
      split at h
      · rename_i h0 w0 data he
        cases h
        refine .inr ⟨s, h0, w0, data, rfl, hfile, he, ?_, rfl⟩
        unfold loadMask at hl
        rw [he] at hl
        dsimp only at hl
        split at hl
        · rename_i hall
          intro x hx
          have := List.all_eq_true.mp hall x hx
          simpa using this
        · cases hl
      · cases h
    · cases hp
  · cases hp

theorem histogram_some {E : Env} {v : Val} {p : Option String} {m : Option (List ℚ)}
    (hp : Make.optionalFile (world E) ((world E).loadHistogram) v = .ok p) (h : histogramOf E p = some m) : IsHistogram E m v := by
  unfold Make.optionalFile at hp
  split at hp
  · cases hp; cases h; exact .inl ⟨rfl, rfl⟩
  · rename_i s
    split at hp
    · rename_i hfile
      simp only [Make.andThen_ok] at hp
      obtain ⟨_, hl, hp⟩ := hp
      cases hp
      unfold histogramOf at h
      dsimp only at h
      split at h
      · rename_i n data he
        cases h
        exact .inr ⟨s, n, data, rfl, hfile, he, rfl⟩
      · cases h
    · cases hp
  · cases hp

/-- The specification that is built is the one given. -/
theorem construct_eq {s s' : Types.Spec} (h : s.construct = .ok s') : s' = s := by
  unfold Types.Spec.construct at h
  split at h
  · cases h; rfl
  · cases h

/-- A synthetic sampler made from a configuration has its arguments. -/
theorem synth_configured {E : Env} {p : Make.Pipe} {d : Make.Dict} {s : Make.Smp} (h : Make.synthFromConfig (world E) p d = .ok s) :
    ∃ sa a m, s = .synthetic p sa ∧ synthBuild E p sa = .ok (a, m) ∧ Synthetic.make E.fl E.fl32 a = .ok m ∧ Configured E d a ∧
      threeOf E p = some (a.flowShape, a.channels) ∧ a.isEpisodic = isEpisodic p := by
  unfold Make.synthFromConfig at h
  simp only [Make.andThen_ok] at h
  obtain ⟨mask, hmask, hist, hhist, bs, hbs, shape, ⟨shape', hshape', hshape⟩, off, ⟨off', hoff', hoff⟩, dens, ⟨dens', hdens', hdens⟩,
    h1, hh1, h2, hh2, dr, ⟨dr', hdr', hdr⟩, dv, hdv, ir, ⟨ir', hir', hir⟩, iv, hiv, rr, ⟨rr', hrr', hrr⟩, rv, hrv, dt, hdt, nu, hnu, nm, hnm,
    ns, hns, spec, hspec, bpfb, hbpfb, ffpb, hffpb, ffs, ⟨ffs', hffs', hffs⟩, res, hres, vpp, hvpp, seed, hseed, maxX, hmaxX, maxY, hmaxY,
    minX, hminX, minY, hminY, units, hunits, u, hu, h⟩ := h
  cases h
  cases construct_eq hspec
  simp only [world] at hu
  split at hu
  · rename_i am hb
    obtain ⟨a, m⟩ := am
    refine ⟨_, a, m, rfl, hb, ?_⟩
    unfold synthBuild at hb
    split at hb
    · cases hb
    · rename_i a' ha
      split at hb
      · rename_i m' hm
        cases hb
        refine ⟨hm, ?_⟩
        obtain ⟨k1, _, _, _, _, _, k7, _, _⟩ := Synthetic.make_ok hm
        unfold synthArgs at ha
        obtain ⟨sp, hsp, ha⟩ := Option.bind_eq_some_iff.mp ha
        obtain ⟨nd, hnd, ha⟩ := Option.bind_eq_some_iff.mp ha
        obtain ⟨zb, hzb, ha⟩ := Option.bind_eq_some_iff.mp ha
        obtain ⟨zf, hzf, ha⟩ := Option.bind_eq_some_iff.mp ha
        obtain ⟨zs, hzs, ha⟩ := Option.bind_eq_some_iff.mp ha
        obtain ⟨size, hsize, ha⟩ := Option.bind_eq_some_iff.mp ha
        obtain ⟨three, hthree, ha⟩ := Option.bind_eq_some_iff.mp ha
        obtain ⟨qres, hqres, ha⟩ := Option.bind_eq_some_iff.mp ha
        obtain ⟨qvpp, hqvpp, ha⟩ := Option.bind_eq_some_iff.mp ha
        obtain ⟨qa, hqa, ha⟩ := Option.bind_eq_some_iff.mp ha
        obtain ⟨qb, hqb, ha⟩ := Option.bind_eq_some_iff.mp ha
        obtain ⟨qc, hqc, ha⟩ := Option.bind_eq_some_iff.mp ha
        obtain ⟨qd, hqd, ha⟩ := Option.bind_eq_some_iff.mp ha
        obtain ⟨mk, hmk, ha⟩ := Option.bind_eq_some_iff.mp ha
        obtain ⟨hi, hhi, ha⟩ := Option.bind_eq_some_iff.mp ha
        cases ha
        unfold specOf at hsp
        obtain ⟨b, e1, hsp⟩ := Option.bind_eq_some_iff.mp hsp
        obtain ⟨sh, e2, hsp⟩ := Option.bind_eq_some_iff.mp hsp
        obtain ⟨of, e3, hsp⟩ := Option.bind_eq_some_iff.mp hsp
        obtain ⟨de, e4, hsp⟩ := Option.bind_eq_some_iff.mp hsp
        obtain ⟨p1, e5, hsp⟩ := Option.bind_eq_some_iff.mp hsp
        obtain ⟨p2, e6, hsp⟩ := Option.bind_eq_some_iff.mp hsp
        obtain ⟨dr2, e7, hsp⟩ := Option.bind_eq_some_iff.mp hsp
        obtain ⟨dv2, e8, hsp⟩ := Option.bind_eq_some_iff.mp hsp
        obtain ⟨ir2, e9, hsp⟩ := Option.bind_eq_some_iff.mp hsp
        obtain ⟨iv2, e10, hsp⟩ := Option.bind_eq_some_iff.mp hsp
        obtain ⟨rr2, e11, hsp⟩ := Option.bind_eq_some_iff.mp hsp
        obtain ⟨rv2, e12, hsp⟩ := Option.bind_eq_some_iff.mp hsp
        obtain ⟨dt2, e13, hsp⟩ := Option.bind_eq_some_iff.mp hsp
        obtain ⟨nu2, e14, hsp⟩ := Option.bind_eq_some_iff.mp hsp
        obtain ⟨nm2, e15, hsp⟩ := Option.bind_eq_some_iff.mp hsp
        obtain ⟨ns2, e16, hsp⟩ := Option.bind_eq_some_iff.mp hsp
        cases hsp
        dsimp only at *
        have hne : dr2 ≠ [] ∧ ir2 ≠ [] ∧ rr2 ≠ [] := by
          simp only [Synthetic.specOK, Bool.and_eq_true, decide_eq_true_eq, List.all_eq_true] at k1
          obtain ⟨⟨⟨⟨⟨⟨⟨⟨⟨_, h3⟩, _⟩, h5⟩, _⟩, h7⟩, _⟩, _⟩, _⟩, _⟩ := k1
          exact ⟨List.length_pos_iff.1 h3, List.length_pos_iff.1 h5, List.length_pos_iff.1 h7⟩
        obtain ⟨x, y, s1, s2, s3⟩ := two_tuple nat_str hshape e2
        refine ⟨?_, hthree, rfl⟩
        exact {
          batchSize := ⟨_, item_ok hbs, nat_some e1⟩
          imageShape := ⟨_, item_ok hshape', x, y, s1, nat_some s2, nat_some s3⟩
          imgOffset := ⟨_, item_ok hoff', pair_some hoff e3⟩
          density := ⟨_, item_ok hdens', pair_some hdens e4⟩
          pHide1 := ⟨_, item_ok hh1, rat_some e5⟩
          pHide2 := ⟨_, item_ok hh2, rat_some e6⟩
          diameterRanges := ⟨_, item_ok hdr', pairs_some hdr e7 hne.1⟩
          diameterVar := ⟨_, item_ok hdv, rat_some e8⟩
          intensityRanges := ⟨_, item_ok hir', pairs_some hir e9 hne.2.1⟩
          intensityVar := ⟨_, item_ok hiv, rat_some e10⟩
          rhoRanges := ⟨_, item_ok hrr', pairs_some hrr e11 hne.2.2⟩
          rhoVar := ⟨_, item_ok hrv, rat_some e12⟩
          dt := ⟨_, item_ok hdt, rat_some e13⟩
          noiseUniform := ⟨_, item_ok hnu, rat_some e14⟩
          noiseMean := ⟨_, item_ok hnm, rat_some e15⟩
          noiseStd := ⟨_, item_ok hns, rat_some e16⟩
          bpfb := ⟨_, item_ok hbpfb, hzb⟩
          ffpb := ⟨_, item_ok hffpb, hzf⟩
          seed := ⟨_, item_ok hseed, hzs⟩
          flowFieldSize := ⟨_, item_ok hffs', size_some hffs hsize⟩
          resolution := ⟨_, item_ok hres, rat_some hqres⟩
          velocitiesPerPixel := ⟨_, item_ok hvpp, rat_some hqvpp⟩
          maxSpeedX := ⟨_, item_ok hmaxX, rat_some hqa⟩
          maxSpeedY := ⟨_, item_ok hmaxY, rat_some hqb⟩
          minSpeedX := ⟨_, item_ok hminX, rat_some hqc⟩
          minSpeedY := ⟨_, item_ok hminY, rat_some hqd⟩
          units := by
            rcases units_some k7 with ⟨u1, u2⟩ | ⟨u1, u2⟩
            · exact .inl ⟨by rw [k7, u1], by rw [item_ok hunits, u2]⟩
            · exact .inr ⟨by rw [k7, u1], by rw [item_ok hunits, u2]⟩
          devices := ⟨_, Make.getD_valueOr d _ _, devices_some (by
            cases hq : deviceCount E.devices (Make.getD d "device_ids" .none) with
            | error e => rw [hq] at hnd; cases hnd
            | ok n => rw [hq] at hnd; cases hnd; rfl)⟩
          mask := ⟨_, Make.getD_valueOr d _ _, mask_some hmask hmk⟩
          histogram := ⟨_, Make.getD_valueOr d _ _, histogram_some hhist hhi⟩ }
      · cases hb
  · cases hu

/-- `baseVal` of a list of strings. -/
theorem baseVal_list {v : Val} {l : List String} (h : baseVal v = .list (l.map some)) : v = .list (l.map .str) := by
  unfold baseVal at h
  split at h
  · cases h
  · cases h
  · rename_i vs
    simp only [BaseInit.Val.list.injEq] at h
    congr 1
    induction vs generalizing l with
    | nil => cases l with | nil => rfl | cons _ _ => cases h
    | cons v vs ih =>
      cases l with
      | nil => cases h
      | cons s l =>
        simp only [List.map_cons, List.cons.injEq] at h
        rw [List.map_cons, ih h.2]
        congr 1
        have h1 := h.1
        split at h1
        · cases h1; rfl
        · cases h1
  · cases h

theorem baseVal_bool {v : Val} {b : Bool} (h : baseVal v = .bool b) : v = .bool b := by
  unfold baseVal at h
  split at h <;> cases h
  rfl

end Verif.Whole
