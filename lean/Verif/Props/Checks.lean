import Verif.Model.Checks
import Verif.Props.Synthetic
import Verif.Props.Geometry
/-!
# Properties of the debug mode (C94, C95)
-/

namespace Verif.Checks
open Verif

/-- A chain of checks passes iff all do. -/
theorem genImg_iff (shape : List Nat) (n : Nat × Nat) (o b : Int × Int) (rx ry : ℚ) (mask : Option (Nat × Nat)) (h : Option (List ℚ)) :
    genImg shape n o b rx ry mask h = .ok () ↔
      (shape.length = 4 ∧ shape.getD 3 0 = 2) ∧ (0 < b.1 ∧ 0 < b.2) ∧ 0 < rx ∧ 0 < ry ∧ n.1 + o.1 ≤ b.1 ∧ n.2 + o.2 ≤ b.2 ∧
      (∀ s, mask = some s → s = n) ∧ (∀ q, h = some q → q.length = 256) ∧
      (∀ q, h = some q → Synthetic.isClose q.sum (n.1 * n.2 : Nat) = true) := by
  unfold genImg
  constructor
  · intro hk
    split_ifs at hk with h1 h2 h3 h4 h5 h6 h7 h8 h9
    push Not at h1 h5 h6
    refine ⟨h1, h2, h3, h4, h5, h6, ?_, ?_, ?_⟩
    · intro s hs
      subst hs
      simpa using h7
    · intro q hq
      subst hq
      simpa using h8
    · intro q hq
      subst hq
      simpa using h9
  · rintro ⟨h1, h2, h3, h4, h5, h6, h7, h8, h9⟩
    rw [if_neg (by push Not; exact h1), if_neg (not_not.2 h2), if_neg (not_not.2 h3), if_neg (not_not.2 h4), if_neg (not_lt.2 h5),
      if_neg (not_lt.2 h6)]
    have h7' : ¬ (mask.isSome && decide (mask ≠ some n)) = true := by
      cases mask with
      | none => simp
      | some s => simp [h7 s rfl]
    rw [if_neg h7']
    cases h with
    | none => rfl
    | some q => rw [if_neg (by simp [h8 q rfl]), if_neg (by rw [Option.any_some, h9 q rfl]; decide)]

theorem ite_error {c : Prop} [Decidable c] {x : Except Exc Unit} (h : x = .ok () ∨ x = .error .valueError) :
    (if c then .error .valueError else x) = .ok () ∨ (if c then .error .valueError else x) = .error .valueError := by
  by_cases hc : c
  · rw [if_pos hc]; exact .inr rfl
  · rw [if_neg hc]; exact h

theorem genImg_error (shape : List Nat) (n : Nat × Nat) (o b : Int × Int) (rx ry : ℚ) (mask : Option (Nat × Nat)) (h : Option (List ℚ)) :
    genImg shape n o b rx ry mask h = .ok () ∨ genImg shape n o b rx ry mask h = .error .valueError := by
  unfold genImg
  iterate 9 refine ite_error ?_
  exact .inl rfl

theorem adapter_error (shape : List Nat) (n i : Nat × Nat) (o : Int × Int) (r rx ry : ℚ) (b : Int × Int) (bo : ℚ × ℚ) (B : Nat) (dt : ℚ) (p : Int × Int) :
    adapter shape n i o r rx ry b bo B dt p = .ok () ∨ adapter shape n i o r rx ry b bo B dt p = .error .valueError := by
  unfold adapter
  iterate 13 refine ite_error ?_
  exact .inl rfl

/-- What the constructor has already ensured when it comes to the checks, in any arithmetic that does not turn positive numbers
into others. -/
theorem made_sound {fl fl32 : ℚ → ℚ} (hfl : ∀ q, 0 < q → 0 < fl q) (hnn : ∀ q, 0 ≤ q → 0 ≤ fl q) (h32 : ∀ q, 0 ≤ q → 0 ≤ fl32 q)
    {a : Synthetic.Args} {m : Synthetic.Made} (h : Synthetic.make fl fl32 a = .ok m) :
    (0 < a.spec.imageShape.1 ∧ 0 < a.spec.imageShape.2) ∧ 0 < a.resolution ∧ (0 < m.geo.res.1 ∧ 0 < m.geo.res.2) ∧
    (0 ≤ m.geo.boundsOffset.1 ∧ 0 ≤ m.geo.boundsOffset.2) ∧ m.cfg.batchSize / m.cfg.ndevices ≠ 0 ∧ 0 < a.spec.dt ∧
    (0 ≤ m.geo.padding.1 ∧ 0 ≤ m.geo.padding.2) ∧ (∀ s, a.mask.map Prod.fst = some s → s = a.spec.imageShape) ∧
    (∀ q, a.histogram = some q → q.length = 256) ∧
    (∀ q, a.histogram = some q → Synthetic.isClose q.sum (a.spec.imageShape.1 * a.spec.imageShape.2 : Nat) = true) := by
  obtain ⟨hs, hm, hh, hc, _, _, _, hg, _⟩ := Synthetic.make_ok h
  have hdt := (Synthetic.specOK_iff hs).1
  have hsh : 0 < a.spec.imageShape.1 ∧ 0 < a.spec.imageShape.2 := by
    simp only [Synthetic.specOK, Bool.and_eq_true, decide_eq_true_eq, List.all_eq_true] at hs
    obtain ⟨⟨⟨⟨⟨⟨⟨⟨⟨⟨⟨⟨⟨⟨⟨_, h1⟩, _⟩, _⟩, _⟩, _⟩, _⟩, _⟩, _⟩, _⟩, _⟩, _⟩, _⟩, _⟩, _⟩, _⟩ := hs
    exact h1
  have hB : m.cfg.batchSize / m.cfg.ndevices ≠ 0 := by
    have hk := Sampler.Cfg.ok_of_make hc
    have h1 := hk.dvd
    have h2 : 0 < m.cfg.batchSize := by
      obtain ⟨q1, q2, _, _, _, _, q7⟩ := Sampler.Cfg.make_ok hc
      rw [q7]
      exact Sampler.roundUp_pos (by omega) q2
    intro h0
    have := Nat.div_add_mod m.cfg.batchSize m.cfg.ndevices
    rw [h0, h1] at this
    omega
  unfold Geometry.build at hg
  split_ifs at hg with g1 g2 g3 g4 g5
  simp only [] at hg
  split_ifs at hg with g6 g7
  simp only [Except.ok.injEq] at hg
  rw [not_le] at g3
  have hres : ∀ (n : Nat) (x : ℚ), 0 < n → 0 < x → 0 < fl (n / x) := fun n x hn hx => hfl _ (div_pos (by exact_mod_cast hn) hx)
  have hr1 : 0 < m.geo.res.1 := by rw [← hg]; exact hres _ _ g2.1 g1.1
  have hr2 : 0 < m.geo.res.2 := by rw [← hg]; exact hres _ _ g2.2 g1.2
  have pad : ∀ x r : ℚ, 0 < r → 0 ≤ ⌈fl32 (fl (max 0 (-x) * r))⌉ := fun x r hr =>
    Int.ceil_nonneg (h32 _ (hnn _ (mul_nonneg (le_max_left _ _) hr.le)))
  refine ⟨hsh, g3, ⟨hr1, hr2⟩, ?_, hB, hdt, ?_, ?_, ?_, ?_⟩
  · rw [← hg]; exact ⟨le_max_left _ _, le_max_left _ _⟩
  · constructor
    · have := hr1
      rw [← hg] at this ⊢
      exact pad _ _ this
    · have := hr2
      rw [← hg] at this ⊢
      exact pad _ _ this
  · intro s hsm
    unfold Synthetic.maskOK at hm
    cases ha : a.mask with
    | none => rw [ha] at hsm; simp at hsm
    | some q =>
      rw [ha] at hm hsm
      simp only [Option.map_some, Option.some.injEq] at hsm
      rw [← hsm]
      exact of_decide_eq_true hm
  · intro q hq
    unfold Synthetic.histogramOK at hh
    rw [hq] at hh
    simp only [Bool.and_eq_true, decide_eq_true_eq] at hh
    exact hh.1
  · intro q hq
    unfold Synthetic.histogramOK at hh
    rw [hq] at hh
    simp only [Bool.and_eq_true, decide_eq_true_eq] at hh
    exact hh.2

theorem last_of_four {shape : List Nat} (h : shape.length = 4) : (shape.getLast? = some 2 ↔ shape.getD 3 0 = 2) := by
  match shape, h with
  | [a, b, c, d], _ => simp

/-- The checks at construction, given what is known. -/
theorem atConstruction_iff {fl fl32 : ℚ → ℚ} (hfl : ∀ q, 0 < q → 0 < fl q) (hnn : ∀ q, 0 ≤ q → 0 ≤ fl q) (h32 : ∀ q, 0 ≤ q → 0 ≤ fl32 q)
    {a : Synthetic.Args} {m : Synthetic.Made} (h : Synthetic.make fl fl32 a = .ok m) (ho : 0 ≤ m.geo.imgOffset.1 ∧ 0 ≤ m.geo.imgOffset.2)
    (shape : List Nat) :
    atConstruction a m shape = .ok () ↔ (shape.length = 4 ∧ shape.getD 3 0 = 2) ∧ (0 < m.outShape.1 ∧ 0 < m.outShape.2) ∧
      m.geo.imgOffset.1 + a.spec.imageShape.1 ≤ m.geo.bounds.1 ∧ m.geo.imgOffset.2 + a.spec.imageShape.2 ≤ m.geo.bounds.2 := by
  obtain ⟨h1, h2, h3, h4, h5, h6, h7, h8, h9, h10⟩ := made_sound hfl hnn h32 h
  unfold atConstruction
  constructor
  · intro hk
    rcases genImg_error shape a.spec.imageShape m.geo.imgOffset m.geo.bounds m.geo.res.2 m.geo.res.1 (a.mask.map Prod.fst) a.histogram with hg | hg
    · rw [hg] at hk
      obtain ⟨k1, _, _, _, k5, k6, _⟩ := (genImg_iff _ _ _ _ _ _ _ _).1 hg
      refine ⟨k1, ?_, by omega, by omega⟩
      by_contra hne
      simp only [adapter] at hk
      rw [if_neg (by simp [k1.1]), if_neg (by rw [not_not]; exact (last_of_four k1.1).2 k1.2), if_pos hne] at hk
      exact absurd hk (by simp)
    · rw [hg] at hk
      exact absurd hk (by simp)
  · rintro ⟨k1, k2, k3, k4⟩
    have hb : 0 < m.geo.bounds.1 ∧ 0 < m.geo.bounds.2 := by omega
    rw [(genImg_iff _ _ _ _ _ _ _ _).2 ⟨k1, hb, h3.2, h3.1, by omega, by omega, h8, h9, h10⟩]
    simp only [adapter]
    rw [if_neg (by simp [k1.1]), if_neg (by rw [not_not]; exact (last_of_four k1.1).2 k1.2), if_neg (not_not.2 k2), if_neg (not_not.2 h1),
      if_neg (not_not.2 ho), if_neg (not_le.2 h2), if_neg (not_le.2 h3.2), if_neg (not_le.2 h3.1), if_neg (not_not.2 hb), if_neg (not_not.2 h4),
      if_neg h5, if_neg (not_le.2 h6), if_neg (not_not.2 h7)]

theorem atConstruction_error (a : Synthetic.Args) (m : Synthetic.Made) (shape : List Nat) :
    atConstruction a m shape = .ok () ∨ atConstruction a m shape = .error .valueError := by
  unfold atConstruction
  rcases genImg_error shape a.spec.imageShape m.geo.imgOffset m.geo.bounds m.geo.res.2 m.geo.res.1 (a.mask.map Prod.fst) a.histogram with hg | hg
  · rw [hg]; exact adapter_error _ _ _ _ _ _ _ _ _ _ _ _
  · rw [hg]; exact .inr rfl

/-- **C94** (partial). In exact arithmetic, for a sampler that is accepted outside the debug mode: the debug checks of the
constructor pass iff the flow fields are a four-dimensional array with two channels and the reported flow fields have at least one
row and column, and else raise `ValueError`; the debug checks of image generation, which see flow fields of two channels, pass
iff the window ends within 512 pixels on both axes. Missing: flow fields of three channels, few velocities per pixel and large
images are accepted outside the debug mode. -/
theorem C94_checks_partial (fl32 : ℚ → ℚ) (h32 : ∀ q, 0 ≤ q → 0 ≤ fl32 q) (a : Synthetic.Args) (m : Synthetic.Made)
    (h : Synthetic.make id fl32 a = .ok m) (shape : List Nat) :
    (atConstruction a m shape = .ok () ↔ (shape.length = 4 ∧ shape.getD 3 0 = 2) ∧
      1 ≤ a.spec.imageShape.1 * a.velocitiesPerPixel ∧ 1 ≤ a.spec.imageShape.2 * a.velocitiesPerPixel) ∧
    (atConstruction a m shape ≠ .ok () → atConstruction a m shape = .error .valueError) ∧
    (shape.length = 4 → shape.getD 3 0 = 2 → (atGeneration a m shape = .ok () ↔
      a.spec.imageShape.1 + m.geo.imgOffset.1 ≤ 512 ∧ a.spec.imageShape.2 + m.geo.imgOffset.2 ≤ 512)) := by
  have hs := made_sound (fl := id) (fun _ h => h) (fun _ h => h) h32 h
  obtain ⟨_, _, _, _, _, hv, _, hg, hout⟩ := Synthetic.make_ok h
  have hw := Geometry.C48_window_inside_partial fl32 a.geometry m.geo hs.2.2.2.2.2.1 hg
  have hol : ∀ n : Nat, (0 < Synthetic.outLen id n a.velocitiesPerPixel ↔ 1 ≤ (n : ℚ) * a.velocitiesPerPixel) := by
    intro n
    have h0 : (0 : ℚ) ≤ n * a.velocitiesPerPixel := mul_nonneg (Nat.cast_nonneg n) hv.le
    unfold Synthetic.outLen
    rw [show (id ((n : ℚ) * a.velocitiesPerPixel)) = n * a.velocitiesPerPixel from rfl, Geometry.trunc_nonneg h0]
    rw [show (0 < ⌊(n : ℚ) * a.velocitiesPerPixel⌋.toNat ↔ 1 ≤ ⌊(n : ℚ) * a.velocitiesPerPixel⌋) by omega]
    rw [Int.le_floor]
    norm_num
  refine ⟨?_, ?_, ?_⟩
  · rw [atConstruction_iff (fun _ h => h) (fun _ h => h) h32 h ⟨hw.1.1, hw.2.1⟩, hout]
    constructor
    · rintro ⟨k1, k2, _⟩
      exact ⟨k1, (hol _).1 k2.1, (hol _).1 k2.2⟩
    · rintro ⟨k1, k2, k3⟩
      exact ⟨k1, ⟨(hol _).2 k2, (hol _).2 k3⟩, hw.1.2, hw.2.2⟩
  · intro hne
    rcases atConstruction_error a m shape with hk | hk
    · exact absurd hk hne
    · exact hk
  · intro k1 k2
    unfold atGeneration
    rw [genImg_iff]
    obtain ⟨_, _, _, _, _, _, _, h8, h9, h10⟩ := hs
    constructor
    · rintro ⟨_, _, _, _, k5, k6, _⟩
      exact ⟨k5, k6⟩
    · rintro ⟨k5, k6⟩
      exact ⟨⟨k1, k2⟩, ⟨by norm_num, by norm_num⟩, by norm_num, by norm_num, k5, k6, h8, h9, h10⟩

example : Synthetic.make id id Synthetic.demo = .ok Synthetic.demoMade ∧
    atConstruction Synthetic.demo Synthetic.demoMade [2, 12, 12, 2] = .ok () ∧
    atConstruction Synthetic.demo Synthetic.demoMade [2, 12, 12, 3] = .error .valueError ∧
    atGeneration Synthetic.demo Synthetic.demoMade [2, 12, 12, 2] = .ok () := by decide +kernel

theorem binary64_pos {q : ℚ} (h : 0 < q) : 0 < binary64 q := by
  have h1 := binary64_err q
  rw [abs_of_pos h] at h1
  have h2 := (abs_le.1 h1).1
  have h3 : q / 2 ^ 53 < q := div_lt_self h (by norm_num)
  linarith

/-- C94 with Python's floats (partial), numbers not larger than 2 ^ 38: the debug checks of the constructor fail for no other
reason than the number of channels, empty reported flow fields, or a window that ends one pixel behind the region. -/
theorem C94_float_partial (a : Synthetic.Args) (m : Synthetic.Made) (hm : Geometry.Moderate a.geometry)
    (h : Synthetic.make binary64 binary32 a = .ok m) (shape : List Nat) (hsh : shape.length = 4) (hch : shape.getD 3 0 = 2) :
    (atConstruction a m shape = .ok () ↔ (0 < m.outShape.1 ∧ 0 < m.outShape.2) ∧
      m.geo.imgOffset.1 + a.spec.imageShape.1 ≠ m.geo.bounds.1 + 1 ∧ m.geo.imgOffset.2 + a.spec.imageShape.2 ≠ m.geo.bounds.2 + 1) := by
  have hs := made_sound (fl := binary64) (fun _ h => binary64_pos h) (fun _ h => binary64_nonneg h) (fun _ h => binary32_nonneg h) h
  obtain ⟨_, _, _, _, _, _, _, hg, _⟩ := Synthetic.make_ok h
  have hw := Geometry.C48_window_float_partial binary32 a.geometry m.geo hs.2.2.2.2.2.1 hm hg
  have e : a.geometry.imageShape = a.spec.imageShape := rfl
  rw [e] at hw
  rw [atConstruction_iff (fun _ h => binary64_pos h) (fun _ h => binary64_nonneg h) (fun _ h => binary32_nonneg h) h ⟨hw.1.1, hw.2.1⟩]
  constructor
  · rintro ⟨_, k2, k3, k4⟩
    exact ⟨k2, by omega, by omega⟩
  · rintro ⟨k2, k3, k4⟩
    exact ⟨⟨hsh, hch⟩, k2, by omega, by omega⟩

/-- Arguments for images of 600 x 600 pixels. -/
def large : Synthetic.Args :=
  { Synthetic.demo with spec := { Generate.quietDemo with imageShape := (600, 600) }, flowFieldSize := (700, 700), mask := none }

/-- The sampler with them. -/
def largeMade : Synthetic.Made :=
  { cfg := ⟨2, 2, 2, 2, 7⟩, geo := ⟨(1, 1), (3, 3), (603, 603), (0, 0), (3 / 175, 3 / 175)⟩, outShape := (400, 400), pixels := true }

/-- **C94 is false**: flow fields of three channels, fewer than one velocity per image, and images of 600 x 600 pixels are accepted
outside the debug mode and rejected in it, in exact arithmetic; with floats, so are 64 x 64 pixels at 49 pixels per unit. -/
theorem C94_refuted :
    (∃ m, Synthetic.make id id { Synthetic.demo with channels := 3 } = .ok m ∧
      atConstruction { Synthetic.demo with channels := 3 } m [2, 12, 12, 3] = .error .valueError) ∧
    (∃ m, Synthetic.make id id { Synthetic.demo with velocitiesPerPixel := 1 / 10 } = .ok m ∧
      atConstruction { Synthetic.demo with velocitiesPerPixel := 1 / 10 } m [2, 12, 12, 2] = .error .valueError) ∧
    (∃ m, Synthetic.make id id large = .ok m ∧ atConstruction large m [2, 12, 12, 2] = .ok () ∧
      atGeneration large m [2, 12, 12, 2] = .error .valueError) ∧
    (∃ m, Synthetic.make binary64 binary32 Synthetic.narrow = .ok m ∧
      atConstruction Synthetic.narrow m [1, 100, 100, 2] = .error .valueError) :=
  ⟨⟨Synthetic.demoMade, by decide +kernel, by decide +kernel⟩,
   ⟨{ Synthetic.demoMade with outShape := (0, 0) }, by decide +kernel, by decide +kernel⟩,
   ⟨largeMade, by decide +kernel, by decide +kernel, by decide +kernel⟩,
   ⟨{ cfg := ⟨2, 1, 2, 1, 7⟩, geo := ⟨(1, 1), (0, 0), (63, 63), (0, 0), (10, 10)⟩, outShape := (42, 42), pixels := true },
    by decide +kernel, by decide +kernel⟩⟩

/-! ## C95 -/

variable {S F O I : Type}

/-- A scheduler used directly gives the same batches every time. -/
theorem draws_get {sch : Sampler.ISched S (Sampler.FlowBatch F)} {n : Nat} {s t : S} {bs : List (Sampler.FlowBatch F)} (h : Sampler.Draws sch n s bs t) :
    ∀ {t' : S} {bs' : List (Sampler.FlowBatch F)}, Sampler.Draws sch n s bs' t' → ∀ (i : Nat) (b b' : Sampler.FlowBatch F), bs[i]? = some b → bs'[i]? = some b' → b = b' := by
  induction h with
  | nil s => intro t' bs' _ i b b' hb _; simp at hb
  | cons hg _ ih =>
    intro t' bs' h' i b b' hb hb'
    cases h' with
    | nil => simp at hb'
    | cons hg' h' =>
      rw [hg] at hg'
      simp only [Option.some.injEq, Prod.mk.injEq, Except.ok.injEq] at hg'
      obtain ⟨rfl, rfl⟩ := hg'
      cases i with
      | zero =>
        simp only [List.getElem?_cons_zero, Option.some.injEq] at hb hb'
        rw [← hb, ← hb']
      | succ i => exact ih h' i b b' (by simpa using hb) (by simpa using hb')

/-- What a batch reports about its flow fields. -/
def reported (x : Sampler.OutBatch O I) : List O × Option (List Bool) × Option (List String) := (x.flows, x.mask, x.files)

theorem reported_eq {g : Sampler.Gen F O I} {cfg : Sampler.Cfg} {k k' : KeyTerm} {b : Sampler.FlowBatch F} {x y : Sampler.OutBatch O I}
    (h : Sampler.MadeFrom g cfg k b x) (h' : Sampler.MadeFrom g cfg k' b y) : reported x = reported y := by
  obtain ⟨_, h2, h3, h4, h5⟩ := h
  obtain ⟨_, q2, q3, q4, q5⟩ := h'
  have hf : x.flows = y.flows := by
    refine List.ext_getElem? (fun i => ?_)
    by_cases hi : i < cfg.batchSize
    · obtain ⟨f, e1, e2, _⟩ := h5 i hi
      obtain ⟨f', e1', e2', _⟩ := q5 i hi
      rw [e1] at e1'
      rw [e2, e2', Option.some.inj e1']
    · rw [List.getElem?_eq_none (by omega), List.getElem?_eq_none (by omega)]
  rw [reported, reported, hf, h3, h4, q3, q4]

/-- On one device nothing is spread. -/
theorem one_device (g : Sampler.Gen F O I) {cfg : Sampler.Cfg} (hd : cfg.ndevices = 1) (k : KeyTerm) (flows : List F) :
    images g cfg k flows = Sampler.images g cfg k flows ∧ adaptAll g cfg flows = Sampler.adaptAll g cfg flows := by
  have hsh : ∀ {α : Type} (l : List α), Sampler.shards 1 l = [l] := by
    intro α l
    simp [Sampler.shards]
  constructor
  · unfold images Sampler.images
    rw [hd, hsh]
    simp
  · unfold adaptAll Sampler.adaptAll
    rw [hd, hsh]
    simp

theorem produce_same (g : Sampler.Gen F O I) {cfg : Sampler.Cfg} (hd : cfg.ndevices = 1) (flows : List F) (s : Sampler.St S F O) :
    produce g cfg (.ok ()) flows s = Sampler.produce g cfg flows s := by
  unfold produce Sampler.produce
  simp only [(one_device g hd _ _).1]
  rw [if_neg (by rw [hd]; simp [Nat.mod_one])]

/-- On one device the debug mode does what the other mode does, once its checks have passed. -/
theorem next_same (sch : Sampler.ISched S (Sampler.FlowBatch F)) (g : Sampler.Gen F O I) {cfg : Sampler.Cfg} (hd : cfg.ndevices = 1) (s : Sampler.St S F O) :
    next sch g cfg (.ok ()) s = Sampler.next sch g cfg s := by
  have hf : fetch sch g cfg (.ok ()) s = Sampler.getNext.fetch sch g cfg s := by
    unfold fetch Sampler.getNext.fetch
    simp only [produce_same g hd, (one_device g hd (.seed 0) _).2]
    rfl
  unfold next Sampler.next getNext Sampler.getNext
  simp only [produce_same g hd, hf]
  rfl

theorem nexts_run (sch : Sampler.ISched S (Sampler.FlowBatch F)) (g : Sampler.Gen F O I) {cfg : Sampler.Cfg} (hd : cfg.ndevices = 1) :
    ∀ (N : Nat) (s s' : Sampler.St S F O) (xs : List (Sampler.OutBatch O I)), nexts sch g cfg (.ok ()) N s = some (xs, s') →
      Sampler.run sch g cfg (List.replicate N .next) s = some (xs.map .batch, s') := by
  intro N
  induction N with
  | zero =>
    intro s s' xs h
    simp only [nexts, Option.some.injEq, Prod.mk.injEq] at h
    obtain ⟨rfl, rfl⟩ := h
    rfl
  | succ N ih =>
    intro s s' xs h
    rw [nexts, next_same sch g hd] at h
    rw [List.replicate_succ, Sampler.run, Sampler.step]
    cases hn : Sampler.next sch g cfg s with
    | none => rw [hn] at h; simp at h
    | some q =>
      obtain ⟨r, s1⟩ := q
      cases r with
      | error e => rw [hn] at h; simp at h
      | ok b =>
        rw [hn] at h
        simp only [Option.map_eq_some_iff] at h
        obtain ⟨⟨ys, s2⟩, h1, h2⟩ := h
        simp only [Prod.mk.injEq] at h2
        obtain ⟨rfl, rfl⟩ := h2
        simp only [Option.map_some, Sampler.batchOut]
        rw [ih s1 s2 ys h1]
        rfl

theorem nexts_chk {sch : Sampler.ISched S (Sampler.FlowBatch F)} {g : Sampler.Gen F O I} {cfg : Sampler.Cfg} {e : Exc} {N : Nat} (hN : 0 < N) {s : Sampler.St S F O}
    : nexts sch g cfg (.error e) N s = none := by
  obtain ⟨n, rfl⟩ : ∃ n, N = n + 1 := ⟨N - 1, by omega⟩
  have hp : ∀ (fs : List F) (t : Sampler.St S F O), ∃ t', produce g cfg (.error e) fs t = (.error e, t') := fun fs t => ⟨_, rfl⟩
  have hf : ∀ t : Sampler.St S F O, fetch sch g cfg (.error e) t = none ∨ ∃ e' t', fetch sch g cfg (.error e) t = some (.error e', t') := by
    intro t
    unfold fetch
    cases sch.getBatch cfg.ffpb t.sched with
    | none => exact .inl rfl
    | some q =>
      obtain ⟨r, sc⟩ := q
      cases r with
      | error x => exact .inr ⟨_, _, rfl⟩
      | ok b =>
        right
        simp only []
        split
        · exact ⟨_, _, rfl⟩
        · exact ⟨_, _, rfl⟩
  have hg : getNext sch g cfg (.error e) s = none ∨ ∃ e' t', getNext sch g cfg (.error e) s = some (.error e', t') := by
    unfold getNext
    split
    · split
      · exact .inr ⟨_, _, rfl⟩
      · exact hf s
    · exact hf s
  have hn : next sch g cfg (.error e) s = none ∨ ∃ e' t', next sch g cfg (.error e) s = some (.error e', t') := by
    unfold next
    split
    · exact .inr ⟨_, _, rfl⟩
    · rcases hg with hg | ⟨e', t', hg⟩
      · rw [hg]; exact .inl rfl
      · rw [hg]; exact .inr ⟨_, _, rfl⟩
  unfold nexts
  rcases hn with hn | ⟨e', t', hn⟩ <;> rw [hn]

/-- **C95** (partial). On a single device, a sampler constructed in debug mode has lost the first flow batch: as long as all
calls succeed, its batch number `n` reports the flow fields, mask and files that a sampler constructed outside the debug mode on
the same scheduler reports `batches_per_flow_batch` calls later. Missing from C95: that nothing is lost, and several devices. -/
theorem C95_debug_shifts_partial (sch : Sampler.ISched S (Sampler.FlowBatch F)) (hfull : Sampler.FullBatches sch) (g : Sampler.Gen F O I)
    (shapeOf : Sampler.FlowBatch F → List Nat) (shape : List Nat) (fl fl32 : ℚ → ℚ) (a : Synthetic.Args) (m : Synthetic.Made) (h : Synthetic.make fl fl32 a = .ok m)
    (hd : m.cfg.ndevices = 1) (s0 : S) (d d' t : Sampler.St S F O) (hc : construct sch shapeOf a m s0 = some (.ok (), d)) (N : Nat)
    (xs : List (Sampler.OutBatch O I)) (outs : List (Sampler.Out (Sampler.OutBatch O I)))
    (hr : nexts sch g m.cfg (atGeneration a m shape) N d = some (xs, d'))
    (hr' : Sampler.run sch g m.cfg (List.replicate (N + m.cfg.bpfb) .next) (Sampler.init m.cfg s0) = some (outs, t)) (hall : ∀ o ∈ outs, ∃ x, o = .batch x) :
    ∀ n, n < N → ∃ x y, xs[n]? = some x ∧ outs[n + m.cfg.bpfb]? = some (.batch y) ∧ reported x = reported y := by
  intro n hn
  have hchk : atGeneration a m shape = .ok () := by
    cases hk : atGeneration a m shape with
    | ok u => rfl
    | error e =>
      rw [hk, nexts_chk (by omega)] at hr
      simp at hr
  rw [hchk] at hr
  have hr := nexts_run sch g hd N d d' xs hr
  obtain ⟨_, _, _, hcfg, _⟩ := Synthetic.make_ok h
  have hok := Sampler.Cfg.ok_of_make hcfg
  unfold construct at hc
  cases hg : sch.getBatch m.cfg.ffpb s0 with
  | none => rw [hg] at hc; simp at hc
  | some q =>
    obtain ⟨r, sc⟩ := q
    cases r with
    | error e => rw [hg] at hc; simp at hc
    | ok b0 =>
      rw [hg] at hc
      simp only [Option.some.injEq, Prod.mk.injEq] at hc
      obtain ⟨_, rfl⟩ := hc
      obtain ⟨bs, hD, _, _, _, hm⟩ := Sampler.C34_flow_batch_used_partial sch hfull g _ _ _ _ _ _ m.cfg hcfg sc N _ d' hr
        (fun o ho => by obtain ⟨x, _, rfl⟩ := List.mem_map.1 ho; exact ⟨x, rfl⟩)
      obtain ⟨bs', hD', _, _, _, hm'⟩ := Sampler.C34_flow_batch_used_partial sch hfull g _ _ _ _ _ _ m.cfg hcfg s0 _ outs t hr' hall
      obtain ⟨x, b, h1, h2, h3⟩ := hm n hn
      obtain ⟨y, b', h1', h2', h3'⟩ := hm' (n + m.cfg.bpfb) (by omega)
      have e : b = b' := by
        refine draws_get (Sampler.Draws.cons hg hD) hD' (n / m.cfg.bpfb + 1) b b' (by simpa using h2) ?_
        rwa [← Nat.add_div_right n hok.bpfb]
      subst e
      refine ⟨x, y, ?_, h1', reported_eq h3 h3'⟩
      rw [List.getElem?_map] at h1
      cases hx : xs[n]? with
      | none => rw [hx] at h1; simp at h1
      | some z => rw [hx] at h1; simpa using h1

/-- Arguments for one device. -/
def single : Synthetic.Args := { Synthetic.demo with ndevices := 1 }

/-- The sampler with them: three pairs, two batches per flow batch of two. -/
def singleMade : Synthetic.Made := { Synthetic.demoMade with cfg := ⟨3, 1, 2, 2, 7⟩ }

/-- The flow fields reported by three calls in debug mode, and by four outside it: the batches of `0` and `1` are missing in debug
mode. -/
example : Synthetic.make id id single = .ok singleMade ∧
    ((construct Sampler.demoSched (fun b => [b.flows.length, 12, 12, 2]) single singleMade 0).bind (fun q =>
      nexts Sampler.demoSched Sampler.demoGen singleMade.cfg (atGeneration single singleMade [2, 12, 12, 2]) 3 q.2)).map (fun q => q.1.map (·.flows)) =
      some [[10, 11, 10], [10, 11, 10], [20, 21, 20]] ∧
    (Sampler.run Sampler.demoSched Sampler.demoGen singleMade.cfg (List.replicate 4 .next) (Sampler.init singleMade.cfg 0)).map
        (fun q => q.1.map (fun o => match o with | .batch x => x.flows | _ => [])) =
      some [[0, 1, 0], [0, 1, 0], [10, 11, 10], [10, 11, 10]] := by decide +kernel

/-- **C95 is false**: with episodes of one step, the sampler constructed in debug mode finds the first episode over at its first
call; and on two devices it delivers two pairs of images instead of four. -/
theorem C95_refuted :
    (∃ d : Sampler.St (Nat × Nat) Nat Nat, construct Sampler.demoEpisodes (fun b => [b.flows.length, 12, 12, 2]) single singleMade (0, 0) = some (.ok (), d) ∧
      next Sampler.demoEpisodes Sampler.demoGen singleMade.cfg (.ok ()) d = some (.error .episodeEnd, d)) ∧
    (∃ d : Sampler.St Nat Nat Nat, construct Sampler.demoSched (fun b => [b.flows.length, 12, 12, 2]) Synthetic.demo Synthetic.demoMade 0 = some (.ok (), d) ∧
      (nexts Sampler.demoSched Sampler.demoGen Synthetic.demoMade.cfg (.ok ()) 1 d).map (fun q => q.1.map (fun x => x.images.length)) = some [2] ∧
      (Sampler.run Sampler.demoSched Sampler.demoGen Synthetic.demoMade.cfg [.next] (Sampler.init Synthetic.demoMade.cfg 0)).map
        (fun q => q.1.map (fun o => match o with | .batch x => x.images.length | _ => 0)) = some [4]) :=
  ⟨⟨Sampler.init singleMade.cfg (0, 1), by decide +kernel, by decide +kernel⟩,
   ⟨Sampler.init Synthetic.demoMade.cfg 1, by decide +kernel, by decide +kernel, by decide +kernel⟩⟩

end Verif.Checks
