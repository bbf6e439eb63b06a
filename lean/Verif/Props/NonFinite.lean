import Verif.Spec.NonFinite
/-!
# C167: infinite and NaN parameters
-/

namespace Verif.NonFinite
open Verif Sanity

theorem fin_sub {fl : ℚ → ℚ} {x y : Num} (h : Finite (sub fl x y)) : Finite x ∧ Finite y := by
  obtain ⟨q, h⟩ := h
  cases x <;> cases y <;> simp_all [sub, add, neg, Finite]

theorem fin_add {fl : ℚ → ℚ} {x y : Num} (h : Finite (add fl x y)) : Finite x ∧ Finite y := by
  obtain ⟨q, h⟩ := h
  cases x <;> cases y <;> simp_all [add, Finite]

theorem infinity_not_fin (s : Int) (q : ℚ) : infinity s ≠ .fin q := by
  unfold infinity
  split
  · simp
  · split <;> simp

theorem fin_mul {fl : ℚ → ℚ} {x y : Num} (h : Finite (mul fl x y)) : Finite x ∧ Finite y := by
  obtain ⟨q, h⟩ := h
  cases x <;> cases y <;> simp_all [mul, Finite, infinity_not_fin]

theorem fin_div {fl : ℚ → ℚ} {x y : Num} (h : Finite (div fl x y)) : Finite x := by
  obtain ⟨q, h⟩ := h
  cases x <;> cases y <;> simp_all [div, Finite, infinity_not_fin]

theorem toInt_ok {x : Num} {n : Int} (h : toInt x = .ok n) : Finite x := by
  cases x <;> simp_all [toInt, Finite]

theorem bindOk {α β : Type} {x : Except Exc α} {f : α → Except Exc β} {b : β} (h : (x >>= f) = .ok b) : ∃ a, x = .ok a ∧ f a = .ok b := by
  cases x with
  | error e => cases h
  | ok a => exact ⟨a, rfl, h⟩

theorem okBind {α β : Type} (a : α) (f : α → Except Exc β) : (Except.ok a >>= f) = f a := rfl

theorem guardOk {β : Type} {c : Prop} [Decidable c] {e : Exc} {k : Except Exc β} {b : β}
    (h : (if c then .error e else k) = .ok b) : ¬ c ∧ k = .ok b := by
  split at h
  · cases h
  · rename_i hc; exact ⟨hc, h⟩

theorem store_ok {fl fl32 : ℚ → ℚ} {a : Args} {o : Int × Int} {offY offX bY bX : Num} {g : Geo} (h : store fl fl32 a o offY offX bY bX = .ok g) :
    Finite a.imgOffset.1 ∧ Finite a.imgOffset.2 ∧ Finite offY ∧ Finite offX ∧ Finite bY ∧ Finite bX ∧ Finite a.resolution := by
  unfold store at h
  dsimp only at h
  obtain ⟨_, _, h⟩ := bindOk h
  obtain ⟨_, _, h⟩ := bindOk h
  obtain ⟨_, h1, h⟩ := bindOk h
  obtain ⟨_, h2, h⟩ := bindOk h
  obtain ⟨_, h3, h⟩ := bindOk h
  obtain ⟨_, h4, h⟩ := bindOk h
  have e1 := fin_mul (toInt_ok h1)
  have e2 := fin_mul (toInt_ok h2)
  have e3 := fin_mul (toInt_ok h3)
  have e4 := fin_mul (toInt_ok h4)
  exact ⟨(fin_sub e1.1).1, (fin_sub e2.1).1, (fin_sub e1.1).2, (fin_sub e2.1).2, e3.1, e4.1, e1.2⟩

theorem extend_ok {fl fl32 : ℚ → ℚ} {a : Args} {o : Int × Int} {maxX maxY offY offX bY bX : Num} {g : Geo}
    (h : extend fl fl32 a o maxX maxY offY offX bY bX = .ok g) :
    Finite a.imgOffset.1 ∧ Finite a.imgOffset.2 ∧ Finite offY ∧ Finite offX ∧ Finite bY ∧ Finite bX ∧ Finite a.resolution ∧ Finite a.maxDiameter := by
  unfold extend at h
  obtain ⟨r, h1, h⟩ := bindOk h
  have hd := (fin_mul (fin_div (toInt_ok h1))).2
  dsimp only at h
  split at h
  · obtain ⟨a1, a2, a3, a4, a5, a6, a7⟩ := store_ok h
    exact ⟨a1, a2, (fin_sub a3).1, (fin_sub a4).1, (fin_add a5).1, (fin_add a6).1, a7, hd⟩
  · obtain ⟨a1, a2, a3, a4, a5, a6, a7⟩ := store_ok h
    exact ⟨a1, a2, a3, a4, a5, a6, a7, hd⟩

theorem build_parts {fl fl32 : ℚ → ℚ} {a : Args} {g : Geo} (h : build fl fl32 a = .ok g) :
    ((Num.fin 0).lt a.flowFieldSize.1 = true ∧ (Num.fin 0).lt a.flowFieldSize.2 = true) ∧ a.maxSpeedX.lt a.minSpeedX = false ∧
    a.maxSpeedY.lt a.minSpeedY = false ∧ Finite a.velocitiesPerPixel ∧
    ∃ o, extend fl fl32 a o (pyMax (.fin 0) a.maxSpeedX) (pyMax (.fin 0) a.maxSpeedY) (offset0 fl a.imgOffset.1 (pyMax (.fin 0) a.maxSpeedY) a.dt)
      (offset0 fl a.imgOffset.2 (pyMax (.fin 0) a.maxSpeedX) a.dt)
      (bounds0 fl a.imageShape.1 a.resolution (pyMax (.fin 0) a.maxSpeedY) (pyMin (.fin 0) a.minSpeedY) a.dt)
      (bounds0 fl a.imageShape.2 a.resolution (pyMax (.fin 0) a.maxSpeedX) (pyMin (.fin 0) a.minSpeedX) a.dt) = .ok g := by
  unfold build at h
  dsimp only at h
  obtain ⟨c1, h⟩ := guardOk h
  obtain ⟨_, h⟩ := guardOk h
  obtain ⟨_, h⟩ := guardOk h
  obtain ⟨_, h⟩ := guardOk h
  obtain ⟨oY, hy, h⟩ := bindOk h
  obtain ⟨oX, _, h⟩ := bindOk h
  obtain ⟨c2, h⟩ := guardOk h
  obtain ⟨c3, h⟩ := guardOk h
  obtain ⟨_, h⟩ := guardOk h
  obtain ⟨_, h⟩ := guardOk h
  exact ⟨by simpa using c1, by simpa using c2, by simpa using c3, (fin_mul (toInt_ok hy)).2, _, h⟩

/-- **C167** (partial): a configuration that is accepted, with any rounding, has a finite time step, offset, resolution, diameter and number of velocities per pixel; the speeds of an
axis are finite unless one of them is NaN; and the size of the flow field is finite or `inf`. Missing from C167: NaN speeds and infinite sizes are accepted
(`C167_refuted_nan`, `C167_refuted_size`). -/
theorem C167_rejected_partial (fl fl32 : ℚ → ℚ) (a : Args) (g : Geo) (h : build fl fl32 a = .ok g) :
    Finite a.dt ∧ (Finite a.imgOffset.1 ∧ Finite a.imgOffset.2) ∧ Finite a.resolution ∧ Finite a.maxDiameter ∧ Finite a.velocitiesPerPixel ∧
    (a.maxSpeedX ≠ .nan → a.minSpeedX ≠ .nan → Finite a.maxSpeedX ∧ Finite a.minSpeedX) ∧
    (a.maxSpeedY ≠ .nan → a.minSpeedY ≠ .nan → Finite a.maxSpeedY ∧ Finite a.minSpeedY) ∧
    (Finite a.flowFieldSize.1 ∨ a.flowFieldSize.1 = .inf) ∧ (Finite a.flowFieldSize.2 ∨ a.flowFieldSize.2 = .inf) := by
  obtain ⟨⟨s1, s2⟩, lx, ly, hv, o, h⟩ := build_parts h
  obtain ⟨i1, i2, o1, o2, b1, b2, hr, hd⟩ := extend_ok h
  have m1 := fin_mul (fin_sub o1).2
  have m2 := fin_mul (fin_sub o2).2
  have n1 := (fin_mul (fin_sub b1).2).1
  have n2 := (fin_mul (fin_sub b2).2).1
  have axis : ∀ mx mn : Num, Finite (pyMax (.fin 0) mx) → Finite (pyMin (.fin 0) mn) → mx.lt mn = false → mx ≠ .nan → mn ≠ .nan → Finite mx ∧ Finite mn := by
    intro mx mn h1 h2 h3 h4 h5
    cases mx <;> cases mn <;> simp_all [pyMax, pyMin, Num.lt, Finite]
  have size : ∀ s : Num, (Num.fin 0).lt s = true → Finite s ∨ s = .inf := by
    intro s hs
    cases s <;> simp_all [Num.lt, Finite]
  exact ⟨m1.2, ⟨i1, i2⟩, hr, hd, hv, axis _ _ m2.1 n2 lx, axis _ _ m1.1 n1 ly, size _ s1, size _ s2⟩

theorem bindErr {α β : Type} {x : Except Exc α} {f : α → Except Exc β} {e : Exc} (h : (x >>= f) = .error e) :
    x = .error e ∨ ∃ a, x = .ok a ∧ f a = .error e := by
  cases x with
  | error e' => exact .inl (by cases h; rfl)
  | ok a => exact .inr ⟨a, rfl, h⟩

theorem guardErr {β : Type} {c : Prop} [Decidable c] {e e' : Exc} {k : Except Exc β}
    (h : (if c then .error e else k) = .error e') : e' = e ∨ k = .error e' := by
  split at h
  · exact .inl (by cases h; rfl)
  · exact .inr h

theorem toInt_err {x : Num} {e : Exc} (h : toInt x = .error e) : e = .valueError ∨ e = overflow := by
  cases x <;> simp [toInt] at h <;> simp [h]

theorem ceilInt_err {fl : ℚ → ℚ} {x : Num} {e : Exc} (h : ceilInt fl x = .error e) : e = .valueError ∨ e = overflow := by
  cases x <;> simp [ceilInt] at h <;> simp [h]

theorem store_err {fl fl32 : ℚ → ℚ} {a : Args} {o : Int × Int} {offY offX bY bX : Num} {e : Exc} (h : store fl fl32 a o offY offX bY bX = .error e) :
    e = .valueError ∨ e = overflow := by
  unfold store at h
  dsimp only at h
  rcases bindErr h with h | ⟨_, _, h⟩
  · exact ceilInt_err h
  rcases bindErr h with h | ⟨_, _, h⟩
  · exact ceilInt_err h
  iterate 4
    rcases bindErr h with h | ⟨_, _, h⟩
    · exact toInt_err h
  cases h

/-- **C167**: what is rejected is rejected with `ValueError` or `OverflowError`. -/
theorem C167_exceptions (fl fl32 : ℚ → ℚ) (a : Args) (e : Exc) (h : build fl fl32 a = .error e) : e = .valueError ∨ e = overflow := by
  unfold build at h
  dsimp only at h
  iterate 4
    rcases guardErr h with h | h
    · exact .inl h
  iterate 2
    rcases bindErr h with h | ⟨_, _, h⟩
    · exact toInt_err h
  iterate 4
    rcases guardErr h with h | h
    · exact .inl h
  unfold extend at h
  rcases bindErr h with h | ⟨_, _, h⟩
  · exact toInt_err h
  dsimp only at h
  split at h
  · exact store_err h
  · exact store_err h

/-- The stored values of a finite geometry. -/
def lift (o : Int × Int) (g : Geometry.Geo) : Geo :=
  { outShape := o, boundsOffset := (.fin g.boundsOffset.1, .fin g.boundsOffset.2), imgOffset := g.imgOffset, bounds := g.bounds
    padding := g.padding, res := (.fin g.res.1, .fin g.res.2) }

theorem pyMax_fin (q : ℚ) : pyMax (.fin 0) (.fin q) = .fin (max 0 q) := by
  unfold pyMax
  simp only [Num.lt, decide_eq_true_eq]
  split
  · rename_i h; rw [max_eq_right h.le]
  · rename_i h; rw [max_eq_left (not_lt.1 h)]

theorem pyMin_fin (q : ℚ) : pyMin (.fin 0) (.fin q) = .fin (min 0 q) := by
  unfold pyMin
  simp only [Num.lt, decide_eq_true_eq]
  split
  · rename_i h; rw [min_eq_right h.le]
  · rename_i h; rw [min_eq_left (not_lt.1 h)]

/-- **C167**: for finite parameters this is the constructor of `Model/Geometry.lean`, so C48-C50 apply. -/
theorem C167_finite (fl fl32 : ℚ → ℚ) (g : Geometry.Args) (v : ℚ) :
    build fl fl32 (ofFinite g v) =
      if v ≤ 0 then .error .valueError else (Geometry.build fl fl32 g).map (lift (trunc (fl (g.imageShape.1 * v)), trunc (fl (g.imageShape.2 * v)))) := by
  by_cases hv : v ≤ 0
  · rw [if_pos hv]
    unfold build ofFinite
    dsimp only
    split
    · rfl
    split
    · rfl
    split
    · rfl
    rw [if_pos (by simpa [Num.le] using hv)]
  rw [if_neg hv]
  rw [not_le] at hv
  unfold build Geometry.build ofFinite
  dsimp only
  by_cases c1 : 0 < g.flowFieldSize.1 ∧ 0 < g.flowFieldSize.2
  swap
  · rw [if_pos (by simp only [Num.lt]; rw [← Bool.decide_and, Bool.not_eq_true', decide_eq_false_iff_not]; exact c1), if_pos c1]; rfl
  rw [if_neg (by simpa [Num.lt] using c1), if_neg (not_not.2 c1)]
  by_cases c2 : 0 < g.flowShape.1 ∧ 0 < g.flowShape.2
  swap
  · rw [if_pos c2, if_pos c2]; rfl
  rw [if_neg (not_not.2 c2), if_neg (not_not.2 c2)]
  by_cases c3 : g.resolution ≤ 0
  · rw [if_pos (by simpa [Num.le] using c3), if_pos c3]; rfl
  rw [if_neg (by simpa [Num.le] using c3), if_neg c3]
  rw [if_neg (by simpa [Num.le] using hv)]
  simp only [toInt, nat, mul, pyMax_fin, pyMin_fin, offset0, bounds0, sub, div, add, Num.lt, decide_eq_true_eq, Bool.or_eq_true]
  change (if g.maxSpeedX < g.minSpeedX then _ else _) = _
  by_cases c4 : g.maxSpeedX < g.minSpeedX
  · rw [if_pos c4, if_pos c4]; rfl
  rw [if_neg c4, if_neg c4]
  by_cases c5 : g.maxSpeedY < g.minSpeedY
  · rw [if_pos c5, if_pos c5]; rfl
  rw [if_neg c5, if_neg c5]
  split
  · rename_i c6
    have c6 : Geometry.offset0 fl g.imgOffset.1 (max 0 g.maxSpeedY) g.dt < 0 ∨ Geometry.offset0 fl g.imgOffset.2 (max 0 g.maxSpeedX) g.dt < 0 := c6
    rw [if_pos c6]; rfl
  rename_i c6
  have c6 : ¬ (Geometry.offset0 fl g.imgOffset.1 (max 0 g.maxSpeedY) g.dt < 0 ∨ Geometry.offset0 fl g.imgOffset.2 (max 0 g.maxSpeedX) g.dt < 0) := c6
  rw [if_neg c6]
  split
  · rename_i c7
    split
    · rfl
    · rename_i c8; exact absurd c7 c8
  rename_i c7
  split
  · rename_i c8; exact absurd c8 c7
  simp only [extend, mul, div, toInt, sub, add, Num.lt, pyMax_fin]
  change (if _ then _ else _) = _
  have he : (g.hidden && (decide (fl (max 0 g.maxSpeedX * g.dt) < fl (((2 * trunc (fl (fl (3 * g.maxDiameter) / 2)) + 1 : Int) : ℚ) / g.resolution)) ||
      decide (fl (max 0 g.maxSpeedY * g.dt) < fl (((2 * trunc (fl (fl (3 * g.maxDiameter) / 2)) + 1 : Int) : ℚ) / g.resolution)))) =
      Geometry.extended fl g (max 0 g.maxSpeedX) (max 0 g.maxSpeedY) := rfl
  rw [he]
  simp only [store, neg, sub, add, mul, div, pyMax_fin, ceilInt, toInt, nat, Geometry.store, Geometry.offset1, Geometry.bounds1, Geometry.extra, lift]
  split
  · rfl
  · rfl

/-- A usual configuration (`Geometry.demo`). -/
def usual : Args := ofFinite
  { imageShape := (256, 256), imgOffset := (3, 3), dt := 1, flowFieldSize := (20, 20), flowShape := (128, 128),
    resolution := 50, maxSpeedX := 5 / 2, maxSpeedY := 1 / 100, minSpeedX := -5 / 2, minSpeedY := -1, maxDiameter := 3 / 2, hidden := true } 1

example : build id id usual = .ok
    { outShape := (256, 256), boundsOffset := (.fin (3 - 1 / 10), .fin (1 / 2)), imgOffset := (5, 125), bounds := (311, 506),
      padding := (0, 0), res := (.fin (32 / 5), .fin (32 / 5)) } := by decide +kernel

/-- The usual configuration with each parameter infinite or NaN in turn: what the constructor answers. -/
example : build id id { usual with dt := .nan } = .error .valueError ∧ build id id { usual with dt := .inf } = .error .valueError ∧
    build id id { usual with resolution := .inf } = .error overflow ∧ build id id { usual with resolution := .nan } = .error .valueError ∧
    build id id { usual with imgOffset := (.inf, .fin 3) } = .error .valueError ∧ build id id { usual with maxDiameter := .inf } = .error overflow ∧
    build id id { usual with velocitiesPerPixel := .inf } = .error overflow ∧ build id id { usual with maxSpeedX := .inf } = .error .valueError ∧
    build id id { usual with flowFieldSize := (.nan, .fin 20) } = .error .valueError := by decide +kernel

/-- **C167 is false for speeds**: a greatest speed that is NaN passes as zero, with any rounding and whatever the other parameters are. -/
theorem C167_refuted_nan (fl fl32 : ℚ → ℚ) (a : Args) :
    build fl fl32 { a with maxSpeedX := .nan } = build fl fl32 { a with maxSpeedX := .fin 0, minSpeedX := pyMin (.fin 0) a.minSpeedX } ∧
    build fl fl32 { a with maxSpeedY := .nan } = build fl fl32 { a with maxSpeedY := .fin 0, minSpeedY := pyMin (.fin 0) a.minSpeedY } ∧
    build fl fl32 { a with minSpeedX := .nan } = build fl fl32 { a with minSpeedX := .fin 0, maxSpeedX := pyMax (.fin 0) a.maxSpeedX } ∧
    build fl fl32 { a with minSpeedY := .nan } = build fl fl32 { a with minSpeedY := .fin 0, maxSpeedY := pyMax (.fin 0) a.maxSpeedY } := by
  have e1 : ∀ x : Num, Num.lt .nan x = false := fun x => by cases x <;> rfl
  have e2 : ∀ x : Num, x.lt .nan = false := fun x => by cases x <;> rfl
  have e3 : ∀ x : Num, (Num.fin 0).lt (pyMin (.fin 0) x) = false := fun x => by
    unfold pyMin
    split
    · cases x <;> simp_all [Num.lt] <;> exact le_of_lt (by assumption)
    · simp [Num.lt]
  have e4 : ∀ x : Num, (pyMax (.fin 0) x).lt (Num.fin 0) = false := fun x => by
    unfold pyMax
    split
    · cases x <;> simp_all [Num.lt] <;> exact le_of_lt (by assumption)
    · simp [Num.lt]
  have e5 : ∀ x : Num, pyMin (.fin 0) (pyMin (.fin 0) x) = pyMin (.fin 0) x := fun x => by
    unfold pyMin
    by_cases h : x.lt (.fin 0) = true
    · simp [h]
    · simp [h]
  have e6 : ∀ x : Num, pyMax (.fin 0) (pyMax (.fin 0) x) = pyMax (.fin 0) x := fun x => by
    unfold pyMax
    by_cases h : (Num.fin 0).lt x = true
    · simp [h]
    · simp [h]
  have e7 : pyMax (.fin 0) .nan = .fin 0 := rfl
  have e8 : pyMin (.fin 0) .nan = .fin 0 := rfl
  have e9 : pyMax (.fin 0) (.fin 0) = .fin 0 := rfl
  have e10 : pyMin (.fin 0) (.fin 0) = .fin 0 := rfl
  refine ⟨?_, ?_, ?_, ?_⟩ <;> simp only [build, extend, store, e1, e2, e3, e4, e5, e6, e7, e8, e9, e10]

/-- It is accepted, and the region has no room for the particles of a moving flow: the NaN goes unnoticed. -/
example : (build binary64 binary32 { usual with maxSpeedX := .nan, maxSpeedY := .nan, minSpeedX := .nan, minSpeedY := .nan }).isOk = true := by decide +kernel

/-- **C167 is false for the size of the flow field**: what is accepted with a finite size is accepted with an infinite one; the flow field then has 0 grid steps per unit of length. -/
theorem C167_refuted_size (fl fl32 : ℚ → ℚ) (a : Args) (g : Geo) (h : build fl fl32 a = .ok g) :
    ∃ g', build fl fl32 { a with flowFieldSize := (.inf, .inf) } = .ok g' ∧ g'.res = (.fin 0, .fin 0) ∧ g'.bounds = g.bounds ∧ g'.imgOffset = g.imgOffset := by
  unfold build at h ⊢
  dsimp only at h ⊢
  obtain ⟨_, h⟩ := guardOk h
  rw [if_neg (by decide)]
  obtain ⟨c2, h⟩ := guardOk h
  obtain ⟨c3, h⟩ := guardOk h
  obtain ⟨c4, h⟩ := guardOk h
  rw [if_neg c2, if_neg c3, if_neg c4]
  obtain ⟨oY, hy, h⟩ := bindOk h
  obtain ⟨oX, hx, h⟩ := bindOk h
  rw [hy, hx]
  obtain ⟨c5, h⟩ := guardOk h
  obtain ⟨c6, h⟩ := guardOk h
  obtain ⟨c7, h⟩ := guardOk h
  obtain ⟨_, h⟩ := guardOk h
  rw [okBind, okBind]
  beta_reduce
  rw [if_neg c5, if_neg c6, if_neg c7]
  have hinf : ∀ x, Num.lt .inf x = false := fun x => by cases x <;> rfl
  rw [if_neg (by simp [hinf])]
  unfold extend at h ⊢
  obtain ⟨r, hr, h⟩ := bindOk h
  dsimp only at h ⊢
  rw [hr]
  have hstore : ∀ (o : Int × Int) (offY offX bY bX : Num), store fl fl32 a o offY offX bY bX = .ok g →
      ∃ g', store fl fl32 { a with flowFieldSize := (.inf, .inf) } o offY offX bY bX = .ok g' ∧ g'.res = (.fin 0, .fin 0) ∧ g'.bounds = g.bounds ∧
        g'.imgOffset = g.imgOffset := by
    intro o offY offX bY bX h
    have hf := store_ok h
    unfold store at h ⊢
    dsimp only at h ⊢
    obtain ⟨_, _, h⟩ := bindOk h
    obtain ⟨_, _, h⟩ := bindOk h
    obtain ⟨_, h1, h⟩ := bindOk h
    obtain ⟨_, h2, h⟩ := bindOk h
    obtain ⟨_, h3, h⟩ := bindOk h
    obtain ⟨_, h4, h⟩ := bindOk h
    cases h
    rw [h1, h2, h3, h4]
    obtain ⟨_, _, ⟨q1, rfl⟩, ⟨q2, rfl⟩, _⟩ := hf
    simp only [neg, pyMax_fin, nat, div, mul, ceilInt]
    exact ⟨_, rfl, rfl, rfl, rfl⟩
  rw [okBind]
  beta_reduce
  split at h
  · rename_i c; rw [if_pos c]; exact hstore _ _ _ _ _ h
  · rename_i c; rw [if_neg c]; exact hstore _ _ _ _ _ h

/-- **C167**: the exception is not always a `ValueError`. -/
theorem C167_refuted_exception : ¬ ∀ (a : Args) (e : Exc), build binary64 binary32 a = .error e → e = .valueError := by
  intro h
  have := h { usual with maxDiameter := .inf } overflow (by decide +kernel)
  exact absurd this (by decide)

theorem guarded {β : Type} {c : Prop} [Decidable c] {k : Except Exc β} (h : ¬ c → k = .error .valueError) :
    (if c then .error .valueError else k) = (.error .valueError : Except Exc β) := by
  by_cases hc : c
  · rw [if_pos hc]
  · rw [if_neg hc]; exact h hc

/-- **C167**: an infinite speed alone is a `ValueError`: if the other parameters are finite (and the speeds whatever they are) and the time step is positive. -/
theorem C167_infinite_speed (fl fl32 : ℚ → ℚ) (a : Args) (dt : ℚ) (hdt : a.dt = .fin dt) (h0 : 0 < dt) (ho : Finite a.imgOffset.1 ∧ Finite a.imgOffset.2)
    (hr : Finite a.resolution) (hv : Finite a.velocitiesPerPixel) (hs : Finite a.flowFieldSize.1 ∧ Finite a.flowFieldSize.2)
    (h : a.maxSpeedX = .inf ∨ a.maxSpeedY = .inf ∨ a.minSpeedX = .neginf ∨ a.minSpeedY = .neginf) : build fl fl32 a = .error .valueError := by
  obtain ⟨v, hv⟩ := hv
  have up : ∀ o mx : Num, Finite o → mx = .inf → (offset0 fl o (pyMax (.fin 0) mx) a.dt).lt (.fin 0) = true := by
    rintro _ _ ⟨o, rfl⟩ rfl
    rw [hdt]
    simp [offset0, pyMax, Num.lt, mul, infinity, sign, h0, sub, add, neg]
  have down : ∀ (o mx mn size res : Num) (n : Nat), Finite o → Finite size → Finite res → mn = .neginf →
      (offset0 fl o (pyMax (.fin 0) mx) a.dt).lt (.fin 0) = false →
      size.lt (add fl (bounds0 fl n res (pyMax (.fin 0) mx) (pyMin (.fin 0) mn) a.dt) (offset0 fl o (pyMax (.fin 0) mx) a.dt)) = true := by
    rintro _ mx _ _ _ n ⟨o, rfl⟩ ⟨size, rfl⟩ ⟨res, rfl⟩ rfl hoff
    rw [hdt] at hoff ⊢
    have hm : ∃ m, pyMax (.fin 0) mx = .fin m := by
      cases mx with
      | fin q => exact ⟨_, pyMax_fin q⟩
      | inf => simp [offset0, pyMax, Num.lt, mul, infinity, sign, h0, sub, add, neg] at hoff
      | neginf => exact ⟨0, rfl⟩
      | nan => exact ⟨0, rfl⟩
    obtain ⟨m, hm⟩ := hm
    rw [hm]
    simp [offset0, bounds0, pyMin, Num.lt, mul, infinity, sign, h0, sub, add, neg, div, nat]
  unfold build
  dsimp only
  refine guarded (fun _ => guarded (fun _ => guarded (fun _ => guarded (fun _ => ?_))))
  rw [hv]
  simp only [nat, mul, toInt, okBind]
  refine guarded (fun _ => guarded (fun _ => guarded (fun c => guarded (fun d => absurd ?_ d))))
  rw [Bool.or_eq_true, not_or, Bool.not_eq_true, Bool.not_eq_true] at c
  rw [Bool.or_eq_true]
  rcases h with h | h | h | h
  · exact absurd (up _ _ ho.2 h) (by rw [c.2]; decide)
  · exact absurd (up _ _ ho.1 h) (by rw [c.1]; decide)
  · exact .inr (down _ _ _ _ _ _ ho.2 hs.2 hr h c.2)
  · exact .inl (down _ _ _ _ _ _ ho.1 hs.1 hr h c.1)

example : build binary64 binary32 { usual with minSpeedX := .neginf } = .error .valueError ∧ build binary64 binary32 { usual with maxSpeedY := .inf } = .error .valueError := by
  decide +kernel

end Verif.NonFinite
