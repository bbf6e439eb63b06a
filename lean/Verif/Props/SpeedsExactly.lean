import Verif.Spec.SpeedsExactly
import Verif.Props.Sanity
/-!
# C67, exactly: what the speed summary says of files with NaN
-/

namespace Verif.Sanity
open Verif Spec

private theorem extremes_step {X : Num → Prop} {lo hi i a : Num} {xs : List Num} (h : Extremes X lo hi) (hl : lo ≠ .nan) (hh : hi ≠ .nan)
    (hi' : npMin xs = .ok i) (ha : npMax xs = .ok a) :
    Extremes (fun x => X x ∨ ((∀ y ∈ xs, y ≠ .nan) ∧ x ∈ xs)) (pyMin lo i) (pyMax hi a) ∧ pyMin lo i ≠ .nan ∧ pyMax hi a ≠ .nan := by
  by_cases hn : ∀ y ∈ xs, y ≠ .nan
  · have hax := npMax_ok ha hn
    have hix := npMin_ok hi' hn
    have M := max_step (A := X) (B := fun x => x ∈ xs) hh (hn _ hax.2) (fun x hx => (h.1 x hx).2) hax.1 hax.2
      (h.2.elim (fun q => .inl q.2) (fun q => .inr q.2.2))
    have I := min_step (A := X) (B := fun x => x ∈ xs) hl (hn _ hix.2) (fun x hx => (h.1 x hx).1) hix.1 hix.2
      (h.2.elim (fun q => .inl q.1) (fun q => .inr q.2.1))
    refine ⟨⟨?_, .inl ⟨?_, ?_⟩⟩, I.2.2, M.2.2⟩
    · rintro x (hx | ⟨_, hx⟩)
      · exact ⟨I.1 x (.inl hx), M.1 x (.inl hx)⟩
      · exact ⟨I.1 x (.inr hx), M.1 x (.inr hx)⟩
    · exact I.2.1.imp id (fun q => ⟨hn, q⟩)
    · exact M.2.1.imp id (fun q => ⟨hn, q⟩)
  · have hany : xs.any (fun x => decide (x = .nan)) = true := by
      push Not at hn
      obtain ⟨y, hy, rfl⟩ := hn
      exact List.any_eq_true.mpr ⟨_, hy, by simp⟩
    cases xs with
    | nil => simp at hany
    | cons b l =>
      simp only [npMin, npMax, hany, if_true, Except.ok.injEq] at hi' ha
      subst hi' ha
      have e1 : pyMin lo .nan = lo := by cases lo <;> simp [pyMin, Num.lt]
      have e2 : pyMax hi .nan = hi := by cases hi <;> simp [pyMax, Num.lt]
      rw [e1, e2]
      refine ⟨?_, hl, hh⟩
      have : (fun x => X x ∨ ((∀ y ∈ b :: l, y ≠ .nan) ∧ x ∈ b :: l)) = X := by
        funext x
        exact propext ⟨fun q => q.elim id (fun q => absurd q.1 hn), .inl⟩
      rw [this]
      exact h

private theorem extremes_congr {X Y : Num → Prop} {lo hi : Num} (h : ∀ x, X x ↔ Y x) (hX : Extremes X lo hi) : Extremes Y lo hi := by
  have : X = Y := by funext v; exact propext (h v)
  exact this ▸ hX

private theorem counts_cons {read : Reader} {f : String} {fs : List String} {c : Num × Num → Num} {x : Num} {xs : List Num}
    (h1 : ∀ v, Velocity read f v → c v ∈ xs) (h2 : ∀ x ∈ xs, ∃ v, Velocity read f v ∧ c v = x) :
    Counts read (f :: fs) c x ↔ ((∀ y ∈ xs, y ≠ .nan) ∧ x ∈ xs) ∨ Counts read fs c x := by
  have hn : (∀ y ∈ xs, y ≠ .nan) ↔ ∀ v, Velocity read f v → c v ≠ .nan :=
    ⟨fun q v hv => q _ (h1 v hv), fun q y hy => by obtain ⟨v, hv, rfl⟩ := h2 y hy; exact q v hv⟩
  have hx : x ∈ xs ↔ ∃ v, Velocity read f v ∧ c v = x := ⟨h2 x, fun ⟨v, hv, e⟩ => e ▸ h1 v hv⟩
  rw [hn, hx]
  simp [Counts]

private theorem speedLoop_extremes {read : Reader} (hr : ReadsArrays read) {files : List String} :
    ∀ {X Y : Num → Prop} {s s' : Speeds}, Extremes X s.minX s.maxX → Extremes Y s.minY s.maxY →
      (s.minX ≠ .nan ∧ s.maxX ≠ .nan ∧ s.minY ≠ .nan ∧ s.maxY ≠ .nan) → speedLoop read s files = .ok s' →
      Extremes (fun x => X x ∨ Counts read files Prod.fst x) s'.minX s'.maxX ∧ Extremes (fun y => Y y ∨ Counts read files Prod.snd y) s'.minY s'.maxY := by
  induction files with
  | nil =>
    intro X Y s s' hX hY _ h
    cases h
    exact ⟨extremes_congr (by simp [Counts]) hX, extremes_congr (by simp [Counts]) hY⟩
  | cons f fs ih =>
    intro X Y s s' hX hY hn h
    simp only [speedLoop] at h
    split at h
    · cases h
    rename_i s1 hs
    unfold speedStep at hs
    split at hs
    · cases hs
    rename_i xs ys hc
    split at hs
    swap
    · cases hs
    rename_i ax ay ix iy hax hay hix hiy
    simp only [Except.ok.injEq] at hs
    subst hs
    obtain ⟨hv, hx, hy⟩ := components_ok hr hc
    obtain ⟨EX, n1, n2⟩ := extremes_step hX hn.1 hn.2.1 hix hax
    obtain ⟨EY, n3, n4⟩ := extremes_step hY hn.2.2.1 hn.2.2.2 hiy hay
    obtain ⟨h1, h2⟩ := ih EX EY ⟨n1, n2, n3, n4⟩ h
    refine ⟨extremes_congr (fun x => ?_) h1, extremes_congr (fun x => ?_) h2⟩
    · rw [counts_cons (fun v q => (hv v q).1) hx, or_assoc]
    · rw [counts_cons (fun v q => (hv v q).2) hy, or_assoc]

/-- **C67, exactly**: the bounds of each component are the least and greatest values in the files without NaN in that component, and infinite (the
minimum being greater than the maximum) if there is no such file. -/
theorem C67_exactly (read : Reader) (hr : ReadsArrays read) (files : List String) (s : Speeds) (h : speeds read files = .ok s) :
    Extremes (Counts read files Prod.fst) s.minX s.maxX ∧ Extremes (Counts read files Prod.snd) s.minY s.maxY := by
  obtain ⟨h1, h2⟩ := speedLoop_extremes hr (X := fun _ => False) (Y := fun _ => False)
    (s := { minX := .inf, maxX := .neginf, minY := .inf, maxY := .neginf })
    ⟨fun _ q => q.elim, .inr ⟨fun _ => id, rfl, rfl⟩⟩ ⟨fun _ q => q.elim, .inr ⟨fun _ => id, rfl, rfl⟩⟩ (by decide) h
  exact ⟨extremes_congr (by simp) h1, extremes_congr (by simp) h2⟩

/-- **C67** holds exactly of the lists of files without NaN: otherwise the summary does not bound the data. -/
theorem C67_iff (read : Reader) (hr : ReadsArrays read) (files : List String) (hf : files ≠ []) (s : Speeds) (h : speeds read files = .ok s) :
    ExactBounds (fun v => ∃ f ∈ files, Velocity read f v) s ↔ ∀ f ∈ files, ∀ v, Velocity read f v → v.1 ≠ .nan ∧ v.2 ≠ .nan := by
  refine ⟨fun hb f hf' v hv => ?_, fun hn => C67_bounds_partial read hr files hf hn s h⟩
  obtain ⟨h1, _, h3, _⟩ := hb.bounds v ⟨f, hf', hv⟩
  constructor
  · intro e
    rw [e] at h1
    cases hq : s.minX <;> simp [hq, Num.le] at h1
  · intro e
    rw [e] at h3
    cases hq : s.minY <;> simp [hq, Num.le] at h3

/-- A file with NaN in the first component counts for the second only. -/
example : speeds demoRead ["nan.h5", "b.h5"] = .ok { minX := .fin 6, maxX := .fin 7, minY := .fin (-1), maxY := .fin 1 } ∧
    speeds demoRead ["nan.h5"] = .ok { minX := .inf, maxX := .neginf, minY := .fin (-1), maxY := .fin 1 } := by decide +kernel

end Verif.Sanity
