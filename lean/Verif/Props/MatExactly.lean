import Verif.Props.Formats

/-! # C15, exactly: which arrays the MAT scheduler takes for flow fields -/

namespace Verif.Formats
open Verif Base

/-- **C15**, exactly which layouts are accepted, with any number of axes: `(h, w, 2)` and `(2, h, w)` with `h` and `w` positive, and the arrays
with four or more axes that begin with `(H, W, 2)`, where `(H, W)` is the output shape. (Without images. Entries are numbers that Pillow takes
for grey values only, such as floats; of bytes it would also resize arrays with one more axis.) -/
theorem C15_exactly (io : MatIO) (hpil : PilOK io) (c : MatCfg) (hH : 0 < c.height) (hW : 0 < c.width) (hi : c.includeImages = false)
    (p : String) (data : List (String × Arr Rat)) (v : Arr Rat) (hread : matRead io p = .ok data) (hV : data.lookup "V" = some v)
    (hw : v.WF) :
    (∃ x, matLoad io c p = .ok x) ↔
      (∃ h w, 0 < h ∧ 0 < w ∧ (v.shape = [h, w, 2] ∨ v.shape = [2, h, w])) ∨
      (∃ l, l ≠ [] ∧ v.shape = c.height :: c.width :: 2 :: l) := by
  have hload : (∃ x, matLoad io c p = .ok x) ↔ ∃ f, matFlow io c v = .ok f := by
    unfold matLoad
    rw [hread]
    simp only [hV, hi, Bool.false_eq_true, if_false]
    cases matFlow io c v with
    | error e => simp
    | ok f => simp
  rw [hload]
  have key : ∀ (flow : Arr Rat) h w, flow.WF → flow.shape = [h, w, 2] → ((∃ f, matFit io c flow = Except.ok f) ↔ 0 < h ∧ 0 < w) := by
    intro flow h w hfw hfs
    unfold matFit
    by_cases hsz : flow.shape.take 2 = [c.height, c.width]
    · rw [if_pos hsz]
      simp only [hfs, List.take_succ_cons, List.take_zero, List.cons.injEq, and_true] at hsz
      simp [hsz.1, hsz.2, hH, hW]
    · rw [if_neg hsz]
      simp only [hfs]
      by_cases h0 : h = 0 ∨ w = 0
      · rw [if_pos h0]
        simp
        omega
      · rw [if_neg h0]
        obtain ⟨u, v', t, hu, hv', ht, _⟩ := matFlow_resized (c := c) hpil hfw hfs (le_refl 2) (by omega) (by omega) hH hW
        rw [hu, hv']
        simp only [ht, Except.ok.injEq, exists_eq', true_iff]
        omega
  match hvs : v.shape with
  | [] | [_] | [_, _] => simp [matFlow, hvs]
  | [a, b, k] =>
    by_cases h2 : k = 2
    · subst h2
      have : matFlow io c v = matFit io c v := by simp [matFlow, hvs]
      rw [this, key v a b hw hvs]
      simp only [List.cons.injEq, and_true]
      constructor
      · rintro ⟨h1, h2⟩
        exact .inl ⟨a, b, h1, h2, .inl ⟨rfl, rfl⟩⟩
      · rintro (⟨h, w, h1, h2, ⟨rfl, rfl⟩ | ⟨rfl, rfl, h3⟩⟩ | ⟨l, hl, _, _, _, h3⟩)
        · exact ⟨h1, h2⟩
        · exact ⟨by omega, h1⟩
        · exact absurd h3.symm hl
    · by_cases ha : a = 2
      · subst ha
        obtain ⟨t, ht, hts, htw, _⟩ := transpose120_spec hvs hw
        have : matFlow io c v = matFit io c t := by simp [matFlow, hvs, h2, ht]
        rw [this, key t b k htw hts]
        simp only [List.cons.injEq, and_true, true_and]
        constructor
        · rintro ⟨h1, h2⟩
          exact .inl ⟨b, k, h1, h2, .inr ⟨rfl, rfl⟩⟩
        · rintro (⟨h, w, h1, h3, ⟨_, _, h4⟩ | ⟨rfl, rfl⟩⟩ | ⟨l, hl, _, _, h4, _⟩)
          · exact absurd h4 h2
          · exact ⟨h1, h3⟩
          · exact absurd h4 h2
      · have : matFlow io c v = .error .assertionError := by simp [matFlow, hvs, h2, ha]
        rw [this]
        simp [h2, ha]
  | a :: b :: k :: d :: l =>
    by_cases h2 : k = 2
    · subst h2
      have : matFlow io c v = matFit io c v := by simp [matFlow, hvs]
      rw [this]
      unfold matFit
      by_cases hsz : a = c.height ∧ b = c.width
      · obtain ⟨rfl, rfl⟩ := hsz
        simp [hvs]
      · rw [if_neg (by simpa [hvs] using hsz)]
        simp only [hvs]
        simp
        intro ha hb
        exact absurd ⟨ha, hb⟩ hsz
    · by_cases ha : a = 2
      · have : matFlow io c v = .error .valueError := by simp [matFlow, hvs, h2, ha, transpose120]
        rw [this]
        simp [h2]
      · have : matFlow io c v = .error .assertionError := by simp [matFlow, hvs, h2, ha]
        rw [this]
        simp [h2]

/-- **C15**, exactly when what is loaded has not the shape it should have: the stored array has four or more axes and begins with `(H, W, 2)`.
It is then handed out as it is stored. -/
theorem C15_wrong_shape_iff (io : MatIO) (hpil : PilOK io) (c : MatCfg) (hH : 0 < c.height) (hW : 0 < c.width)
    (hi : c.includeImages = false) (p : String) (data : List (String × Arr Rat)) (v : Arr Rat) (hread : matRead io p = .ok data)
    (hV : data.lookup "V" = some v) (hw : v.WF) :
    (∃ x, matLoad io c p = .ok x ∧ x.flow.shape ≠ [c.height, c.width, 2]) ↔
      ∃ l, l ≠ [] ∧ v.shape = c.height :: c.width :: 2 :: l := by
  constructor
  · rintro ⟨x, hx, hne⟩
    rcases (C15_exactly io hpil c hH hW hi p data v hread hV hw).mp ⟨x, hx⟩ with ⟨h, w, _, _, hs⟩ | h
    · have h3 : v.shape.length ≤ 3 := by rcases hs with hs | hs <;> rw [hs] <;> simp
      exact absurd ((C15_layout_partial io hpil c hH hW p data v hread hV hw h3).1 x hx) hne
    · exact h
  · rintro ⟨l, hl, hs⟩
    have hf : matFlow io c v = .ok v := by simp [matFlow, matFit, hs]
    refine ⟨⟨v, none, none, some [p]⟩, ?_, ?_⟩
    · unfold matLoad
      rw [hread]
      simp only [hV, hi, Bool.false_eq_true, if_false, hf]
    · simpa [hs] using hl

/-- Cases on both sides: a `(2, 1, 3)` array is accepted, a `(2, 1, 0)` array is not, and a `(1, 1, 2, 1)` array is for the shape `(1, 1)`. -/
example : (∃ x, matLoad (demoMat ⟨[2, 1, 3], [1, 2, 3, 4, 5, 6]⟩) ⟨false, 4, 3⟩ "m" = .ok x) ∧
    (¬ ∃ x, matLoad (demoMat ⟨[2, 1, 0], []⟩) ⟨false, 4, 3⟩ "m" = .ok x) ∧
    ∃ x, matLoad (demoMat ⟨[1, 1, 2, 1], [7, 8]⟩) ⟨false, 1, 1⟩ "m" = .ok x ∧ x.flow.shape ≠ [1, 1, 2] := by
  refine ⟨(C15_exactly _ (demoMat_ok _) _ (by decide) (by decide) rfl "m" _ ⟨[2, 1, 3], [1, 2, 3, 4, 5, 6]⟩ rfl rfl (by decide)).mpr
      (.inl ⟨1, 3, by decide, by decide, .inr rfl⟩), ?_,
    (C15_wrong_shape_iff _ (demoMat_ok _) ⟨false, 1, 1⟩ (by decide) (by decide) rfl "m" _ ⟨[1, 1, 2, 1], [7, 8]⟩ rfl rfl
      (by decide)).mpr ⟨[1], by simp, rfl⟩⟩
  rw [C15_exactly _ (demoMat_ok _) _ (by decide) (by decide) rfl "m" _ ⟨[2, 1, 0], []⟩ rfl rfl (by decide)]
  simp

end Verif.Formats
