import Verif.Props.Convert
import Verif.Props.Formats
import Verif.Props.Pillow
/-!
# The grid of packed samples (C189)
-/

namespace Verif.Convert
open Verif SplitCopy Formats

/-- Every packed file comes from a usable triplet of the raw dataset. -/
theorem convert_inv {F I : Type} (src : Src F I) (flows : List (List Name × Name)) (hg : ∀ t ∈ flows, Found t.2) (fs : Packs (F × I × I)) {dir : List Name} {fname : Name}
    {x : F × I × I} (h : convert src flows fs (dir, fname) = some x) :
    fs (dir, fname) = some x ∨ ∃ stem ext, fname = stem ++ ".mat".toList ∧ (dir, stem ++ "_flow".toList ++ ext) ∈ flows ∧ Usable src dir stem ext x := by
  induction flows generalizing fs with
  | nil => exact .inl h
  | cons t l ih =>
    obtain ⟨dir0, name0⟩ := t
    obtain ⟨s0, e0, hs0, hl0⟩ := found_split (hg (dir0, name0) List.mem_cons_self)
    rcases ih (fun t ht => hg t (List.mem_cons_of_mem _ ht)) (convertOne src fs (dir0, name0)) h with h1 | ⟨stem, ext, q1, q2, q3⟩
    · rcases convertOne_cases src fs dir0 name0 s0 e0 hs0 hl0 with ⟨y, hy⟩ | he
      · have e := convertOne_usable src fs hy
        simp only [] at hs0
        rw [← hs0] at e
        rw [e] at h1
        beta_reduce at h1
        by_cases hq : (dir, fname) = (dir0, s0 ++ ".mat".toList)
        · rw [if_pos hq, Option.some.injEq] at h1
          subst h1
          rw [Prod.mk.injEq] at hq
          obtain ⟨rfl, rfl⟩ := hq
          exact .inr ⟨s0, e0, rfl, by rw [← hs0]; exact List.mem_cons_self, hy⟩
        · rw [if_neg hq] at h1
          exact .inl h1
      · rw [he] at h1
        exact .inl h1
    · exact .inr ⟨stem, ext, q1, List.mem_cons_of_mem _ q2, q3⟩

/-- A packed sample is on the target grid: flow and images. -/
def OnGrid (th tw : Nat) (x : Arr Rat × Arr Rat × Arr Rat) : Prop := x.1.shape.take 2 = [th, tw] ∧ x.2.1.shape.take 2 = [th, tw] ∧ x.2.2.shape.take 2 = [th, tw]

/-- **C189** (partial). Whatever raw dataset is packed into an empty directory: the flow of every packed file has the target shape and two components, and the images are those of the raw dataset, unchanged.
Therefore a packed file is on the target grid exactly if its raw images have been. -/
theorem C189_grid_partial (io : MatIO) (hpil : PilOK io) (th tw : Nat) (hth : 0 < th) (htw : 0 < tw) (src : Src (Arr Rat) (Arr Rat)) (hsrc : src.resize = Scripts.packFlow io th tw)
    (hflow : ∀ dir n f, src.flow dir n = .ok f → f.WF ∧ ∃ h w, f.shape = [h, w, 2]) (flows : List (List Name × Name)) (hg : ∀ t ∈ flows, Found t.2)
    (dir : List Name) (fname : Name) (x : Arr Rat × Arr Rat × Arr Rat) (h : convert src flows (fun _ => none) (dir, fname) = some x) :
    x.1.shape = [th, tw, 2] ∧
    (∃ stem, fname = stem ++ ".mat".toList ∧ src.img dir (stem ++ "_img1.tif".toList) = some (.ok x.2.1) ∧ src.img dir (stem ++ "_img2.tif".toList) = some (.ok x.2.2)) ∧
    (OnGrid th tw x ↔ x.2.1.shape.take 2 = [th, tw] ∧ x.2.2.shape.take 2 = [th, tw]) := by
  rcases convert_inv src flows hg _ h with h1 | ⟨stem, ext, q1, -, q3⟩
  · simp at h1
  obtain ⟨f, f1, f2⟩ := q3.flow
  obtain ⟨hwf, hh, ww, hs⟩ := hflow _ _ _ f1
  have hshape : x.1.shape = [th, tw, 2] := by
    rw [hsrc] at f2
    unfold Scripts.packFlow matFit at f2
    by_cases hsz : f.shape.take 2 = [th, tw]
    · rw [if_pos hsz] at f2
      simp only [Except.ok.injEq] at f2
      rw [← f2]
      simp only [hs, List.take_succ_cons, List.take_zero, List.cons.injEq, and_true] at hsz
      rw [hs, hsz.1, hsz.2]
    · rw [if_neg hsz] at f2
      simp only [hs] at f2
      split at f2
      · simp at f2
      · rename_i hpos
        obtain ⟨u, v', t, hu, hv', ht, hts, _⟩ := matFlow_resized (c := ⟨false, th, tw⟩) hpil hwf hs (le_refl 2) (by omega) (by omega) hth htw
        rw [hu, hv'] at f2
        simp only [ht, Except.ok.injEq] at f2
        rw [← f2, hts]
  refine ⟨hshape, ⟨stem, q1, q3.img1, q3.img2⟩, ⟨fun g => g.2, fun g => ⟨by rw [hshape]; rfl, g⟩⟩⟩

/-- A raw dataset of one triplet of 2 x 2 pixels, with the image library of the examples of C15. -/
def gridSrc : Src (Arr Rat) (Arr Rat) where
  flow := fun _ n => if n = "a_flow.flo".toList then .ok ⟨[2, 2, 2], [2, 4, 2, 4, 2, 4, 2, 4]⟩ else .error .fileNotFound
  img := fun _ n => if n = "a_img1.tif".toList then some (.ok ⟨[2, 2], [1, 2, 3, 4]⟩) else if n = "a_img2.tif".toList then some (.ok ⟨[2, 2], [5, 6, 7, 8]⟩) else none
  resize := Scripts.packFlow (demoMat ⟨[2, 2, 2], [2, 4, 2, 4, 2, 4, 2, 4]⟩) 1 1

/-- **C189 is false**: a sample of 2 x 2 pixels packed at 1 x 1 has a flow of 1 x 1 and images of 2 x 2. -/
theorem C189_refuted : ∃ (io : MatIO) (x : Arr Rat × Arr Rat × Arr Rat), PilOK io ∧ gridSrc.resize = Scripts.packFlow io 1 1 ∧
    (∀ dir n f, gridSrc.flow dir n = .ok f → f.WF ∧ ∃ h w, f.shape = [h, w, 2]) ∧ (∀ t ∈ [(([] : List Name), "a_flow.flo".toList)], Found t.2) ∧
    convert gridSrc [([], "a_flow.flo".toList)] (fun _ => none) ([], "a.mat".toList) = some x ∧ x.1.shape = [1, 1, 2] ∧ x.2.1 = ⟨[2, 2], [1, 2, 3, 4]⟩ ∧ ¬ OnGrid 1 1 x := by
  refine ⟨demoMat ⟨[2, 2, 2], [2, 4, 2, 4, 2, 4, 2, 4]⟩, (⟨[1, 1, 2], [1 * (((1 : Nat) : Rat) / ((2 : Nat) : Rat)), 1 * (((1 : Nat) : Rat) / ((2 : Nat) : Rat))]⟩, ⟨[2, 2], [1, 2, 3, 4]⟩, ⟨[2, 2], [5, 6, 7, 8]⟩), demoMat_ok _, rfl, ?_, ?_, by rfl, rfl, rfl, ?_⟩
  · intro dir n f h
    simp only [gridSrc] at h
    split at h
    · simp only [Except.ok.injEq] at h
      subst h
      exact ⟨by unfold Arr.WF; rfl, 2, 2, rfl⟩
    · simp at h
  · intro t ht
    simp only [List.mem_singleton] at ht
    subst ht
    exact ⟨"a".toList, ".flo".toList, by decide +kernel⟩
  · intro h
    exact absurd h.2.1 (by decide +kernel)

end Verif.Convert
