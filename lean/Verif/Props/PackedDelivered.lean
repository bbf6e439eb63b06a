import Verif.Model.PackedFile
import Verif.Props.PackedGrid
/-!
# C195: what is packed is what is delivered
-/

namespace Verif.Convert
open Verif SplitCopy Formats Base

/-- What is assumed of Pillow for images: an image of at least one pixel can be resized to any size. -/
def ImagesOK (resizeImage : Arr Rat → Nat → Nat → Except Exc (Arr Rat)) : Prop :=
  ∀ (a : Arr Rat) (h0 w0 w h : Nat), a.shape = [h0, w0] → 0 < h0 → 0 < w0 → 0 < w → 0 < h → ∃ r, resizeImage a w h = .ok r

/-- A raw dataset as the script can read it: flows of two components, and images in grey (`read_img` converts them) with at least one pixel. -/
structure Raw (src : Src (Arr Rat) (Arr Rat)) : Prop where
  flow : ∀ dir n f, src.flow dir n = .ok f → f.WF ∧ ∃ h w, f.shape = [h, w, 2]
  image : ∀ dir n a, src.img dir n = some (.ok a) → ∃ h w, 0 < h ∧ 0 < w ∧ a.shape = [h, w]

theorem read_packed (disk : String → Option MatFile) (ri rf : Arr Rat → Nat → Nat → Except Exc (Arr Rat)) (p : String) (x : Arr Rat × Arr Rat × Arr Rat)
    (hd : disk p = some (packedFile x)) : matRead (diskIO disk ri rf) p = .ok [("I0", x.2.1), ("I1", x.2.2), ("V", x.1)] := by
  unfold matRead
  simp only [diskIO, hd, packedFile, loadmat]
  simp [flattenItems, flattenItem]

private theorem flow_packed (io : MatIO) (b : Bool) (th tw : Nat) (f : Arr Rat) (h : f.shape = [th, tw, 2]) : matFlow io ⟨b, th, tw⟩ f = .ok f := by
  simp [matFlow, h, matFit]

/-- **C195** for the flow: a file packed for a target shape and loaded with the same `output_shape` gives exactly one sample, with the packed flow, which has that shape. -/
theorem C195_flow (io : MatIO) (hpil : PilOK io) (th tw : Nat) (hth : 0 < th) (htw : 0 < tw) (src : Src (Arr Rat) (Arr Rat)) (hsrc : src.resize = Scripts.packFlow io th tw)
    (hraw : Raw src) (flows : List (List Name × Name)) (hg : ∀ t ∈ flows, Found t.2) (dir : List Name) (fname : Name) (x : Arr Rat × Arr Rat × Arr Rat)
    (h : convert src flows (fun _ => none) (dir, fname) = some x) (disk : String → Option MatFile) (p : String) (hd : disk p = some (packedFile x)) {Key : Type}
    (split : Key → Key × Key) (perm : Key → Nat → List Nat) :
    x.1.shape = [th, tw, 2] ∧
    Yields (matWorld (diskIO disk io.resizeImage io.resizeFlow) ⟨false, th, tw⟩ split perm) p [⟨x.1, none, none, some [p]⟩] := by
  obtain ⟨hs, _, _⟩ := C189_grid_partial io hpil th tw hth htw src hsrc hraw.flow flows hg dir fname x h
  refine ⟨hs, ?_⟩
  have hl : (matWorld (diskIO disk io.resizeImage io.resizeFlow) ⟨false, th, tw⟩ split perm).load p = .ok ⟨x.1, none, none, some [p]⟩ := by
    show matLoad _ _ p = _
    unfold matLoad
    rw [read_packed disk _ _ p x hd]
    simp [List.lookup, flow_packed _ _ _ _ _ hs]
  unfold Yields
  rw [hl]
  refine ⟨fun i hi => ?_, by simp [matWorld, matNext]⟩
  have : i = 0 := by simpa using hi
  subst this
  simp [matWorld, matNext]

/-- **C195**, where the packed data come from: from one triplet of the raw dataset, with the same stem, in the same directory; the flow is that of the flow file if this has the target shape. -/
theorem C195_raw (io : MatIO) (th tw : Nat) (src : Src (Arr Rat) (Arr Rat)) (hsrc : src.resize = Scripts.packFlow io th tw) (flows : List (List Name × Name))
    (hg : ∀ t ∈ flows, Found t.2) (dir : List Name) (fname : Name) (x : Arr Rat × Arr Rat × Arr Rat) (h : convert src flows (fun _ => none) (dir, fname) = some x) :
    ∃ stem ext f, fname = stem ++ ".mat".toList ∧ (dir, stem ++ "_flow".toList ++ ext) ∈ flows ∧ src.flow dir (stem ++ "_flow".toList ++ ext) = .ok f ∧
      (f.shape.take 2 = [th, tw] → x.1 = f) ∧
      src.img dir (stem ++ "_img1.tif".toList) = some (.ok x.2.1) ∧ src.img dir (stem ++ "_img2.tif".toList) = some (.ok x.2.2) := by
  rcases convert_inv src flows hg _ h with h1 | ⟨stem, ext, q1, q2, q3⟩
  · simp at h1
  obtain ⟨f, f1, f2⟩ := q3.flow
  refine ⟨stem, ext, f, q1, q2, f1, fun hs => ?_, q3.img1, q3.img2⟩
  rw [hsrc] at f2
  unfold Scripts.packFlow matFit at f2
  rw [if_pos hs] at f2
  exact (Except.ok.inj f2).symm

/-- The images of a packed file, as they are loaded. -/
private theorem load_packed (io : MatIO) (hpil : PilOK io) (hri : ImagesOK io.resizeImage) (th tw : Nat) (hth : 0 < th) (htw : 0 < tw) (src : Src (Arr Rat) (Arr Rat)) (hsrc : src.resize = Scripts.packFlow io th tw)
    (hraw : Raw src) (flows : List (List Name × Name)) (hg : ∀ t ∈ flows, Found t.2) (dir : List Name) (fname : Name) (x : Arr Rat × Arr Rat × Arr Rat)
    (h : convert src flows (fun _ => none) (dir, fname) = some x) (disk : String → Option MatFile) (p : String) (hd : disk p = some (packedFile x)) :
    ∃ j0 j1, matImage (diskIO disk io.resizeImage io.resizeFlow) ⟨true, th, tw⟩ x.2.1 = .ok j0 ∧ matImage (diskIO disk io.resizeImage io.resizeFlow) ⟨true, th, tw⟩ x.2.2 = .ok j1 ∧
      matLoad (diskIO disk io.resizeImage io.resizeFlow) ⟨true, th, tw⟩ p = .ok ⟨x.1, some j0, some j1, some [p]⟩ := by
  obtain ⟨hs, ⟨stem, _, i1, i2⟩, _⟩ := C189_grid_partial io hpil th tw hth htw src hsrc hraw.flow flows hg dir fname x h
  have one (a : Arr Rat) (n : Name) (ha : src.img dir n = some (.ok a)) : ∃ j, matImage (diskIO disk io.resizeImage io.resizeFlow) ⟨true, th, tw⟩ a = .ok j := by
    obtain ⟨h0, w0, hh, hw, hsh⟩ := hraw.image _ _ _ ha
    unfold matImage
    split
    · exact hri a h0 w0 th tw hsh hh hw hth htw
    · exact ⟨_, rfl⟩
  obtain ⟨j0, e0⟩ := one _ _ i1
  obtain ⟨j1, e1⟩ := one _ _ i2
  refine ⟨j0, j1, e0, e1, ?_⟩
  unfold matLoad
  rw [read_packed disk _ _ p x hd]
  simp [List.lookup, flow_packed _ _ _ _ _ hs, e0, e1]

private theorem pil_disk {io : MatIO} (hpil : PilOK io) (disk : String → Option MatFile) : PilOK (diskIO disk io.resizeImage io.resizeFlow) := ⟨hpil.flow, hpil.image⟩

/-- **C195** (partial): a file packed for a target shape and loaded with images and the same `output_shape` gives exactly one sample: the packed flow, and two images on the same
grid, which are the packed (and raw) ones if those have the target shape. Proved if the target shape is square, or the raw images have it. Missing: images of other sizes and
target shapes that are not square (`C195_refuted`). -/
theorem C195_delivered_partial (io : MatIO) (hpil : PilOK io) (hri : ImagesOK io.resizeImage) (th tw : Nat) (hth : 0 < th) (htw : 0 < tw) (src : Src (Arr Rat) (Arr Rat))
    (hsrc : src.resize = Scripts.packFlow io th tw) (hraw : Raw src) (flows : List (List Name × Name)) (hg : ∀ t ∈ flows, Found t.2) (dir : List Name) (fname : Name)
    (x : Arr Rat × Arr Rat × Arr Rat) (h : convert src flows (fun _ => none) (dir, fname) = some x) (disk : String → Option MatFile) (p : String)
    (hd : disk p = some (packedFile x)) {Key : Type} (split : Key → Key × Key) (perm : Key → Nat → List Nat) (hsq : th = tw ∨ OnGrid th tw x) :
    ∃ j0 j1, Yields (matWorld (diskIO disk io.resizeImage io.resizeFlow) ⟨true, th, tw⟩ split perm) p [⟨x.1, some j0, some j1, some [p]⟩] ∧
      OnGrid th tw (x.1, j0, j1) ∧ (x.2.1.shape.take 2 = [th, tw] → j0 = x.2.1) ∧ (x.2.2.shape.take 2 = [th, tw] → j1 = x.2.2) := by
  obtain ⟨hs, _, _⟩ := C189_grid_partial io hpil th tw hth htw src hsrc hraw.flow flows hg dir fname x h
  obtain ⟨j0, j1, e0, e1, hl⟩ := load_packed io hpil hri th tw hth htw src hsrc hraw flows hg dir fname x h disk p hd
  have same {a j : Arr Rat} (e : matImage (diskIO disk io.resizeImage io.resizeFlow) ⟨true, th, tw⟩ a = .ok j) (ha : a.shape.take 2 = [th, tw]) : j = a := by
    unfold matImage at e
    rw [if_neg (by simpa using ha)] at e
    exact (Except.ok.inj e).symm
  refine ⟨j0, j1, ?_, ⟨by rw [hs]; rfl, ?_, ?_⟩, same e0, same e1⟩
  · have hl' : (matWorld (diskIO disk io.resizeImage io.resizeFlow) ⟨true, th, tw⟩ split perm).load p = .ok ⟨x.1, some j0, some j1, some [p]⟩ := hl
    unfold Yields
    rw [hl']
    refine ⟨fun i hi => ?_, by simp [matWorld, matNext]⟩
    have : i = 0 := by simpa using hi
    subst this
    simp [matWorld, matNext]
  · exact C17_image_shape_partial _ (pil_disk hpil disk) ⟨true, th, tw⟩ _ _ (hsq.imp id (fun g => g.2.1)) e0
  · exact C17_image_shape_partial _ (pil_disk hpil disk) ⟨true, th, tw⟩ _ _ (hsq.imp id (fun g => g.2.2)) e1

/-- **C195 is false** for every raw dataset with images of another size and every target shape that is not square: the sample is delivered with the packed flow and an image with height
and width exchanged. -/
theorem C195_refuted (io : MatIO) (hpil : PilOK io) (hri : ImagesOK io.resizeImage) (th tw : Nat) (hth : 0 < th) (htw : 0 < tw) (src : Src (Arr Rat) (Arr Rat))
    (hsrc : src.resize = Scripts.packFlow io th tw) (hraw : Raw src) (flows : List (List Name × Name)) (hg : ∀ t ∈ flows, Found t.2) (dir : List Name) (fname : Name)
    (x : Arr Rat × Arr Rat × Arr Rat) (h : convert src flows (fun _ => none) (dir, fname) = some x) (disk : String → Option MatFile) (p : String)
    (hd : disk p = some (packedFile x)) (hns : th ≠ tw) (hoff : x.2.1.shape.take 2 ≠ [th, tw]) :
    ∃ j0 j1, matLoad (diskIO disk io.resizeImage io.resizeFlow) ⟨true, th, tw⟩ p = .ok ⟨x.1, some j0, some j1, some [p]⟩ ∧
      x.1.shape = [th, tw, 2] ∧ j0.shape.take 2 = [tw, th] ∧ ¬ OnGrid th tw (x.1, j0, j1) := by
  obtain ⟨hs, _, _⟩ := C189_grid_partial io hpil th tw hth htw src hsrc hraw.flow flows hg dir fname x h
  obtain ⟨j0, j1, e0, e1, hl⟩ := load_packed io hpil hri th tw hth htw src hsrc hraw flows hg dir fname x h disk p hd
  obtain ⟨g1, g2⟩ := C17_refuted _ (pil_disk hpil disk) ⟨true, th, tw⟩ _ _ hns hoff e0
  exact ⟨j0, j1, hl, hs, g1, fun g => g2 g.2.1⟩

/-- The raw dataset of C189's example, packed for 1 x 3 pixels, meets the hypotheses of all three. -/
example : let io := demoMat ⟨[2, 2, 2], [2, 4, 2, 4, 2, 4, 2, 4]⟩
    let src : Src (Arr Rat) (Arr Rat) := { gridSrc with resize := Scripts.packFlow io 1 3 }
    PilOK io ∧ ImagesOK io.resizeImage ∧ Raw src ∧
      ∃ x, convert src [([], "a_flow.flo".toList)] (fun _ => none) ([], "a.mat".toList) = some x ∧ x.2.1.shape.take 2 ≠ [1, 3] := by
  refine ⟨demoMat_ok _, fun a _ _ w h _ _ _ _ _ => ⟨_, rfl⟩, ⟨?_, ?_⟩, _, by rfl, by decide +kernel⟩
  · intro dir n f h
    simp only [gridSrc] at h
    split at h
    · simp only [Except.ok.injEq] at h
      subst h
      exact ⟨by unfold Arr.WF; rfl, 2, 2, rfl⟩
    · simp at h
  · intro dir n a h
    simp only [gridSrc] at h
    split at h
    · cases h; exact ⟨2, 2, by omega, by omega, rfl⟩
    · split at h
      · cases h; exact ⟨2, 2, by omega, by omega, rfl⟩
      · cases h

end Verif.Convert
