import Verif.Proofs.Formats
import Verif.Proofs.BaseMore
import Verif.Spec.BaseDemo
/-!
# Properties C13 - C19 of the file formats
-/

namespace Verif.Formats
open Verif Base
variable {V Key : Type}

/-! ## C13, C14: HDF5 -/

/-- C13: a file whose first dataset has shape `(X, Y, Z, C)` contributes to the stream of the scheduler exactly `Y`
samples; the `y`-th has shape `(X, Z, C)`, the entries `volume[x, y, z, c]`, no images and the file's own name. -/
theorem C13_one_sample_per_y (files : String → H5File V) (split : Key → Key × Key) (perm : Key → Nat → List Nat)
    (p name : String) (vol : Arr V) (others : List (String × Option (Arr V)))
    (hfile : files p = .ok ((name, some vol) :: others)) (X Y Z C : Nat) (hs : vol.shape = [X, Y, Z, C]) (hw : vol.WF) :
    ∃ l : List (Sample V), Yields (h5World files split perm) p l ∧ l.length = Y ∧
      ∀ y (hy : y < l.length), l[y].flow.shape = [X, Z, C] ∧ l[y].images1 = none ∧ l[y].images2 = none ∧
        l[y].files = some [p] ∧
        ∀ x z c, x < X → z < Z → c < C →
          l[y].flow.at? [x, z, c] = vol.at? [x, y, z, c] ∧ (vol.at? [x, y, z, c]).isSome := by
  have hload : (h5World files split perm).load p = .ok vol := by simp [h5World, h5Load, hfile]
  have hsl : ∀ y, y < Y → ∃ f, h5Slice vol y = .ok f ∧ f.shape = [X, Z, C] ∧ f.WF ∧
      ∀ x z c, x < X → z < Z → c < C → f.at? [x, z, c] = vol.at? [x, y, z, c] := fun y hy => h5Slice_spec hs hw hy
  let l : List (Sample V) := List.ofFn (fun y : Fin Y => ⟨(hsl y.1 y.2).choose, none, none, some [p]⟩)
  have hget : ∀ y (hy : y < Y) (h : y < l.length), l[y] = ⟨(hsl y hy).choose, none, none, some [p]⟩ := by
    intro y hy h; simp [l]
  have hlen : l.length = Y := by simp [l]
  refine ⟨l, ?_, hlen, ?_⟩
  · unfold Yields
    rw [hload]
    refine ⟨fun i hi => ?_, ?_⟩
    · have hi' : i < Y := hlen ▸ hi
      obtain ⟨h1, _⟩ := (hsl i hi').choose_spec
      rw [hget i hi' hi]
      simp only [h5World, h5Next, hs, List.getElem?_cons_succ, List.getElem?_cons_zero]
      rw [if_neg (by omega)]
      generalize (hsl i hi').choose = f at h1 ⊢
      rw [h1]
    · simp [h5World, h5Next, hs, hlen]
  · intro y hy
    have hy' : y < Y := hlen ▸ hy
    obtain ⟨_, h2, _, h4⟩ := (hsl y hy').choose_spec
    rw [hget y hy' hy]
    refine ⟨h2, rfl, rfl, rfl, ?_⟩
    intro x z c hx hz hc
    exact ⟨h4 x z c hx hz hc, Arr.at_isSome hw _ (by rw [hs]; exact Arr.offset4 hx hy' hz hc)⟩

/-- The hypotheses of C13 are met: a volume of shape (2, 2, 1, 2); its slice at `y = 1` holds the third, fourth,
seventh and eighth entry. -/
example : ∃ vol : Arr Nat, vol.shape = [2, 2, 1, 2] ∧ vol.WF ∧
    h5Next "f.h5" vol 1 = .ok ⟨⟨[2, 1, 2], [3, 4, 7, 8]⟩, none, none, some ["f.h5"]⟩ ∧ h5Next "f.h5" vol 2 = .ended :=
  ⟨⟨[2, 2, 1, 2], [1, 2, 3, 4, 5, 6, 7, 8]⟩, rfl, rfl, rfl, rfl⟩

/-- C13, other files: a file that cannot be opened, is empty or begins with something else than a dataset contributes
nothing, whatever follows in it. -/
theorem C13_other_files (files : String → H5File V) (split : Key → Key × Key) (perm : Key → Nat → List Nat) (p : String)
    (hfile : ∀ items, files p = .ok items → ∀ q ∈ items.head?, q.2 = none) : Yields (h5World files split perm) p [] := by
  unfold Yields
  cases hf : files p with
  | error e => simp [h5World, h5Load, hf]
  | ok items =>
    cases items with
    | nil => simp [h5World, h5Load, hf]
    | cons q l =>
      obtain ⟨n, o⟩ := q
      have : o = none := hfile _ hf (n, o) (by simp)
      subst this
      simp [h5World, h5Load, hf]

/-- A file whose first item is a group, followed by a dataset, contributes nothing. -/
example (split : Key → Key × Key) (perm : Key → Nat → List Nat) :
    Yields (h5World (fun _ => .ok [("a", none), ("b", some (⟨[1, 1, 1, 2], [1, 2]⟩ : Arr Nat))]) split perm) "f.h5" [] :=
  C13_other_files _ split perm "f.h5" (by intro items h q hq; simp at h; subst h; simp at hq; simp [← hq])

/-- C14 for volumes with two channels: the advertised shape is that of every delivered slice. Missing: any other
number of channels, for which it is false (`C14_refuted`). -/
theorem C14_shape_two_channels_partial (file : H5File V) (vol : Arr V) (hload : h5Load file = .ok vol) (X Y Z : Nat)
    (hs : vol.shape = [X, Y, Z, 2]) (p : String) (y : Nat) (x : Sample V) (h : h5Next p vol y = .ok x) :
    h5Shape file = .ok x.flow.shape := by
  have : x.flow.shape = [X, Z, 2] := by
    unfold h5Next at h
    simp only [hs, List.getElem?_cons_succ, List.getElem?_cons_zero] at h
    split at h
    · simp at h
    · simp only [h5Slice, hs, SliceRes.ok.injEq] at h
      rw [← h]
  simp [h5Shape, hload, hs, this]

example : ∃ x, h5Next "f.h5" (⟨[1, 1, 1, 2], [5, 6]⟩ : Arr Nat) 0 = .ok x ∧
    h5Shape (.ok [("u", some (⟨[1, 1, 1, 2], [5, 6]⟩ : Arr Nat))]) = .ok x.flow.shape := ⟨_, rfl, rfl⟩

/-- C14 is false: for every volume with `C ≠ 2` channels (for instance the documented three) no delivered slice has
the advertised shape. -/
theorem C14_refuted (file : H5File V) (vol : Arr V) (hload : h5Load file = .ok vol) (X Y Z C : Nat)
    (hs : vol.shape = [X, Y, Z, C]) (hC : C ≠ 2) (p : String) (y : Nat) (hy : y < Y) :
    ∃ x sh, h5Next p vol y = .ok x ∧ h5Shape file = .ok sh ∧ x.flow.shape ≠ sh := by
  have hy' : ¬ Y ≤ y := by omega
  obtain ⟨f, hf, hfs⟩ : ∃ f, h5Slice vol y = .ok f ∧ f.shape = [X, Z, C] := by
    simp [h5Slice, hs]
  refine ⟨⟨f, none, none, some [p]⟩, [X, Z, 2], ?_, by simp [h5Shape, hload, hs], ?_⟩
  · simp [h5Next, hs, hf, hy']
  · simpa [hfs] using hC

/-! ## C15, C16, C17: MAT -/

/-- The contract of Pillow's `resize`: resampling a two-dimensional array to `(w, h)`, both positive, succeeds and gives `h`
rows of `w` entries; resampling an image to `(w, h)` gives an image with `h` rows and `w` columns. -/
structure PilOK (io : MatIO) : Prop where
  flow : ∀ (a : Arr Rat) (h0 w0 w h : Nat), a.shape = [h0, w0] → 0 < h0 → 0 < w0 → 0 < w → 0 < h →
    ∃ r, io.resizeFlow a w h = .ok r ∧ r.shape = [h, w] ∧ r.WF
  image : ∀ (a r : Arr Rat) (w h : Nat), io.resizeImage a w h = .ok r → r.shape.take 2 = [h, w]

/-- Loading succeeds only by way of the flow conversion. -/
theorem matLoad_flow {io : MatIO} {c : MatCfg} {p : String} {data : List (String × Arr Rat)} {v : Arr Rat} {x : Sample Rat}
    (hread : matRead io p = .ok data) (hV : data.lookup "V" = some v) (h : matLoad io c p = .ok x) :
    matFlow io c v = .ok x.flow := by
  unfold matLoad at h
  rw [hread] at h
  simp only [hV] at h
  split at h
  · split at h
    · split at h
      · split at h
        · rename_i hf
          simp only [Except.ok.injEq] at h
          rw [hf, ← h]
        · simp at h
      · simp at h
      · simp at h
    · simp at h
  · split at h
    · rename_i hf
      simp only [Except.ok.injEq] at h
      rw [hf, ← h]
    · simp at h

theorem matFlow_resized {io : MatIO} (hpil : PilOK io) {c : MatCfg} {flow : Arr Rat} {h w k : Nat} (hw : flow.WF)
    (hs : flow.shape = [h, w, k]) (hk : 2 ≤ k) (hh : 0 < h) (hww : 0 < w) (hH : 0 < c.height) (hW : 0 < c.width) :
    ∃ u v t, io.resizeFlow (channel flow 0) c.width c.height = .ok u ∧ io.resizeFlow (channel flow 1) c.width c.height = .ok v ∧
      stackScaled u v ((c.width : Rat) / w) ((c.height : Rat) / h) = .ok t ∧ t.shape = [c.height, c.width, 2] ∧
      ∀ y x, y < c.height → x < c.width →
        t.at? [y, x, 0] = (u.at? [y, x]).map (· * ((c.width : Rat) / w)) ∧
        t.at? [y, x, 1] = (v.at? [y, x]).map (· * ((c.height : Rat) / h)) := by
  obtain ⟨s0, _, _⟩ := channel_spec hs hw (show 0 < k by omega)
  obtain ⟨s1, _, _⟩ := channel_spec hs hw (show 1 < k by omega)
  obtain ⟨u, hu, hus, huw⟩ := hpil.flow _ _ _ c.width c.height s0 hh hww hW hH
  obtain ⟨v, hv, hvs, hvw⟩ := hpil.flow _ _ _ c.width c.height s1 hh hww hW hH
  obtain ⟨t, ht, hts, _, hta⟩ := stackScaled_spec ((c.width : Rat) / w) ((c.height : Rat) / h) hus hvs huw hvw
  exact ⟨u, v, t, hu, hv, ht, hts, hta⟩

/-- C15 for stored arrays with at most three axes. (1) Whatever is loaded has shape `(H, W, 2)`. (2) Without resizing,
`(H, W, 2)` arrays are returned as stored. (3) Without resizing, `(2, H, W)` arrays (with `W ≠ 2`, otherwise they
are read as the first layout) are returned with `[y, x, c]` taken from `[c, y, x]`. (4) Every other layout is
rejected. Missing: arrays with four or more axes, which can be accepted (`C15_refuted`). -/
theorem C15_layout_partial (io : MatIO) (hpil : PilOK io) (c : MatCfg) (hH : 0 < c.height) (hW : 0 < c.width) (p : String) (data : List (String × Arr Rat))
    (v : Arr Rat) (hread : matRead io p = .ok data) (hV : data.lookup "V" = some v) (hw : v.WF) (hax : v.shape.length ≤ 3) :
    (∀ x, matLoad io c p = .ok x → x.flow.shape = matShape c) ∧
    (v.shape = [c.height, c.width, 2] → ∀ x, matLoad io c p = .ok x → x.flow = v) ∧
    (v.shape = [2, c.height, c.width] → c.width ≠ 2 → ∀ x, matLoad io c p = .ok x →
      ∀ y i k, y < c.height → i < c.width → k < 2 → x.flow.at? [y, i, k] = v.at? [k, y, i]) ∧
    ((¬ ∃ h w, v.shape = [h, w, 2] ∨ v.shape = [2, h, w]) → ∃ e, matLoad io c p = .error e) := by
  have hrej : (¬ ∃ h w, v.shape = [h, w, 2] ∨ v.shape = [2, h, w]) → ∃ e, matFlow io c v = .error e := by
    intro hno
    match hvs : v.shape with
    | [] | [_] | [_, _] => exact ⟨.indexError, by simp [matFlow, hvs]⟩
    | [a, b, k] =>
      have h1 : k ≠ 2 := fun h => hno ⟨a, b, .inl (by rw [hvs, h])⟩
      have h2 : a ≠ 2 := fun h => hno ⟨b, k, .inr (by rw [hvs, h])⟩
      exact ⟨.assertionError, by simp [matFlow, hvs, h1, h2]⟩
    | a :: b :: k :: d :: l => rw [hvs] at hax; simp at hax
  have hshape : ∀ f, matFlow io c v = .ok f → f.shape = matShape c := by
    intro f hf
    by_cases hno : ∃ h w, v.shape = [h, w, 2] ∨ v.shape = [2, h, w]
    swap
    · obtain ⟨e, he⟩ := hrej hno
      rw [he] at hf; simp at hf
    have key : ∀ (flow : Arr Rat) h w, flow.WF → flow.shape = [h, w, 2] →
        matFit io c flow = Except.ok f → f.shape = matShape c := by
      intro flow h w hfw hfs hok
      unfold matFit at hok
      by_cases hsz : flow.shape.take 2 = [c.height, c.width]
      · rw [if_pos hsz] at hok
        simp only [Except.ok.injEq] at hok
        rw [← hok]
        simp only [hfs, List.take_succ_cons, List.take_zero, List.cons.injEq, and_true] at hsz
        rw [hfs, hsz.1, hsz.2]; rfl
      · rw [if_neg hsz] at hok
        simp only [hfs] at hok
        split at hok
        · simp at hok
        · rename_i hpos
          obtain ⟨u, v', t, hu, hv', ht, hts, _⟩ := matFlow_resized (c := c) hpil hfw hfs (le_refl 2) (by omega) (by omega) hH hW
          rw [hu, hv'] at hok
          simp only [ht, Except.ok.injEq] at hok
          rw [← hok, hts]; rfl
    obtain ⟨h, w, hs | hs⟩ := hno
    · unfold matFlow at hf
      simp only [hs, List.getElem?_cons_succ, List.getElem?_cons_zero, true_or, if_true] at hf
      exact key v h w hw hs hf
    · unfold matFlow at hf
      simp only [hs, List.getElem?_cons_succ, List.getElem?_cons_zero, or_true, if_true] at hf
      by_cases hw2 : w = 2
      · simp only [if_pos hw2] at hf
        subst hw2
        exact key v 2 h hw hs hf
      · simp only [if_neg hw2] at hf
        obtain ⟨t, ht, hts, htw, _⟩ := transpose120_spec hs hw
        rw [ht] at hf
        exact key t h w htw hts hf
  refine ⟨fun x hx => hshape _ (matLoad_flow hread hV hx), ?_, ?_, ?_⟩
  · intro hs x hx
    have hf := matLoad_flow hread hV hx
    simp only [matFlow, matFit, hs, List.getElem?_cons_succ, List.getElem?_cons_zero, true_or, if_true, List.take_succ_cons,
      List.take_zero, Except.ok.injEq] at hf
    exact hf.symm
  · intro hs hw2 x hx y i k hy hi hk
    have hf := matLoad_flow hread hV hx
    obtain ⟨t, ht, hts, htw, hta⟩ := transpose120_spec hs hw
    simp only [matFlow, matFit, hs, List.getElem?_cons_succ, List.getElem?_cons_zero, or_true, if_true, if_neg hw2, ht, hts,
      List.take_succ_cons, List.take_zero, Except.ok.injEq] at hf
    rw [← hf]
    exact hta k y i hk hy hi
  · intro hno
    obtain ⟨e, he⟩ := hrej hno
    cases hm : matLoad io c p with
    | error e => exact ⟨e, rfl⟩
    | ok x =>
      have := matLoad_flow hread hV hm
      rw [he] at this; simp at this

/-- A store with one MAT file, and a Pillow that fills with ones. -/
def demoMat (v : Arr Rat) : MatIO where
  scipy _ := .ok [("I0", ⟨[2, 2], [1, 2, 3, 4]⟩), ("I1", ⟨[2, 2], [5, 6, 7, 8]⟩), ("V", v)]
  isHdf5 _ := false
  hdf5 _ := .error .valueError
  resizeImage _ w h := .ok (Arr.zeros 1 [h, w])
  resizeFlow _ w h := .ok (Arr.zeros 1 [h, w])

theorem demoMat_ok (v : Arr Rat) : PilOK (demoMat v) where
  flow _ _ _ w h _ _ _ _ _ := ⟨_, rfl, rfl, by simp [Arr.WF, Arr.zeros, List.length_replicate]⟩
  image a r w h hr := by
    simp only [demoMat, Except.ok.injEq] at hr
    rw [← hr]; rfl

/-- The hypotheses of C15 are met by a `(2, 1, 3)` array, which becomes `(1, 3, 2)`. -/
example : ∃ x, matLoad (demoMat ⟨[2, 1, 3], [1, 2, 3, 4, 5, 6]⟩) ⟨false, 1, 3⟩ "m" = .ok x ∧
    x.flow = ⟨[1, 3, 2], [1, 4, 2, 5, 3, 6]⟩ := ⟨_, rfl, rfl⟩

/-- C15 is false for arrays with four axes: one of shape `(H, W, 2, 1)` is accepted as it is. -/
theorem C15_refuted : ∃ x, matLoad (demoMat ⟨[1, 1, 2, 1], [7, 8]⟩) ⟨false, 1, 1⟩ "m" = .ok x ∧
    x.flow.shape = [1, 1, 2, 1] ∧ x.flow.shape ≠ matShape ⟨false, 1, 1⟩ := ⟨_, rfl, rfl, by decide⟩

/-- C16: if the stored flow is an `(h, w, 2)` array of another size than `output_shape = (H, W)`, the loaded flow has
at `[y, x]` the resampled `u` times `W / w` and the resampled `v` times `H / h`, where resampling is to `W` columns
and `H` rows. -/
theorem C16_resize_scales (io : MatIO) (hpil : PilOK io) (c : MatCfg) (hH : 0 < c.height) (hW : 0 < c.width) (p : String) (data : List (String × Arr Rat))
    (v : Arr Rat) (hread : matRead io p = .ok data) (hV : data.lookup "V" = some v) (hw : v.WF) (h w : Nat)
    (hs : v.shape = [h, w, 2]) (hh : 0 < h) (hww : 0 < w) (hne : (h, w) ≠ (c.height, c.width))
    (x : Sample Rat) (hx : matLoad io c p = .ok x) :
    ∃ us vs ru rv,
      -- the stored components
      us.shape = [h, w] ∧ vs.shape = [h, w] ∧
      (∀ y i, y < h → i < w → us.at? [y, i] = v.at? [y, i, 0] ∧ vs.at? [y, i] = v.at? [y, i, 1]) ∧
      -- resampled to the new size
      io.resizeFlow us c.width c.height = .ok ru ∧ io.resizeFlow vs c.width c.height = .ok rv ∧
      -- and scaled
      ∀ y i, y < c.height → i < c.width →
        x.flow.at? [y, i, 0] = (ru.at? [y, i]).map (· * ((c.width : Rat) / w)) ∧
        x.flow.at? [y, i, 1] = (rv.at? [y, i]).map (· * ((c.height : Rat) / h)) := by
  have hf := matLoad_flow hread hV hx
  obtain ⟨s0, _, a0⟩ := channel_spec hs hw (show 0 < 2 by omega)
  obtain ⟨s1, _, a1⟩ := channel_spec hs hw (show 1 < 2 by omega)
  obtain ⟨u, v', t, hu, hv', ht, _, hta⟩ := matFlow_resized (c := c) hpil hw hs (le_refl 2) hh hww hH hW
  have hsz : v.shape.take 2 ≠ [c.height, c.width] := by
    rw [hs]
    intro he
    simp only [List.take_succ_cons, List.take_zero, List.cons.injEq, and_true] at he
    exact hne (by rw [he.1, he.2])
  have hz : ¬ (h = 0 ∨ w = 0) := by omega
  unfold matFlow at hf
  simp only [hs, List.getElem?_cons_succ, List.getElem?_cons_zero, true_or, if_true] at hf
  unfold matFit at hf
  rw [if_neg hsz] at hf
  simp only [hs] at hf
  rw [if_neg hz, hu, hv'] at hf
  simp only [ht, Except.ok.injEq] at hf
  rw [← hf]
  exact ⟨channel v 0, channel v 1, u, v', s0, s1, fun y i hy hi => ⟨a0 y i hy hi, a1 y i hy hi⟩, hu, hv', hta⟩

/-- The hypotheses of C16 are met: a 2x1 flow loaded as 1x3; `u` is scaled by 3 and `v` by 1/2. -/
example : ∃ x, matLoad (demoMat ⟨[2, 1, 2], [1, 2, 3, 4]⟩) ⟨false, 1, 3⟩ "m" = .ok x ∧
    x.flow = ⟨[1, 3, 2], [3, 1/2, 3, 1/2, 3, 1/2]⟩ := by
  refine ⟨_, rfl, ?_⟩
  decide +kernel

/-- C17 for square output shapes, and for images that already have the requested size. Missing: resizing to a
non-square shape, for which it is false (`C17_refuted`). -/
theorem C17_image_shape_partial (io : MatIO) (hpil : PilOK io) (c : MatCfg) (img r : Arr Rat)
    (hsq : c.height = c.width ∨ img.shape.take 2 = [c.height, c.width]) (h : matImage io c img = .ok r) :
    r.shape.take 2 = [c.height, c.width] := by
  unfold matImage at h
  split at h
  · rename_i hne
    rcases hsq with hsq | hsq
    · rw [hpil.image _ _ _ _ h, hsq]
    · exact absurd hsq hne
  · rename_i he
    simp only [Except.ok.injEq] at h
    rw [← h]
    simpa using he

example : ∃ r, matImage (demoMat ⟨[], []⟩) ⟨true, 3, 3⟩ ⟨[2, 2], [1, 2, 3, 4]⟩ = .ok r ∧ r.shape = [3, 3] := ⟨_, rfl, rfl⟩

/-- C17 is false whenever an image is resized to a non-square shape: it comes back with height and width exchanged. -/
theorem C17_refuted (io : MatIO) (hpil : PilOK io) (c : MatCfg) (img r : Arr Rat) (hns : c.height ≠ c.width)
    (hne : img.shape.take 2 ≠ [c.height, c.width]) (h : matImage io c img = .ok r) :
    r.shape.take 2 = [c.width, c.height] ∧ r.shape.take 2 ≠ [c.height, c.width] := by
  unfold matImage at h
  rw [if_pos hne] at h
  have := hpil.image _ _ _ _ h
  refine ⟨this, ?_⟩
  rw [this]
  intro he
  simp only [List.cons.injEq, and_true] at he
  exact hns he.2

example : ∃ r, matImage (demoMat ⟨[], []⟩) ⟨true, 3, 5⟩ ⟨[2, 2], [1, 2, 3, 4]⟩ = .ok r ∧ r.shape = [5, 3] := ⟨_, rfl, rfl⟩

/-! ## C18: NumPy -/

/-- C18: for a flow file `d/flow_<digits>.npy`, with any spelling of the number `t` (leading zeros included), the two
frames are `d/img_<t-1>.jpg` and `d/img_<t>.jpg`; hence the files for `t` and `t + 1` share a frame; and any other
file name is rejected. -/
theorem C18_frames_of_flow (d ds : List Char) (hd : d ≠ []) (hlast : d.getLast? ≠ some '/') (hne : ds ≠ [])
    (hds : ∀ c ∈ ds, isDigit c = true) :
    framePaths (d ++ '/' :: ("flow_".toList ++ ds ++ ".npy".toList)) =
      some (d ++ '/' :: ("img_".toList ++ renderInt ((digitsValue ds : Int) - 1) ++ ".jpg".toList),
        d ++ '/' :: ("img_".toList ++ renderInt (digitsValue ds) ++ ".jpg".toList)) := by
  have hns : '/' ∉ "flow_".toList ++ ds ++ ".npy".toList := by
    have h1 : '/' ∉ "flow_".toList := by decide
    have h2 : '/' ∉ ".npy".toList := by decide
    have h3 : '/' ∉ ds := fun h => by have := hds _ h; revert this; decide
    simp only [List.mem_append, not_or]
    exact ⟨⟨h1, h3⟩, h2⟩
  obtain ⟨h1, h2⟩ := dirname_plain hns hd hlast
  unfold framePaths
  rw [h1, h2, (parseFlowName_iff _ _).mpr ⟨ds, hne, hds, rfl, rfl⟩]
  simp [imgPath, joinPath, hd, hlast]

/-- C18 without a directory and in the root directory: the frames of `flow_<digits>.npy` are in the working directory, those
of `/flow_<digits>.npy` in the root. -/
theorem C18_frames_no_folder (root : Bool) (ds : List Char) (hne : ds ≠ []) (hds : ∀ c ∈ ds, isDigit c = true) :
    let d := if root then ['/'] else []
    framePaths (d ++ ("flow_".toList ++ ds ++ ".npy".toList)) =
      some (d ++ ("img_".toList ++ renderInt ((digitsValue ds : Int) - 1) ++ ".jpg".toList),
        d ++ ("img_".toList ++ renderInt (digitsValue ds) ++ ".jpg".toList)) := by
  have hns : '/' ∉ "flow_".toList ++ ds ++ ".npy".toList := by
    have h1 : '/' ∉ "flow_".toList := by decide
    have h2 : '/' ∉ ".npy".toList := by decide
    have h3 : '/' ∉ ds := fun h => by have := hds _ h; revert this; decide
    simp only [List.mem_append, not_or]
    exact ⟨⟨h1, h3⟩, h2⟩
  have hp := (parseFlowName_iff ("flow_".toList ++ ds ++ ".npy".toList) (digitsValue ds)).mpr ⟨ds, hne, hds, rfl, rfl⟩
  cases root with
  | false =>
    have hs := splitLast_noslash hns
    intro d
    show framePaths ("flow_".toList ++ ds ++ ".npy".toList) = _
    unfold framePaths basename dirname
    rw [hs, hp]
    simp [imgPath, joinPath, d]
  | true =>
    have hs := splitLast_slash [] hns
    intro d
    show framePaths ([] ++ '/' :: ("flow_".toList ++ ds ++ ".npy".toList)) = _
    unfold framePaths basename dirname
    rw [hs, hp]
    simp [imgPath, joinPath, d]

/-- C18, continued: the second frame of number `t` is the first frame of number `t + 1`, whatever the spellings. -/
theorem C18_consecutive_share_frame (d ds ds' : List Char) (hd : d ≠ []) (hlast : d.getLast? ≠ some '/') (hne : ds ≠ [])
    (hne' : ds' ≠ []) (hds : ∀ c ∈ ds, isDigit c = true) (hds' : ∀ c ∈ ds', isDigit c = true)
    (ht : digitsValue ds' = digitsValue ds + 1) :
    ∃ a b c, framePaths (d ++ '/' :: ("flow_".toList ++ ds ++ ".npy".toList)) = some (a, b) ∧
      framePaths (d ++ '/' :: ("flow_".toList ++ ds' ++ ".npy".toList)) = some (b, c) := by
  have h2 := C18_frames_of_flow d ds' hd hlast hne' hds'
  rw [ht, show ((digitsValue ds + 1 : Nat) : Int) - 1 = digitsValue ds by omega] at h2
  exact ⟨_, _, _, C18_frames_of_flow d ds hd hlast hne hds, h2⟩

/-- C18, continued: a file is accepted iff its base name is `flow_<digits>.npy`. -/
theorem C18_other_names_rejected (p : List Char) :
    (framePaths p).isSome ↔ ∃ ds, ds ≠ [] ∧ (∀ c ∈ ds, isDigit c = true) ∧
      basename p = "flow_".toList ++ ds ++ ".npy".toList := by
  unfold framePaths
  cases h : parseFlowName (basename p) with
  | none =>
    simp only [Option.isSome_none, Bool.false_eq_true, false_iff]
    rintro ⟨ds, h1, h2, h3⟩
    rw [(parseFlowName_iff _ _).mpr ⟨ds, h1, h2, h3, rfl⟩] at h
    simp at h
  | some t =>
    simp only [Option.isSome_some, true_iff]
    obtain ⟨ds, h1, h2, h3, _⟩ := (parseFlowName_iff _ _).mp h
    exact ⟨ds, h1, h2, h3⟩

/-- The decimal spelling used for the image names denotes the number it is made from, so that the two frames of a
number are those of no other number. -/
theorem C18_spelling_faithful (n : Nat) : digitsValue (renderInt n) = n ∧ renderInt n ≠ [] ∧
    ∀ c ∈ renderInt n, isDigit c = true :=
  ⟨(natDigits_spec n).2.2, (natDigits_spec n).1, (natDigits_spec n).2.1⟩

example : framePaths "d/e/flow_010.npy".toList = some ("d/e/img_9.jpg".toList, "d/e/img_10.jpg".toList) := by
  have := C18_frames_of_flow "d/e".toList "010".toList (by decide) (by decide) (by decide) (by decide)
  refine Eq.trans (Eq.trans ?_ this) ?_
  · rfl
  · have h9 : renderInt 9 = "9".toList := by simp [renderInt, natDigits]
    have h10 : renderInt 10 = "10".toList := by simp [renderInt, natDigits]
    have hv : digitsValue "010".toList = 10 := by decide
    rw [hv]
    show some (_ ++ '/' :: ("img_".toList ++ renderInt 9 ++ _), _ ++ '/' :: ("img_".toList ++ renderInt 10 ++ _)) = _
    rw [h9, h10]
    rfl

/-- C18 for what is delivered: with images requested, a readable file yields exactly one sample, whose first image is
the picture at the first path, whose second image is the picture at the second path, and whose flow is the array. -/
theorem C18_sample_pairs_frames (io : NpIO V) (split : Key → Key × Key) (perm : Key → Nat → List Nat) (p : String)
    (a im1 im2 : Arr V) (q r : List Char) (hp : framePaths p.toList = some (q, r)) (ha : io.npy p = .ok a)
    (h1 : io.rgb (String.ofList q) = .ok im1) (h2 : io.rgb (String.ofList r) = .ok im2) :
    Yields (npWorld io true split perm) p [⟨a, some im1, some im2, some [p]⟩] := by
  have hload : (npWorld io true split perm).load p = .ok a := ha
  unfold Yields
  rw [hload]
  refine ⟨fun i hi => ?_, ?_⟩
  · have : i = 0 := by simpa using hi
    subst this
    simp [npWorld, npNext, hp, h1, h2]
  · simp [npWorld, npNext]

/-- C18 for the constructor: with images requested it accepts a list of files iff every file name has the right form
and both frames of every file exist. -/
theorem C18_constructor_checks_frames (isFile : List Char → Bool) (files : List (List Char)) :
    npCheckImages isFile files = .ok () ↔
      ∀ p ∈ files, ∃ q r, framePaths p = some (q, r) ∧ isFile q = true ∧ isFile r = true := by
  induction files with
  | nil => simp [npCheckImages]
  | cons p l ih =>
    rw [List.forall_mem_cons, ← ih, npCheckImages]
    cases hp : framePaths p with
    | none => simp
    | some qr =>
      obtain ⟨q, r⟩ := qr
      simp only [Option.some.injEq, Prod.mk.injEq]
      constructor
      · intro h
        split at h
        · rename_i hh
          rw [Bool.and_eq_true] at hh
          exact ⟨⟨q, r, ⟨rfl, rfl⟩, hh⟩, h⟩
        · simp at h
      · rintro ⟨⟨q', r', ⟨rfl, rfl⟩, hq, hr⟩, h⟩
        simp [hq, hr, h]

example : npCheckImages (fun _ => true) ["d/flow_1.npy".toList, "d/flow_007.npy".toList] = .ok () ∧
    npCheckImages (fun _ => true) ["d/flow_x.npy".toList] = .error .valueError := by
  refine ⟨(C18_constructor_checks_frames _ _).mpr ?_, rfl⟩
  intro p hp
  have : (framePaths p).isSome := (C18_other_names_rejected p).mpr (by
    rcases List.mem_cons.mp hp with rfl | hp
    · exact ⟨"1".toList, by decide, by decide, rfl⟩
    · rw [List.mem_singleton] at hp; subst hp; exact ⟨"007".toList, by decide, by decide, rfl⟩)
  obtain ⟨⟨q, r⟩, hqr⟩ := Option.isSome_iff_exists.mp this
  exact ⟨q, r, hqr, rfl, rfl⟩

/-! ## C19: the final batch with images -/

/-- C19 for images with two axes (and for samples without images): if the scheduler has at least one sample left, a
request for any larger number is answered with a batch showing the remaining samples. Missing: images with
colour channels, for which it is false (`C19_refuted`). -/
theorem C19_final_batch_partial {D : Type} (zero : V) (w : World V D Key) (cfg : Cfg) (fuel n : Nat) (s s' : St D Key)
    (xs : List (Sample V)) (hloop : cfg.loop = false) (hc : collect w cfg fuel n s = some (.ok xs, s')) (hx : xs ≠ [])
    {fsh : List Nat} {o1 o2 : Option (List Nat)} {named : Bool} (hu : Uniform xs fsh o1 o2 named) :
    ∃ b, getBatch zero w cfg fuel n s = some (.ok b, s') ∧ Shows zero xs n b := by
  obtain ⟨b, hb, hs, _⟩ := assemble_uniform zero cfg hx (collect_length n fuel s hc) (by simp [hloop]) hu
  refine ⟨b, ?_, hs⟩
  have : xs.isEmpty = false := by simpa using hx
  simp [getBatch, hc, this, hb]

/-- A file with one flow field and two images with the given axes. -/
def demoImages (sh : List Nat) : World Nat Unit KeyTerm where
  load _ := .ok ()
  slice _ _ i := if i = 0 then .ok ⟨⟨[1, 1, 2], [1, 2]⟩, some (Arr.zeros 9 sh), some (Arr.zeros 8 sh), some ["p"]⟩ else .ended
  split := KeyTerm.split2
  perm _ n := List.range n

/-- Grey-value images (two axes): the final batch of two is delivered with one blank row. -/
example : ∃ b s', getBatch 0 (demoImages [1, 1]) ⟨false, false⟩ 3 2 (init (demoImages [1, 1]) ⟨false, false⟩ ["p"] (.seed 0)) =
    some (.ok b, s') ∧ b.mask = [true, false] ∧ b.images1 = some ⟨[2, 1, 1], [9, 0]⟩ := ⟨_, _, rfl, rfl, rfl⟩

/-- C19 is false for the images of the NumPy scheduler, which have three axes (RGB): the full batch of one is
delivered, the padded batch of two from the same state fails. -/
theorem C19_refuted :
    (∃ b s', getBatch 0 (demoImages [1, 1, 3]) ⟨false, false⟩ 3 1 (init (demoImages [1, 1, 3]) ⟨false, false⟩ ["p"] (.seed 0)) =
      some (.ok b, s')) ∧
    (∃ s', getBatch 0 (demoImages [1, 1, 3]) ⟨false, false⟩ 3 2 (init (demoImages [1, 1, 3]) ⟨false, false⟩ ["p"] (.seed 0)) =
      some (.error .valueError, s')) := ⟨⟨_, _, rfl⟩, ⟨_, rfl⟩⟩

end Verif.Formats
