import Verif.Model.FormatInit
import Verif.Props.Base
import Verif.Props.Formats
/-!
# Properties C86, C87, C88: constructors of the formats, one sample per file, order of a directory
-/

namespace Verif.FormatInit
open Verif BaseInit

/-! ## C86 -/

/-- C86 for the MAT scheduler: exactly when the arguments are valid, the constructor succeeds, with the expanded list, all of
whose files end in `.mat`; otherwise it raises `ValueError`. -/
theorem C86_mat_constructor (fs : FS) (fileList randomize loop includeImages : Val) (outputShape : ShapeVal) :
    (∀ fl r lp, mat fs fileList randomize loop includeImages outputShape = .ok (fl, r, lp) ↔
      (∃ b, includeImages = .bool b) ∧ (∃ h w : Int, outputShape = .tuple [some h, some w] ∧ 0 < h ∧ 0 < w) ∧
      randomize = .bool r ∧ loop = .bool lp ∧
      ∃ l : List String, fileList = .list (l.map some) ∧ Expands fs l fl ∧ fl ≠ [] ∧
        ∀ p ∈ fl, fs.isFile p = true ∧ p.endsWith ".mat" = true) ∧
    (∀ e, mat fs fileList randomize loop includeImages outputShape = .error e → e = .valueError) := by
  have hc := C10_constructor_accepts fs fileList randomize loop
  have hshape : shapeOk outputShape = true ↔ ∃ h w : Int, outputShape = .tuple [some h, some w] ∧ 0 < h ∧ 0 < w := by
    constructor
    · intro h
      match outputShape, h with
      | .tuple [some a, some b], h =>
        simp only [shapeOk, Bool.and_eq_true, decide_eq_true_eq] at h
        exact ⟨a, b, rfl, h⟩
    · rintro ⟨h, w, rfl, h1, h2⟩
      simp [shapeOk, h1, h2]
  constructor
  · intro fl r lp
    rw [← hshape]
    constructor
    · intro h
      unfold mat at h
      split at h
      · split at h
        · rename_i b hs
          cases hi : init fs fileList randomize loop with
          | error e => rw [hi] at h; simp at h
          | ok q =>
            rw [hi] at h
            simp only at h
            split at h
            · rename_i hall
              simp only [Except.ok.injEq] at h
              subst h
              obtain ⟨h1, h2, l, h3, h4, h5, h6⟩ := (hc.1 _ _ _).mp hi
              refine ⟨⟨b, rfl⟩, hs, h1, h2, l, h3, h4, h5, fun p hp => ⟨h6 p hp, ?_⟩⟩
              exact List.all_eq_true.mp hall p hp
            · simp at h
        · simp at h
      · simp at h
    · rintro ⟨⟨b, rfl⟩, hs, h1, h2, l, h3, h4, h5, h6⟩
      have hi := (hc.1 fl r lp).mpr ⟨h1, h2, l, h3, h4, h5, fun p hp => (h6 p hp).1⟩
      have hall : fl.all (fun p => p.endsWith ".mat") = true := List.all_eq_true.mpr fun p hp => (h6 p hp).2
      simp [mat, hs, hi, hall]
  · intro e h
    unfold mat at h
    split at h
    · split at h
      · cases hi : init fs fileList randomize loop with
        | error e' => rw [hi] at h; simp only [Except.error.injEq] at h; rw [← h]; exact hc.2 _ hi
        | ok q =>
          rw [hi] at h
          simp only at h
          split at h
          · simp at h
          · simpa using h.symm
      · simpa using h.symm
    · simpa using h.symm

/-- C86 for the NumPy scheduler: the same with `.npy`; if images are requested every name must have the form
`flow_<digits>.npy` and both frames must exist. -/
theorem C86_numpy_constructor (fs : FS) (fileList randomize loop includeImages : Val) :
    (∀ fl r lp, numpy fs fileList randomize loop includeImages = .ok (fl, r, lp) ↔
      randomize = .bool r ∧ loop = .bool lp ∧
      ∃ l : List String, fileList = .list (l.map some) ∧ Expands fs l fl ∧ fl ≠ [] ∧
        (∀ p ∈ fl, fs.isFile p = true ∧ p.endsWith ".npy" = true) ∧
        ∃ b, includeImages = .bool b ∧ (b = true → ∀ p ∈ fl, ∃ q r, Formats.framePaths p.toList = some (q, r) ∧
          fs.isFile (String.ofList q) = true ∧ fs.isFile (String.ofList r) = true)) ∧
    (∀ e, numpy fs fileList randomize loop includeImages = .error e → e = .valueError ∨ e = .fileNotFound) := by
  have hc := C10_constructor_accepts fs fileList randomize loop
  have hck : ∀ fl : List String, Formats.npCheckImages (fun p => fs.isFile (String.ofList p)) (fl.map String.toList) = .ok () ↔
      ∀ p ∈ fl, ∃ q r, Formats.framePaths p.toList = some (q, r) ∧ fs.isFile (String.ofList q) = true ∧
        fs.isFile (String.ofList r) = true := by
    intro fl
    rw [Formats.C18_constructor_checks_frames]
    simp only [List.mem_map, forall_exists_index, and_imp, forall_apply_eq_imp_iff₂]
  have hce : ∀ (f : List Char → Bool) (l : List (List Char)) e, Formats.npCheckImages f l = .error e → e = .valueError ∨ e = .fileNotFound := by
    intro f l e
    induction l with
    | nil => simp [Formats.npCheckImages]
    | cons p l ih =>
      intro h
      rw [Formats.npCheckImages] at h
      split at h
      · simp only [Except.error.injEq] at h; exact .inl h.symm
      · split at h
        · exact ih h
        · simp only [Except.error.injEq] at h; exact .inr h.symm
  constructor
  · intro fl r lp
    constructor
    · intro h
      unfold numpy at h
      split at h
      · rename_i b
        cases hi : init fs fileList randomize loop with
        | error e => rw [hi] at h; simp at h
        | ok q =>
          rw [hi] at h
          simp only at h
          split at h
          · rename_i hall
            split at h
            · rename_i hb
              split at h
              · simp at h
              · rename_i hk
                simp only [Except.ok.injEq] at h
                subst h
                obtain ⟨h1, h2, l, h3, h4, h5, h6⟩ := (hc.1 _ _ _).mp hi
                exact ⟨h1, h2, l, h3, h4, h5, fun p hp => ⟨h6 p hp, List.all_eq_true.mp hall p hp⟩, b, rfl, fun _ => (hck fl).mp hk⟩
            · rename_i hb
              simp only [Except.ok.injEq] at h
              subst h
              obtain ⟨h1, h2, l, h3, h4, h5, h6⟩ := (hc.1 _ _ _).mp hi
              exact ⟨h1, h2, l, h3, h4, h5, fun p hp => ⟨h6 p hp, List.all_eq_true.mp hall p hp⟩, b, rfl, fun h => absurd h hb⟩
          · simp at h
      · simp at h
    · rintro ⟨h1, h2, l, h3, h4, h5, h6, b, rfl, h7⟩
      have hi := (hc.1 fl r lp).mpr ⟨h1, h2, l, h3, h4, h5, fun p hp => (h6 p hp).1⟩
      have hall : fl.all (fun p => p.endsWith ".npy") = true := List.all_eq_true.mpr fun p hp => (h6 p hp).2
      simp only [numpy, hi, hall, if_true]
      cases b with
      | false => rfl
      | true => simp only [if_true, (hck fl).mpr (h7 rfl)]
  · intro e h
    unfold numpy at h
    split at h
    · cases hi : init fs fileList randomize loop with
      | error e' => rw [hi] at h; simp only [Except.error.injEq] at h; rw [← h]; exact .inl (hc.2 _ hi)
      | ok q =>
        rw [hi] at h
        simp only at h
        split at h
        · split at h
          · split at h
            · rename_i hk
              simp only [Except.error.injEq] at h
              rw [← h]
              exact hce _ _ _ hk
            · simp at h
          · simp at h
        · simp only [Except.error.injEq] at h; exact .inl h.symm
    · simp only [Except.error.injEq] at h; exact .inl h.symm

/-- A file system with two directories and their files. -/
def demoFS : FS where
  isDir p := p == "d" || p == "e.h5"
  isFile p := ["d/a.mat", "d/b.mat", "x.mat", "d/f.h5", "d/flow_1.npy", "d/img_0.jpg", "d/img_1.jpg"].contains p
  glob p := if p = "d" then ["d/b.mat", "d/a.mat"] else []

/-- C86 is met by a directory and a file; a file of another kind is rejected. -/
example : mat demoFS (.list [some "d", some "x.mat"]) (.bool false) (.bool true) (.bool false) (.tuple [some 4, some 5]) =
      .ok (["d/a.mat", "d/b.mat", "x.mat"], false, true) ∧
    mat demoFS (.list [some "d/flow_1.npy"]) (.bool false) (.bool true) (.bool false) (.tuple [some 4, some 5]) = .error .valueError ∧
    numpy demoFS (.list [some "d/flow_1.npy"]) (.bool false) (.bool true) (.bool true) = .ok (["d/flow_1.npy"], false, true) := by
  refine ⟨((C86_mat_constructor _ _ _ _ _ _).1 _ _ _).mpr ⟨⟨_, rfl⟩, ⟨4, 5, rfl, by decide, by decide⟩, rfl, rfl, ["d", "x.mat"], rfl,
    .dir ["d/a.mat", "d/b.mat"] (by decide +kernel) (List.Perm.swap _ _ _) (by decide +kernel) (.file (by decide +kernel) .nil),
    by simp, by decide +kernel⟩, by decide +kernel, ?_⟩
  rw [(C86_numpy_constructor _ _ _ _ _).1]
  refine ⟨rfl, rfl, ["d/flow_1.npy"], rfl, .file (by decide +kernel) .nil, by simp, by decide +kernel, true, rfl, fun _ p hp => ?_⟩
  rw [List.mem_singleton] at hp
  subst hp
  have h := Formats.C18_frames_of_flow "d".toList "1".toList (by decide) (by decide) (by decide) (by decide)
  have h0 : Formats.renderInt 0 = "0".toList := by simp [Formats.renderInt, Formats.natDigits]
  have h1 : Formats.renderInt 1 = "1".toList := by simp [Formats.renderInt, Formats.natDigits]
  have hv : Formats.digitsValue "1".toList = 1 := by decide
  rw [hv] at h
  refine ⟨_, _, h, ?_⟩
  show demoFS.isFile (String.ofList ("d".toList ++ '/' :: ("img_".toList ++ Formats.renderInt 0 ++ _))) = true ∧
    demoFS.isFile (String.ofList ("d".toList ++ '/' :: ("img_".toList ++ Formats.renderInt 1 ++ _))) = true
  rw [h0, h1]
  decide +kernel

/-- C86 for the HDF5 scheduler. Missing: directories; a directory is accepted only if its own name ends in `.h5`
(`C86_refuted`), and then its files need not be (but the search pattern sees to that). -/
theorem C86_hdf5_constructor_partial (fs : FS) (fileList randomize loop : Val) :
    (∀ fl r lp, hdf5 fs fileList randomize loop = .ok (fl, r, lp) ↔
      randomize = .bool r ∧ loop = .bool lp ∧
      ∃ l : List String, fileList = .list (l.map some) ∧ Expands fs l fl ∧ fl ≠ [] ∧ (∀ p ∈ fl, fs.isFile p = true) ∧
        ∀ p ∈ l, p.endsWith ".h5" = true) ∧
    (∀ e, hdf5 fs fileList randomize loop = .error e → e = .valueError) := by
  have hc := C10_constructor_accepts fs fileList randomize loop
  have hstr : ∀ l : List String, strings (l.map some) = some l := by
    intro l
    induction l with
    | nil => rfl
    | cons a l ih => simp [strings, ih]
  constructor
  · intro fl r lp
    constructor
    · intro h
      unfold hdf5 at h
      cases hi : init fs fileList randomize loop with
      | error e => rw [hi] at h; simp at h
      | ok q =>
        obtain ⟨h1, h2, l, h3, h4, h5, h6⟩ := (hc.1 q.1 q.2.1 q.2.2).mp hi
        rw [hi] at h
        subst h3
        simp only [hstr] at h
        split at h
        · rename_i hk
          simp only [Except.ok.injEq] at h
          subst h
          refine ⟨h1, h2, l, rfl, h4, h5, h6, fun p hp => ?_⟩
          unfold Formats.h5Check at hk
          split at hk
          · rename_i hall
            exact List.all_eq_true.mp hall p hp
          · simp at hk
        · simp at h
    · rintro ⟨h1, h2, l, rfl, h4, h5, h6, h7⟩
      have hi := (hc.1 fl r lp).mpr ⟨h1, h2, l, rfl, h4, h5, h6⟩
      have hall : l.all (fun p => p.endsWith ".h5") = true := List.all_eq_true.mpr h7
      simp [hdf5, hi, hstr, Formats.h5Check, hall]
  · intro e h
    unfold hdf5 at h
    cases hi : init fs fileList randomize loop with
    | error e' => rw [hi] at h; simp only [Except.error.injEq] at h; rw [← h]; exact hc.2 _ hi
    | ok q =>
      rw [hi] at h
      simp only at h
      split at h
      · split at h
        · split at h
          · simp at h
          · rename_i hk
            simp only [Except.error.injEq] at h
            rw [← h]
            unfold Formats.h5Check at hk
            split at hk
            · simp at hk
            · simpa using hk.symm
        · simpa using h.symm
      · simpa using h.symm

/-- C86 is false for the HDF5 scheduler: it rejects every list with a directory, however many HDF5 files are in it, unless the
name of the directory itself ends in `.h5`; a directory whose name does is accepted. -/
theorem C86_refuted (fs : FS) (l : List String) (randomize loop : Val) (d : String) (hd : d ∈ l) (_hdir : fs.isDir d = true)
    (hx : d.endsWith ".h5" = false) : hdf5 fs (.list (l.map some)) randomize loop = .error .valueError := by
  cases h : hdf5 fs (.list (l.map some)) randomize loop with
  | error e => rw [(C86_hdf5_constructor_partial fs _ randomize loop).2 e h]
  | ok q =>
    obtain ⟨_, _, l', h3, _, _, _, h7⟩ := ((C86_hdf5_constructor_partial fs _ randomize loop).1 q.1 q.2.1 q.2.2).mp h
    simp only [Val.list.injEq] at h3
    have : l = l' := List.map_injective_iff.mpr (Option.some_injective _) h3
    subst this
    rw [h7 d hd] at hx
    simp at hx

/-- A directory with two HDF5 files is rejected; the files themselves are accepted. -/
example :
    let fs : FS := ⟨fun p => p == "d", fun p => ["d/1.h5", "d/2.h5"].contains p, fun _ => ["d/2.h5", "d/1.h5"]⟩
    hdf5 fs (.list [some "d"]) (.bool false) (.bool false) = .error .valueError ∧
    hdf5 fs (.list [some "d/1.h5", some "d/2.h5"]) (.bool false) (.bool false) = .ok (["d/1.h5", "d/2.h5"], false, false) := by
  refine ⟨C86_refuted _ ["d"] _ _ "d" (by simp) (by decide +kernel) (by decide +kernel), by decide +kernel⟩

/-! ## C87 -/

open Formats Base in
/-- C87: a MAT file that can be loaded gives exactly one sample, with its own name; without images requested it has none,
with images requested its first image is `I0` and its second `I1` (as they are if they have the requested size); a file
that cannot be loaded gives nothing. -/
theorem C87_one_sample {Key : Type} (io : MatIO) (c : MatCfg) (split : Key → Key × Key) (perm : Key → Nat → List Nat) (p : String) :
    (∀ x, matLoad io c p = .ok x → Yields (matWorld io c split perm) p [x] ∧ x.files = some [p] ∧
      (c.includeImages = false → x.images1 = none ∧ x.images2 = none) ∧
      (c.includeImages = true → ∃ data i0 i1, matRead io p = .ok data ∧ data.lookup "I0" = some i0 ∧ data.lookup "I1" = some i1 ∧
        (i0.shape.take 2 = [c.height, c.width] → x.images1 = some i0) ∧ (i1.shape.take 2 = [c.height, c.width] → x.images2 = some i1) ∧
        (i0.shape.take 2 ≠ [c.height, c.width] → ∃ j, io.resizeImage i0 c.height c.width = .ok j ∧ x.images1 = some j) ∧
        (i1.shape.take 2 ≠ [c.height, c.width] → ∃ j, io.resizeImage i1 c.height c.width = .ok j ∧ x.images2 = some j))) ∧
    (∀ e, matLoad io c p = .error e → Yields (matWorld io c split perm) p []) := by
  have himg : ∀ i j, matImage io c i = .ok j → (i.shape.take 2 = [c.height, c.width] → j = i) ∧
      (i.shape.take 2 ≠ [c.height, c.width] → io.resizeImage i c.height c.width = .ok j) := by
    intro i j h
    unfold matImage at h
    split at h
    · rename_i hne
      exact ⟨fun h' => absurd h' hne, fun _ => h⟩
    · rename_i he
      simp only [Except.ok.injEq] at h
      exact ⟨fun _ => h.symm, fun h' => absurd h' he⟩
  constructor
  · intro x hx
    have key : x.files = some [p] ∧
      (c.includeImages = false → x.images1 = none ∧ x.images2 = none) ∧
      (c.includeImages = true → ∃ data i0 i1, matRead io p = .ok data ∧ data.lookup "I0" = some i0 ∧ data.lookup "I1" = some i1 ∧
        (i0.shape.take 2 = [c.height, c.width] → x.images1 = some i0) ∧ (i1.shape.take 2 = [c.height, c.width] → x.images2 = some i1) ∧
        (i0.shape.take 2 ≠ [c.height, c.width] → ∃ j, io.resizeImage i0 c.height c.width = .ok j ∧ x.images1 = some j) ∧
        (i1.shape.take 2 ≠ [c.height, c.width] → ∃ j, io.resizeImage i1 c.height c.width = .ok j ∧ x.images2 = some j)) := by
      unfold matLoad at hx
      cases hr : matRead io p with
      | error e => rw [hr] at hx; simp at hx
      | ok data =>
        rw [hr] at hx
        simp only at hx
        cases hV : data.lookup "V" with
        | none => rw [hV] at hx; simp at hx
        | some v =>
          rw [hV] at hx
          simp only at hx
          split at hx
          · rename_i him
            split at hx
            · rename_i i0 i1 h0 h1
              split at hx
              · rename_i j0 j1 e0 e1
                split at hx
                · simp only [Except.ok.injEq] at hx
                  subst hx
                  refine ⟨rfl, fun h => by rw [him] at h; simp at h, fun _ => ⟨data, i0, i1, rfl, h0, h1, ?_, ?_, ?_, ?_⟩⟩
                  · intro h; rw [(himg _ _ e0).1 h]
                  · intro h; rw [(himg _ _ e1).1 h]
                  · intro h; exact ⟨j0, (himg _ _ e0).2 h, rfl⟩
                  · intro h; exact ⟨j1, (himg _ _ e1).2 h, rfl⟩
                · simp at hx
              · simp at hx
              · simp at hx
            · simp at hx
          · rename_i him
            split at hx
            · simp only [Except.ok.injEq] at hx
              subst hx
              exact ⟨rfl, fun _ => ⟨rfl, rfl⟩, fun h => absurd h him⟩
            · simp at hx
    refine ⟨?_, key⟩
    have hl : (matWorld io c split perm).load p = .ok x := hx
    unfold Yields
    rw [hl]
    refine ⟨fun i hi => ?_, by simp [matWorld, matNext]⟩
    have h0 : i = 0 := by simpa using hi
    subst h0
    cases him : c.includeImages with
    | true => simp [matWorld, matNext, him]
    | false =>
      obtain ⟨h1, h2⟩ := key.2.1 him
      obtain ⟨f, i1, i2, n⟩ := x
      simp only at h1 h2
      subst h1; subst h2
      simp [matWorld, matNext, him]
  · intro e he
    have hl : (matWorld io c split perm).load p = .error e := he
    unfold Yields
    rw [hl]

/-- C87 is met: the images are requested and have the right size. -/
example : ∃ x, Formats.matLoad (Formats.demoMat ⟨[2, 2, 2], [1, 2, 3, 4, 5, 6, 7, 8]⟩) ⟨true, 2, 2⟩ "m" = .ok x ∧
    x.images1 = some ⟨[2, 2], [1, 2, 3, 4]⟩ ∧ x.images2 = some ⟨[2, 2], [5, 6, 7, 8]⟩ ∧ x.files = some ["m"] := ⟨_, rfl, rfl, rfl, rfl⟩

/-! ## C88 -/

open Formats in
theorem digits_step {acc acc' : Nat} (h : acc < acc') : ∀ (a b : List Char), a.length = b.length → (∀ c ∈ a, isDigit c = true) →
    (∀ c ∈ b, isDigit c = true) →
    a.foldl (fun acc c => 10 * acc + (c.toNat - '0'.toNat)) acc < b.foldl (fun acc c => 10 * acc + (c.toNat - '0'.toNat)) acc' := by
  intro a
  induction a generalizing acc acc' with
  | nil => intro b hl _ _; cases b with
    | nil => exact h
    | cons _ _ => simp at hl
  | cons c a ih => intro b hl ha hb; cases b with
    | nil => simp at hl
    | cons d b =>
      simp only [List.foldl_cons]
      refine ih ?_ b (by simpa using hl) (fun x hx => ha x (List.mem_cons_of_mem _ hx)) (fun x hx => hb x (List.mem_cons_of_mem _ hx))
      have hc := ha c List.mem_cons_self
      simp only [isDigit, decide_eq_true_eq] at hc
      have h9 : c.toNat ≤ '9'.toNat := hc.2
      have e0 : '0'.toNat = 48 := rfl
      have e9 : '9'.toNat = 57 := rfl
      omega

open Formats in
theorem digits_mono (s : List Char) {acc : Nat} : ∀ (a b : List Char), a.length = b.length → (∀ c ∈ a, isDigit c = true) →
    (∀ c ∈ b, isDigit c = true) → a ++ s < b ++ s →
    a.foldl (fun acc c => 10 * acc + (c.toNat - '0'.toNat)) acc < b.foldl (fun acc c => 10 * acc + (c.toNat - '0'.toNat)) acc := by
  intro a
  induction a generalizing acc with
  | nil => intro b hl _ _ h; cases b with
    | nil => exact absurd h (List.lt_irrefl _)
    | cons _ _ => simp at hl
  | cons c a ih => intro b hl ha hb h; cases b with
    | nil => simp at hl
    | cons d b =>
      simp only [List.foldl_cons]
      rw [List.cons_append, List.cons_append, List.cons_lt_cons_iff] at h
      rcases h with h | ⟨rfl, h⟩
      · refine digits_step ?_ a b (by simpa using hl) (fun x hx => ha x (List.mem_cons_of_mem _ hx)) (fun x hx => hb x (List.mem_cons_of_mem _ hx))
        have hc := ha c List.mem_cons_self
        simp only [isDigit, decide_eq_true_eq] at hc
        have h0 : '0'.toNat ≤ c.toNat := hc.1
        have hcd : c.toNat < d.toNat := h
        omega
      · exact ih b (by simpa using hl) (fun x hx => ha x (List.mem_cons_of_mem _ hx)) (fun x hx => hb x (List.mem_cons_of_mem _ hx)) h

theorem prefix_lt (pre : List Char) {a b : List Char} (h : pre ++ a < pre ++ b) : a < b := by
  induction pre with
  | nil => exact h
  | cons c pre ih =>
    rw [List.cons_append, List.cons_append, List.cons_lt_cons_iff] at h
    rcases h with h | ⟨_, h⟩
    · exact absurd h (lt_irrefl _)
    · exact ih h

/-- C88 for file names whose numbers have the same number of digits: the files found in a directory are served in the order of their
numbers. Missing: numbers written with different numbers of digits, for which it is false (`C88_refuted`). -/
theorem C88_temporal_order_partial (fs : FS) (d : String) (hd : fs.isDir d = true) (k : Nat) (hnd : (fs.glob d).Nodup)
    (number : String → List Char)
    (hname : ∀ p ∈ fs.glob d, p.toList = d.toList ++ ("/flow_".toList ++ (number p ++ ".npy".toList)) ∧ (number p).length = k ∧
      ∀ c ∈ number p, Formats.isDigit c = true)
    (r : Bool) (lp : Bool) (fl : List String) (h : init fs (.list [some d]) (.bool r) (.bool lp) = .ok (fl, r, lp)) :
    fl.Perm (fs.glob d) ∧ fl.Pairwise (fun p q => Formats.digitsValue (number p) < Formats.digitsValue (number q)) := by
  obtain ⟨_, _, l, h3, h4, _, _⟩ := ((C10_constructor_accepts fs _ _ _).1 _ _ _).mp h
  simp only [Val.list.injEq] at h3
  have : l = [d] := by
    have : [d].map some = l.map some := h3
    exact (List.map_injective_iff.mpr (Option.some_injective _) this).symm
  subst this
  cases h4 with
  | file h' => rw [hd] at h'; simp at h'
  | dir found h' hperm hsorted t =>
    cases t
    rw [List.append_nil]
    refine ⟨hperm, ?_⟩
    have hn : found.Nodup := hperm.nodup_iff.mpr hnd
    refine List.Pairwise.imp_of_mem ?_ (hsorted.and hn)
    intro p q hp hq ⟨hle, hne⟩
    obtain ⟨e1, l1, d1⟩ := hname p (hperm.mem_iff.mp hp)
    obtain ⟨e2, l2, d2⟩ := hname q (hperm.mem_iff.mp hq)
    have hlt : p < q := lt_of_le_of_ne hle hne
    have hlt' : p.toList < q.toList := String.lt_iff_toList_lt.mp hlt
    rw [e1, e2] at hlt'
    exact digits_mono _ _ _ (l1.trans l2.symm) d1 d2 (prefix_lt _ (prefix_lt _ hlt'))

/-- C88 is false in general: number 10 is served before number 2. -/
theorem C88_refuted :
    let fs : FS := ⟨fun p => p == "d", fun p => ["d/flow_2.npy", "d/flow_10.npy"].contains p, fun _ => ["d/flow_2.npy", "d/flow_10.npy"]⟩
    init fs (.list [some "d"]) (.bool false) (.bool false) = .ok (["d/flow_10.npy", "d/flow_2.npy"], false, false) :=
  ((C10_constructor_accepts _ _ _ _).1 _ _ _).mpr ⟨rfl, rfl, ["d"], rfl,
    .dir ["d/flow_10.npy", "d/flow_2.npy"] (by decide +kernel) (List.Perm.swap _ _ _) (by decide +kernel) .nil, by simp, by decide +kernel⟩

/-- The hypotheses of `C88_temporal_order_partial` are met with leading zeros. -/
example :
    let fs : FS := ⟨fun p => p == "d", fun p => ["d/flow_10.npy", "d/flow_02.npy"].contains p, fun _ => ["d/flow_10.npy", "d/flow_02.npy"]⟩
    init fs (.list [some "d"]) (.bool false) (.bool false) = .ok (["d/flow_02.npy", "d/flow_10.npy"], false, false) ∧
    (∀ p ∈ fs.glob "d", p.toList = "d".toList ++ ("/flow_".toList ++ ((p.toList.drop 7).take 2 ++ ".npy".toList)) ∧
      ((p.toList.drop 7).take 2).length = 2 ∧ ∀ c ∈ (p.toList.drop 7).take 2, Formats.isDigit c = true) :=
  ⟨((C10_constructor_accepts _ _ _ _).1 _ _ _).mpr ⟨rfl, rfl, ["d"], rfl,
    .dir ["d/flow_02.npy", "d/flow_10.npy"] (by decide +kernel) (List.Perm.swap _ _ _) (by decide +kernel) .nil, by simp, by decide +kernel⟩,
    by decide +kernel⟩

end Verif.FormatInit
