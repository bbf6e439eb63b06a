import Verif.Props.PackedDelivered
import Verif.Props.Whole
/-!
# C196: from the raw dataset to the batches of the sampler
-/

namespace Verif.Convert
open Verif SplitCopy Formats Base RealPipeline Whole Whole.Spec

/-- A raw dataset whose flows and images all have `h` times `w` pixels. -/
structure Sized (src : Src (Arr Rat) (Arr Rat)) (h w : Nat) : Prop where
  flow : ∀ dir n f, src.flow dir n = .ok f → f.shape = [h, w, 2] ∧ f.WF
  image : ∀ dir n a, src.img dir n = some (.ok a) → a.shape = [h, w] ∧ a.WF

/-- The triplet `t` of the raw dataset that is packed into the file `at_`: flow, first and second frame with the stem of its name, in its directory. -/
def Triplet (src : Src (Arr Rat) (Arr Rat)) (flows : List (List Name × Name)) (at_ : List Name × Name) (t : Pair) : Prop :=
  ∃ stem ext, at_.2 = stem ++ ".mat".toList ∧ (at_.1, stem ++ "_flow".toList ++ ext) ∈ flows ∧ src.flow at_.1 (stem ++ "_flow".toList ++ ext) = .ok t.flow ∧
    src.img at_.1 (stem ++ "_img1.tif".toList) = some (.ok t.first) ∧ src.img at_.1 (stem ++ "_img2.tif".toList) = some (.ok t.second)

/-- The files of the list are on the disk as the script has packed them from the raw dataset for the target shape `(h, w)`; `at_ p` is where the script has written the file that
is now found under the path `p`. -/
structure OnDisk (mat : MatIO) (src : Src (Arr Rat) (Arr Rat)) (flows : List (List Name × Name)) (h w : Nat) (at_ : String → List Name × Name) (files : List String) : Prop where
  target : ∃ io, src.resize = Scripts.packFlow io h w
  found : ∀ t ∈ flows, Found t.2
  disk : ∃ disk ri rf, mat = diskIO disk ri rf ∧ ∀ p ∈ files, ∃ x, convert src flows (fun _ => none) (at_ p) = some x ∧ disk p = some (packedFile x)

/-- What a packed file holds. -/
theorem packed_holds {mat : MatIO} {src : Src (Arr Rat) (Arr Rat)} {flows : List (List Name × Name)} {h w : Nat} {at_ : String → List Name × Name} {files : List String}
    (hd : OnDisk mat src flows h w at_ files) (hs : Sized src h w) {p : String} (hp : p ∈ files) : ∃ t, Triplet src flows (at_ p) t ∧ Holds mat h w p t := by
  obtain ⟨⟨io, hio⟩, hg, disk, ri, rf, rfl, hx⟩ := hd
  obtain ⟨x, h1, h2⟩ := hx p hp
  obtain ⟨stem, ext, f, r1, r2, r3, r4, r5, r6⟩ := C195_raw io h w src hio flows hg _ _ x h1
  obtain ⟨s1, s2⟩ := hs.flow _ _ _ r3
  have r7 := r4 (by rw [s1]; rfl)
  obtain ⟨i1, i2⟩ := hs.image _ _ _ r5
  obtain ⟨i3, i4⟩ := hs.image _ _ _ r6
  refine ⟨⟨x.1, x.2.1, x.2.2⟩, ⟨stem, ext, r1, r2, by rw [r7]; exact r3, r5, r6⟩, ⟨_, read_packed disk ri rf p x h2, by simp [List.lookup], by simp [List.lookup], by simp [List.lookup]⟩,
    by rw [r7]; exact s1, i1, i3, by rw [r7]; exact s2, i2, i4⟩

/-- All of them together. -/
theorem packed_contents {mat : MatIO} {src : Src (Arr Rat) (Arr Rat)} {flows : List (List Name × Name)} {h w : Nat} {at_ : String → List Name × Name} {files : List String}
    (hd : OnDisk mat src flows h w at_ files) (hs : Sized src h w) : ∃ triplet : String → Pair, (∀ p ∈ files, Triplet src flows (at_ p) (triplet p)) ∧
      Contents mat h w files (fun p => some (triplet p)) := by
  classical
  refine ⟨fun p => if hp : p ∈ files then (packed_holds hd hs hp).choose else ⟨⟨[], []⟩, ⟨[], []⟩, ⟨[], []⟩⟩, fun p hp => ?_, fun p hp => ?_⟩
  · beta_reduce; rw [dif_pos hp]; exact (packed_holds hd hs hp).choose_spec.1
  · show Holds mat h w p _
    beta_reduce; rw [dif_pos hp]; exact (packed_holds hd hs hp).choose_spec.2

private theorem pairs_all (triplet : String → Pair) (order : List String) : pairsOf (fun p => some (triplet p)) order = order.map (fun p => (p, triplet p)) := by
  unfold pairsOf
  simp only [Option.map_some]
  exact List.filterMap_eq_map' (f := fun p => (p, triplet p)) ▸ rfl

/-- **C196**, one pass: from a raw dataset whose flows and images have the size `(h, w)`, packed by the script for that size, and a configuration for real images that lists the packed
files: the sampler serves, in batches of `batch_size`, the flow and the two frames of the triplet of every listed file as they are in the raw dataset, each once, in the given order
unless `randomize` is on, and ends. -/
theorem C196_ends (E : Env) (arg : Make.Arg) (d : Make.Dict) (hd : Make.Spec.ConfigOf (world E) arg d) (s : Make.Smp)
    (h : Make.make (world E) arg = .ok s) (hp : Plain d .mat true) (hl : Make.Spec.ValueOr d "loop" (.bool true) (.bool false)) :
    ∃ files rnd n hh ww, FilesOf E .mat d files ∧ Make.Spec.ValueOr d "randomize" (.bool false) (.bool rnd) ∧
      Has d "batch_size" (IsInt (n : Nat)) ∧ 0 < n ∧ IsSize d hh ww ∧
      ∀ src flows at_, OnDisk E.mat src flows hh ww at_ files → Sized src hh ww → files.Nodup →
        (rnd = true → ∀ k n, (E.perm k n).Perm (List.range n)) → ∀ fuel, files.length < fuel →
        ∃ (triplet : String → Pair) (order : List String), (∀ p ∈ files, Triplet src flows (at_ p) (triplet p)) ∧ order.Perm files ∧ (rnd = false → order = files) ∧
          ∀ k, ∃ outs, realRun E fuel k s = some outs ∧ outs.length = k ∧ ∀ i r, outs[i]? = some r → Serves n hh ww (order.map (fun p => (p, triplet p))) i r := by
  obtain ⟨files, rnd, n, hh, ww, f1, f2, f3, f4, f5, f6⟩ := C111_mat_ends E arg d hd s h hp hl
  refine ⟨files, rnd, n, hh, ww, f1, f2, f3, f4, f5, fun src flows at_ hdisk hs hnd hrnd fuel hfuel => ?_⟩
  obtain ⟨triplet, t1, t2⟩ := packed_contents hdisk hs
  obtain ⟨order, o1, o2, o3⟩ := f6 _ t2 hnd hrnd fuel hfuel
  rw [pairs_all] at o3
  exact ⟨triplet, order, t1, o1, o2, o3⟩

/-- **C196**, looping (the default): likewise, in passes over the files, without end, every batch full. -/
theorem C196_looping (E : Env) (arg : Make.Arg) (d : Make.Dict) (hd : Make.Spec.ConfigOf (world E) arg d) (s : Make.Smp)
    (h : Make.make (world E) arg = .ok s) (hp : Plain d .mat true) (hl : Make.Spec.ValueOr d "loop" (.bool true) (.bool true)) :
    ∃ files rnd n hh ww, FilesOf E .mat d files ∧ Make.Spec.ValueOr d "randomize" (.bool false) (.bool rnd) ∧
      Has d "batch_size" (IsInt (n : Nat)) ∧ 0 < n ∧ IsSize d hh ww ∧
      ∀ src flows at_, OnDisk E.mat src flows hh ww at_ files → Sized src hh ww → files.Nodup →
        (rnd = true → ∀ k n, (E.perm k n).Perm (List.range n)) → ∀ fuel, 2 * files.length ≤ fuel →
        ∃ (triplet : String → Pair) (order : Nat → List String), (∀ p ∈ files, Triplet src flows (at_ p) (triplet p)) ∧ (∀ k, (order k).Perm files) ∧ (rnd = false → ∀ k, order k = files) ∧
          ∀ N, ∃ outs, realRun E fuel N s = some outs ∧ outs.length = N ∧
            ∃ K, N * n ≤ K * files.length ∧ ∀ i, i < N → ∃ b, outs[i]? = some (.ok b) ∧
              ShowsPairs n hh ww ((((List.range K).flatMap (fun k => (order k).map (fun p => (p, triplet p)))).drop (n * i)).take n) b := by
  obtain ⟨files, rnd, n, hh, ww, f1, f2, f3, f4, f5, f6⟩ := C111_mat_looping E arg d hd s h hp hl
  refine ⟨files, rnd, n, hh, ww, f1, f2, f3, f4, f5, fun src flows at_ hdisk hs hnd hrnd fuel hfuel => ?_⟩
  obtain ⟨triplet, t1, t2⟩ := packed_contents hdisk hs
  have hne : pairsOf (fun p => some (triplet p)) files ≠ [] := by
    rw [pairs_all]
    obtain ⟨_, _, _, h0, _⟩ := f1
    simpa using h0
  obtain ⟨order, o1, o2, o3⟩ := f6 _ t2 hne hnd hrnd fuel hfuel
  simp only [pairs_all] at o3
  refine ⟨triplet, order, t1, o1, o2, fun N => ?_⟩
  obtain ⟨outs, p1, p2, K, p3, p4⟩ := o3 N
  refine ⟨outs, p1, p2, K, ?_, p4⟩
  have : ((List.range K).flatMap (fun k => (order k).map (fun p => (p, triplet p)))).length = K * files.length := by
    rw [List.length_flatMap]
    simp [(o1 _).length_eq]
  omega

/-! ## A case -/

/-- Two triplets of 1 x 2 pixels, packed for that size. -/
def smallSrc : Src (Arr Rat) (Arr Rat) where
  flow := fun _ n => if n = "a_flow.flo".toList then .ok ⟨[1, 2, 2], [1, 2, 3, 4]⟩ else if n = "b_flow.flo".toList then .ok ⟨[1, 2, 2], [5, 6, 7, 8]⟩ else .error .fileNotFound
  img := fun _ n => if n = "a_img1.tif".toList then some (.ok ⟨[1, 2], [10, 11]⟩) else if n = "a_img2.tif".toList then some (.ok ⟨[1, 2], [20, 21]⟩)
    else if n = "b_img1.tif".toList then some (.ok ⟨[1, 2], [30, 31]⟩) else if n = "b_img2.tif".toList then some (.ok ⟨[1, 2], [40, 41]⟩) else none
  resize := Scripts.packFlow (demoMat ⟨[2, 2, 2], [2, 4, 2, 4, 2, 4, 2, 4]⟩) 1 2

/-- The flow files found below the raw dataset. -/
def smallFlows : List (List Name × Name) := [([], "a_flow.flo".toList), ([], "b_flow.flo".toList)]

/-- Where the two files have been written. -/
def smallAt (p : String) : List Name × Name := ([], p.toList)

/-- The disk after packing. -/
def smallDisk (p : String) : Option MatFile := (convert smallSrc smallFlows (fun _ => none) (smallAt p)).map packedFile

/-- The rest of the environment. -/
def smallEnv : Env := { demoEnv with mat := diskIO smallDisk (fun a _ _ => .ok a) (fun a _ _ => .ok a) }

/-- One pass over both files, in batches of three. -/
def smallDict : Make.Dict :=
  [("scheduler_class", .str ".mat"), ("batch_size", .int 3), ("flow_fields_per_batch", .int 1), ("include_images", .bool true),
   ("loop", .bool false), ("image_shape", .list [.int 1, .int 2]), ("file_list", .list [.str "b.mat", .str "a.mat"])]

example : Plain smallDict .mat true ∧ Sized smallSrc 1 2 ∧ OnDisk smallEnv.mat smallSrc smallFlows 1 2 smallAt ["b.mat", "a.mat"] := by
  refine ⟨⟨rfl, .inr rfl, ⟨by decide, .inl ⟨rfl, rfl⟩⟩, ⟨by decide, .inl ⟨rfl, rfl⟩⟩⟩, ⟨?_, ?_⟩, ⟨⟨demoMat ⟨[2, 2, 2], [2, 4, 2, 4, 2, 4, 2, 4]⟩, rfl⟩, ?_, smallDisk, _, _, rfl, ?_⟩⟩
  · intro dir n f h
    simp only [smallSrc] at h
    split at h
    · cases h; exact ⟨rfl, by unfold Arr.WF; rfl⟩
    · split at h
      · cases h; exact ⟨rfl, by unfold Arr.WF; rfl⟩
      · cases h
  · intro dir n a h
    simp only [smallSrc] at h
    repeat' split at h
    all_goals cases h
    all_goals exact ⟨rfl, by unfold Arr.WF; rfl⟩
  · intro t ht
    simp only [smallFlows, List.mem_cons, List.not_mem_nil, or_false] at ht
    rcases ht with rfl | rfl
    · exact ⟨"a".toList, ".flo".toList, by decide +kernel⟩
    · exact ⟨"b".toList, ".flo".toList, by decide +kernel⟩
  · intro p hp
    have hs : (convert smallSrc smallFlows (fun _ => none) (smallAt p)).isSome = true := by
      simp only [List.mem_cons, List.not_mem_nil, or_false] at hp
      rcases hp with rfl | rfl <;> decide +kernel
    obtain ⟨x, hx⟩ := Option.isSome_iff_exists.1 hs
    exact ⟨x, hx, by unfold smallDisk; rw [hx]; rfl⟩

/-- What the two calls show: the raw data of `b` and `a`, a blank sample, then the end. -/
example : (match Make.make (world smallEnv) (.dict smallDict) with
    | .ok s => ((Whole.realRun smallEnv 6 2 s).getD []).map (fun r => match r with | .ok b => (b.flow.data, (b.images1.map Arr.data).getD [], b.files.getD []) | .error _ => ([], [], ["ended"]))
    | .error _ => []) = [([5, 6, 7, 8, 1, 2, 3, 4, 0, 0, 0, 0], [30, 31, 10, 11, 0, 0], ["b.mat", "a.mat", ""]), ([], [], ["ended"])] := by
  decide +kernel

end Verif.Convert
