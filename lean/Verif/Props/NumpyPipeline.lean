import Verif.Props.RealPipeline
/-!
# Property C108: from the NumPy files and their JPEG frames to the batches of the real-image sampler

The layers are those of `Model/Formats.lean` (numpy.py), `Model/Base.lean` (scheduler/base.py) and `Model/Sampler.lean`
(sampler/base.py, real.py), put together. The frames are colour images, so they have three axes.
-/

namespace Verif.NumpyPipeline
open Verif Verif.Base Verif.Formats Verif.Sampler
open Verif.RealPipeline (Pair pairsOf toSample samplesOf flatMap_samplesOf asReal realRun_eq getElem_takeBatches)

/-- The flow file `p` can be read, its name has a number, both its frames can be read, and all have the sizes of the data set. -/
def Holds (io : NpIO Rat) (fh fw ih iw : Nat) (p : String) (t : Pair) : Prop :=
  io.npy p = .ok t.flow ∧
  (∃ q r, framePaths p.toList = some (q, r) ∧ io.rgb (String.ofList q) = .ok t.first ∧ io.rgb (String.ofList r) = .ok t.second) ∧
  t.flow.shape = [fh, fw, 2] ∧ t.first.shape = [ih, iw, 3] ∧ t.second.shape = [ih, iw, 3] ∧ t.flow.WF ∧ t.first.WF ∧ t.second.WF

/-- The contents of the files of a list: a pair, or a flow file that cannot be read. -/
def Contents (io : NpIO Rat) (fh fw ih iw : Nat) (fl : List String) (content : String → Option Pair) : Prop :=
  ∀ p ∈ fl, match content p with
    | some t => Holds io fh fw ih iw p t
    | none => ∃ e, io.npy p = .error e

/-- The batch shows exactly the pairs `l`, all flagged, each under its own name. -/
structure ShowsAll (fh fw ih iw : Nat) (l : List (String × Pair)) (b : RealBatch Rat) : Prop where
  flow_shape : b.flow.shape = [l.length, fh, fw, 2]
  mask : b.mask = List.replicate l.length true
  flow : ∀ i (hi : i < l.length), b.flow.row i = l[i].2.flow
  images : ∃ a c, b.images1 = some a ∧ b.images2 = some c ∧ a.shape = [l.length, ih, iw, 3] ∧ c.shape = [l.length, ih, iw, 3] ∧
    ∀ i (hi : i < l.length), a.row i = l[i].2.first ∧ c.row i = l[i].2.second
  files : b.files = some (l.map Prod.fst)
  params : b.params = none
  done : b.done = none

/-- What call number `i` with batches of `n` pairs gives: `n` pairs as long as so many are left, then `ValueError` if there is an
incomplete rest, and `StopIteration` when there is nothing left. -/
def Serves (n fh fw ih iw : Nat) (l : List (String × Pair)) (i : Nat) (r : Except Exc (RealBatch Rat)) : Prop :=
  if n * i + n ≤ l.length then ∃ b, r = .ok b ∧ ShowsAll fh fw ih iw ((l.drop (n * i)).take n) b
  else if n * i < l.length then r = .error .valueError
  else r = .error .stopIteration

theorem contents_yields {Key : Type} {io : NpIO Rat} {fh fw ih iw : Nat} {fl : List String} {content : String → Option Pair}
    (hc : Contents io fh fw ih iw fl content) (split : Key → Key × Key) (perm : Key → Nat → List Nat) :
    ∀ p ∈ fl, Yields (npWorld io true split perm) p (samplesOf content p) := by
  intro p hp
  have h2 := hc p hp
  unfold samplesOf Yields
  cases ht : content p with
  | some t =>
    rw [ht] at h2
    obtain ⟨h0, ⟨q, r, hq, h3, h4⟩, _⟩ := h2
    have e : (npWorld io true split perm).load p = .ok t.flow := h0
    rw [e]
    refine ⟨?_, ?_⟩
    · intro i hi
      have hi0 : i = 0 := by simpa using hi
      subst hi0
      show npNext io true p t.flow 0 = _
      simp [npNext, hq, h3, h4, toSample]
    · show npNext io true p t.flow 1 = _
      simp [npNext]
  | none =>
    rw [ht] at h2
    obtain ⟨e, he⟩ := h2
    have : (npWorld io true split perm).load p = .error e := he
    rw [this]

theorem assembleImages_full {zero : Rat} {imgs : List (Arr Rat)} {n : Nat} {sh : List Nat} (hne : imgs ≠ [])
    (hs : ∀ x ∈ imgs, x.shape = sh) (hn : imgs.length = n) : ∃ a, assembleImages zero (imgs.map some) n = .ok (some a) := by
  obtain ⟨a, ha⟩ := Arr.stack_isOk hne hs
  refine ⟨a, ?_⟩
  have h1 : (imgs.map some).all Option.isSome = true := by simp
  have h2 : (imgs.map some).filterMap id = imgs := by simp
  unfold assembleImages
  rw [if_pos h1, h2, ha]
  simp [hn]

theorem assembleImages_short {zero : Rat} {imgs : List (Arr Rat)} {n : Nat} {sh : List Nat} (hne : imgs ≠ [])
    (hs : ∀ x ∈ imgs, x.shape = sh) (hw : ∀ x ∈ imgs, x.WF) (h3 : sh.length = 3) (hn : imgs.length < n) :
    assembleImages zero (imgs.map some) n = .error .valueError := by
  obtain ⟨a, ha⟩ := Arr.stack_isOk hne hs
  obtain ⟨sh', _, hsh, hall, _⟩ := Arr.stack_ok ha hw
  obtain ⟨x, hx⟩ := List.exists_mem_of_ne_nil _ hne
  have e : sh' = sh := by rw [← hall x hx, hs x hx]
  have h1 : (imgs.map some).all Option.isSome = true := by simp
  have h2 : (imgs.map some).filterMap id = imgs := by simp
  have h4 : a.shape.length ≠ 3 := by rw [hsh, e]; simp [h3]
  unfold assembleImages
  rw [if_pos h1, h2, ha]
  simp only [List.length_map, if_pos hn]
  unfold Arr.padFirst
  rw [if_neg h4]
  rfl

/-- The pairs of a chunk, as far as `np.stack` and `np.pad` are concerned. -/
def Fits (fh fw ih iw : Nat) (l : List (String × Pair)) : Prop :=
  ∀ q ∈ l, q.2.flow.shape = [fh, fw, 2] ∧ q.2.first.shape = [ih, iw, 3] ∧ q.2.second.shape = [ih, iw, 3] ∧
    q.2.flow.WF ∧ q.2.first.WF ∧ q.2.second.WF

theorem assemble_short {cfg : Base.Cfg} {n fh fw ih iw : Nat} {l : List (String × Pair)} (hne : l ≠ [])
    (hf : Fits fh fw ih iw l) (hn : l.length < n) : assemble 0 cfg (l.map toSample) n = .error .valueError := by
  have e1 : (l.map toSample).map Sample.images1 = (l.map (fun q => q.2.first)).map some := by
    simp [toSample, Function.comp_def]
  have h1 := assembleImages_short (zero := 0) (imgs := l.map (fun q => q.2.first)) (n := n) (sh := [ih, iw, 3])
    (by simpa using hne)
    (by intro x hx; obtain ⟨q, hq, rfl⟩ := List.mem_map.mp hx; exact (hf q hq).2.1)
    (by intro x hx; obtain ⟨q, hq, rfl⟩ := List.mem_map.mp hx; exact (hf q hq).2.2.2.2.1) rfl (by simpa using hn)
  unfold assemble
  rw [e1, h1]
  rfl

theorem assemble_full {cfg : Base.Cfg} {n fh fw ih iw : Nat} {l : List (String × Pair)} (hne : l ≠ [])
    (hf : Fits fh fw ih iw l) (hn : l.length = n) :
    ∃ b, assemble 0 cfg (l.map toSample) n = .ok b ∧ ShowsAll fh fw ih iw l (asReal b) := by
  have e1 : (l.map toSample).map Sample.images1 = (l.map (fun q => q.2.first)).map some := by
    simp [toSample, Function.comp_def]
  have e2 : (l.map toSample).map Sample.images2 = (l.map (fun q => q.2.second)).map some := by
    simp [toSample, Function.comp_def]
  obtain ⟨a1, h1⟩ := assembleImages_full (zero := 0) (imgs := l.map (fun q => q.2.first)) (n := n) (sh := [ih, iw, 3])
    (by simpa using hne)
    (by intro x hx; obtain ⟨q, hq, rfl⟩ := List.mem_map.mp hx; exact (hf q hq).2.1) (by simpa using hn)
  obtain ⟨a2, h2⟩ := assembleImages_full (zero := 0) (imgs := l.map (fun q => q.2.second)) (n := n) (sh := [ih, iw, 3])
    (by simpa using hne)
    (by intro x hx; obtain ⟨q, hq, rfl⟩ := List.mem_map.mp hx; exact (hf q hq).2.2.1) (by simpa using hn)
  obtain ⟨a3, h3⟩ := Arr.stack_isOk (as := (l.map toSample).map Sample.flow) (sh := [fh, fw, 2]) (by simpa using hne)
    (by intro x hx; obtain ⟨y, hy, rfl⟩ := List.mem_map.mp hx; obtain ⟨q, hq, rfl⟩ := List.mem_map.mp hy; exact (hf q hq).1)
  obtain ⟨r4, h4⟩ := assembleFiles_isOk (files := (l.map toSample).map Sample.files) (n := n) (named := true)
    (by
      intro x hx
      obtain ⟨y, hy, rfl⟩ := List.mem_map.mp hx
      obtain ⟨q, _, rfl⟩ := List.mem_map.mp hy
      exact ⟨[q.1], rfl, by simp⟩)
  have hb : ∃ b, assemble 0 cfg (l.map toSample) n = .ok b := by
    unfold assemble
    simp only [bind, Except.bind, pure, Except.pure]
    rw [e1, e2, h1, h2, h3, h4]
    simp [hn]
  obtain ⟨b, hb⟩ := hb
  refine ⟨b, hb, ?_⟩
  have hwf : ∀ x ∈ l.map toSample, x.WF := by
    intro x hx
    obtain ⟨q, hq, rfl⟩ := List.mem_map.mp hx
    exact ⟨(hf q hq).2.2.2.1, fun a e => by cases e; exact (hf q hq).2.2.2.2.1, fun a e => by cases e; exact (hf q hq).2.2.2.2.2⟩
  obtain ⟨_, hs⟩ := assemble_ok hb (by simp [hn]) (by simp [hn]) hwf
  obtain ⟨q0, hq0⟩ := List.exists_mem_of_ne_nil l hne
  have hm0 : toSample q0 ∈ l.map toSample := List.mem_map_of_mem hq0
  refine ⟨?_, ?_, ?_, ?_, ?_, rfl, rfl⟩
  · show b.flow.shape = _
    rw [hs.flow_shape _ hm0, hn]
    show n :: q0.2.flow.shape = _
    rw [(hf q0 hq0).1]
  · show b.mask = _
    have := hs.mask
    simpa [hn] using this
  · intro i hi
    show b.flow.row i = _
    rw [hs.flow_rows i (by simpa using hi), List.getElem_map]
    rfl
  · rcases hs.im1 with ⟨_, x, hx, hx'⟩ | ⟨a, sha, ea, esa, ra, sa, _⟩
    · obtain ⟨q, _, rfl⟩ := List.mem_map.mp hx
      cases hx'
    · rcases hs.im2 with ⟨_, x, hx, hx'⟩ | ⟨c, shc, ec, esc, rc, sc, _⟩
      · obtain ⟨q, _, rfl⟩ := List.mem_map.mp hx
        cases hx'
      · have g1 : sha = [ih, iw, 3] := by rw [← sa _ hm0 q0.2.first rfl]; exact (hf q0 hq0).2.1
        have g2 : shc = [ih, iw, 3] := by rw [← sc _ hm0 q0.2.second rfl]; exact (hf q0 hq0).2.2.1
        subst g1 g2
        refine ⟨a, c, ea, ec, by rw [esa, hn], by rw [esc, hn], ?_⟩
        intro i hi
        have h1 := ra i (by simpa using hi)
        have h2 := rc i (by simpa using hi)
        rw [List.getElem_map] at h1 h2
        exact ⟨(Option.some.inj h1).symm, (Option.some.inj h2).symm⟩
  · rcases hs.files with ⟨_, hx⟩ | ⟨fs, e, hl, hr, _⟩
    · have := hx _ hm0
      cases this
    · show b.files = _
      rw [e]
      congr 1
      apply List.ext_getElem
      · rw [hl, List.length_map, hn]
      · intro i g1 g2
        have hg : fs.getD i "" = fs[i] := by rw [List.getD_eq_getElem?_getD, List.getElem?_eq_getElem g1]; rfl
        have := hr i (by simpa using g2)
        rw [List.getElem_map, hg] at this
        rw [List.getElem_map]
        exact (Option.some.inj this).symm

/-- **C108** as far as it goes: over a list of NumPy flow files without repetition, each of which can be read together with its two
frames or cannot be read at all, the real-image sampler on a scheduler that does not loop serves the pairs in one order of the files
(the given one unless shuffling is on), `n` per call, every pair complete and under its own name. Missing: the incomplete rest, which
is answered with `ValueError` instead of a padded batch (`C108_rest_is_lost`). -/
theorem C108_real_numpy_partial {Key : Type} (io : NpIO Rat) (fh fw ih iw : Nat) (split : Key → Key × Key)
    (perm : Key → Nat → List Nat) (cfg : Base.Cfg) (hloop : cfg.loop = false)
    (hp : cfg.randomize = true → ∀ k n, (perm k n).Perm (List.range n))
    (fl : List String) (hnd : fl.Nodup) (key : Key) (content : String → Option Pair) (hc : Contents io fh fw ih iw fl content)
    (n : Nat) (hn : 0 < n) (fuel : Nat) (hf : fl.length < fuel) :
    ∃ order : List String, order.Perm fl ∧ (cfg.randomize = false → order = fl) ∧ ∀ k, ∃ outs s',
      realRun (ofPlain (Base.sched 0 (npWorld io true split perm) cfg fuel)) n k
        (Base.init (npWorld io true split perm) cfg fl key) = some (outs, s') ∧
      outs.length = k ∧ ∀ i r, outs[i]? = some r → Serves n fh fw ih iw (pairsOf content order) i r := by
  have hp' : cfg.randomize = true → PermOK (npWorld io true split perm) := hp
  have hperm := shuffle_perm hp' fl key
  have hi : Inv (npWorld io true split perm) (samplesOf content) (Base.init (npWorld io true split perm) cfg fl key) :=
    inv_fresh (fun p hp => contents_yields hc split perm p (hperm.mem_iff.mp hp))
  have hfl : (Base.init (npWorld io true split perm) cfg fl key).fileList = passOrder (npWorld io true split perm) cfg fl key 0 :=
    shuffles_order _ cfg fl key 0
  have hord : (passOrder (npWorld io true split perm) cfg fl key 0).Perm fl := hfl ▸ hperm
  refine ⟨passOrder (npWorld io true split perm) cfg fl key 0, hord, fun hr => by unfold passOrder; rw [hr]; rfl, ?_⟩
  intro k
  obtain ⟨s', _, _, _, _, hrun⟩ := runBatches_nonloop (0 : Rat) hloop (List.replicate k n) _ hi
  have hrem : rem (samplesOf content) (Base.init (npWorld io true split perm) cfg fl key) =
      (pairsOf content (passOrder (npWorld io true split perm) cfg fl key 0)).map toSample := by
    rw [rem_fresh _ rfl rfl, streamAfter_none, hfl, dropRepeats_eq_self _ (nodup_chain (hord.nodup_iff.mpr hnd)),
      flatMap_samplesOf]
  have hlen : (Base.init (npWorld io true split perm) cfg fl key).fileList.length = fl.length := hperm.length_eq
  have hr := realRun_eq 0 (npWorld io true split perm) cfg fuel n k _ _ _ (hrun fuel (by omega))
  refine ⟨_, s', hr, ?_, ?_⟩
  · have : ∀ (l : List (Sample Rat)) (ns : List Nat), (takeBatches l ns).length = ns.length := by
      intro l ns
      induction ns generalizing l with
      | nil => rfl
      | cons a ns ih => simp [takeBatches, ih]
    rw [List.length_map, List.length_zipWith, this]
    simp
  intro i r hr
  rw [List.getElem?_map] at hr
  have hik : i < k := by
    by_contra hlt
    rw [List.getElem?_eq_none] at hr
    · cases hr
    · rw [List.length_zipWith]; simp; omega
  rw [List.getElem?_zipWith, getElem_takeBatches n k _ i hik, List.getElem?_replicate, if_pos hik, hrem] at hr
  simp only [Option.map_some, Option.some.injEq] at hr
  have hfits : Fits fh fw ih iw (pairsOf content (passOrder (npWorld io true split perm) cfg fl key 0)) := by
    intro q hq
    obtain ⟨p, hp1, hp2⟩ := List.mem_filterMap.mp hq
    have := hc p (hord.mem_iff.mp hp1)
    cases hcp : content p with
    | none => rw [hcp] at hp2; cases hp2
    | some t =>
      rw [hcp] at hp2 this
      cases hp2
      exact this.2.2
  generalize pairsOf content (passOrder (npWorld io true split perm) cfg fl key 0) = l at hr hfits ⊢
  have hmap : (List.drop (n * i) (l.map toSample)).take n = ((l.drop (n * i)).take n).map toSample := by
    rw [List.map_take, List.map_drop]
  have hlc : ((l.drop (n * i)).take n).length = min n (l.length - n * i) := by simp
  have hfits' : Fits fh fw ih iw ((l.drop (n * i)).take n) :=
    fun q hq => hfits q (List.mem_of_mem_drop (List.mem_of_mem_take hq))
  rw [hmap] at hr
  unfold Serves
  split
  · rename_i hfull
    have hl : ((l.drop (n * i)).take n).length = n := by omega
    have hne : (l.drop (n * i)).take n ≠ [] := by intro h; rw [h] at hl; simp at hl; omega
    rw [if_neg (by simpa using hne)] at hr
    obtain ⟨b, hb, hs⟩ := assemble_full (cfg := cfg) hne hfits' hl
    rw [hb] at hr
    exact ⟨asReal b, hr.symm, hs⟩
  · rename_i hnf
    split
    · rename_i hlt
      have hne : (l.drop (n * i)).take n ≠ [] := by
        intro h
        rw [h] at hlc
        simp only [List.length_nil] at hlc
        omega
      rw [if_neg (by simpa using hne)] at hr
      rw [assemble_short (cfg := cfg) hne hfits' (by omega)] at hr
      exact hr.symm
    · rename_i hge
      have he : (l.drop (n * i)).take n = [] := List.eq_nil_of_length_eq_zero (by omega)
      rw [he, List.map_nil, if_pos rfl] at hr
      exact hr.symm

/-- **C108** fails whenever the number of usable files is not a multiple of the batch size: however often the sampler is called, no
batch ever shows the file of a pair of the incomplete rest, although every one of these files can be read. -/
theorem C108_rest_is_lost {Key : Type} (io : NpIO Rat) (fh fw ih iw : Nat) (split : Key → Key × Key)
    (perm : Key → Nat → List Nat) (cfg : Base.Cfg) (hloop : cfg.loop = false)
    (hp : cfg.randomize = true → ∀ k n, (perm k n).Perm (List.range n))
    (fl : List String) (hnd : fl.Nodup) (key : Key) (content : String → Option Pair) (hc : Contents io fh fw ih iw fl content)
    (n : Nat) (hn : 0 < n) (fuel : Nat) (hf : fl.length < fuel)
    (hrest : ¬ n ∣ (fl.filter (fun p => (content p).isSome)).length) :
    ∃ p ∈ fl, (content p).isSome ∧ ∀ k outs s', realRun (ofPlain (Base.sched 0 (npWorld io true split perm) cfg fuel)) n k
        (Base.init (npWorld io true split perm) cfg fl key) = some (outs, s') →
      ∀ b names, .ok b ∈ outs → b.files = some names → p ∉ names := by
  obtain ⟨order, ho, ho2, hk⟩ := C108_real_numpy_partial io fh fw ih iw split perm cfg hloop hp fl hnd key content hc n hn fuel hf
  have hnames : (pairsOf content order).map Prod.fst = order.filter (fun p => (content p).isSome) := by
    unfold pairsOf
    clear ho ho2 hk
    induction order with
    | nil => rfl
    | cons p l ihl =>
      cases h : content p with
      | none => rw [List.filterMap_cons, h, List.filter_cons, h]; exact ihl
      | some t =>
        rw [List.filterMap_cons, h, List.filter_cons, h]
        show p :: _ = p :: _
        rw [ihl]
  have hlen : (pairsOf content order).length = (fl.filter (fun p => (content p).isSome)).length := by
    have := (ho.filter (fun p => (content p).isSome)).length_eq
    rw [← this, ← hnames, List.length_map]
  have hnd' : ((pairsOf content order).map Prod.fst).Nodup := by
    rw [hnames]; exact (ho.nodup_iff.mpr hnd).filter _
  generalize hl : pairsOf content order = l at *
  have hpos : l.length ≠ 0 := fun h => hrest (by rw [← hlen, h]; exact Dvd.intro 0 rfl)
  have hlast : l.length - 1 < (l.map Prod.fst).length := by simp; omega
  have hmem : (l.map Prod.fst)[l.length - 1] ∈ order.filter (fun p => (content p).isSome) := by
    rw [← hnames]; exact List.getElem_mem _
  rw [List.mem_filter] at hmem
  refine ⟨(l.map Prod.fst)[l.length - 1], ho.mem_iff.mp hmem.1, hmem.2, ?_⟩
  intro k outs s' hrun b names hb hnames' hin
  obtain ⟨outs', s'', h1, _, h3⟩ := hk k
  rw [h1] at hrun
  cases hrun
  obtain ⟨i, hi⟩ := List.mem_iff_getElem?.mp hb
  have hs := h3 i _ hi
  unfold Serves at hs
  split at hs
  · rename_i hfull
    obtain ⟨b', hb', hsh⟩ := hs
    cases hb'
    have hf' := hsh.files
    rw [hnames'] at hf'
    cases hf'
    obtain ⟨j, hj, hj'⟩ := List.mem_iff_getElem.mp hin
    simp only [List.map_take, List.map_drop] at hj hj'
    rw [List.getElem_take, List.getElem_drop] at hj'
    have := (hnd'.getElem_inj_iff).mp hj'
    have hjn : j < n := by simp at hj; omega
    have : l.length = n * (i + 1) := by rw [Nat.mul_succ]; omega
    exact hrest (by rw [← hlen, this]; exact Dvd.intro _ rfl)
  · split at hs <;> cases hs

/-- Three flow files with frames of one colour pixel, the middle one without a readable flow. -/
def demoIO : NpIO Rat where
  npy p := if p = "d/flow_1.npy" then .ok ⟨[1, 1, 2], [1, 2]⟩ else if p = "d/flow_3.npy" then .ok ⟨[1, 1, 2], [3, 4]⟩
    else if p = "d/flow_4.npy" then .ok ⟨[1, 1, 2], [5, 6]⟩ else .error .fileNotFound
  rgb p := .ok ⟨[1, 1, 3], [if p = "d/img_0.jpg" then 0 else if p = "d/img_1.jpg" then 1 else if p = "d/img_2.jpg" then 2
    else if p = "d/img_3.jpg" then 3 else 4, 7, 7]⟩

/-- Its contents. -/
def demoContent (p : String) : Option Pair :=
  if p = "d/flow_1.npy" then some ⟨⟨[1, 1, 2], [1, 2]⟩, ⟨[1, 1, 3], [0, 7, 7]⟩, ⟨[1, 1, 3], [1, 7, 7]⟩⟩
  else if p = "d/flow_3.npy" then some ⟨⟨[1, 1, 2], [3, 4]⟩, ⟨[1, 1, 3], [2, 7, 7]⟩, ⟨[1, 1, 3], [3, 7, 7]⟩⟩
  else if p = "d/flow_4.npy" then some ⟨⟨[1, 1, 2], [5, 6]⟩, ⟨[1, 1, 3], [3, 7, 7]⟩, ⟨[1, 1, 3], [4, 7, 7]⟩⟩ else none

/-- The list of the example. -/
def demoList : List String := ["d/flow_1.npy", "d/flow_2.npy", "d/flow_3.npy", "d/flow_4.npy"]

theorem demo_contents : Contents demoIO 1 1 1 1 demoList demoContent := by
  intro p hp
  simp only [demoList, List.mem_cons, List.not_mem_nil, or_false] at hp
  rcases hp with rfl | rfl | rfl | rfl
  · exact ⟨rfl, ⟨"d/img_0.jpg".toList, "d/img_1.jpg".toList, by decide +kernel, by decide +kernel, by decide +kernel⟩, rfl, rfl, rfl, rfl, rfl, rfl⟩
  · exact ⟨.fileNotFound, rfl⟩
  · exact ⟨rfl, ⟨"d/img_2.jpg".toList, "d/img_3.jpg".toList, by decide +kernel, by decide +kernel, by decide +kernel⟩, rfl, rfl, rfl, rfl, rfl, rfl⟩
  · exact ⟨rfl, ⟨"d/img_3.jpg".toList, "d/img_4.jpg".toList, by decide +kernel, by decide +kernel, by decide +kernel⟩, rfl, rfl, rfl, rfl, rfl, rfl⟩

/-- The hypotheses are met, with and without a rest: three usable files in batches of two. -/
example := C108_real_numpy_partial demoIO 1 1 1 1 (fun k : Nat => (k, k)) (fun _ n => List.range n) ⟨false, true⟩ rfl
  (fun _ _ _ => List.Perm.refl _) demoList (by decide +kernel) 0 demoContent demo_contents 2 (by decide) 9 (by decide)

example := C108_rest_is_lost demoIO 1 1 1 1 (fun k : Nat => (k, k)) (fun _ n => List.range n) ⟨false, true⟩ rfl
  (fun _ _ _ => List.Perm.refl _) demoList (by decide +kernel) 0 demoContent demo_contents 2 (by decide) 9 (by decide) (by decide +kernel)

end Verif.NumpyPipeline
