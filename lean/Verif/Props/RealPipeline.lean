import Verif.Props.FormatInit
import Verif.Props.StackReal
/-!
# Property C107: from the MAT files to the batches of the real-image sampler

The layers are those of `Model/Formats.lean` (mat.py), `Model/Base.lean` (scheduler/base.py), `Model/Prefetch.lean` (prefetch.py) and
`Model/Sampler.lean` (sampler/base.py, real.py), put together.
-/

namespace Verif.RealPipeline
open Verif Base Formats Sampler

/-- What one MAT file of a data set of real images holds. -/
structure Pair where
  flow : Arr Rat
  first : Arr Rat
  second : Arr Rat
  deriving DecidableEq, Repr

/-- The file `p` can be read and holds the pair `t` at the requested size. -/
def Holds (io : MatIO) (h w : Nat) (p : String) (t : Pair) : Prop :=
  (∃ data, matRead io p = .ok data ∧ data.lookup "V" = some t.flow ∧ data.lookup "I0" = some t.first ∧
    data.lookup "I1" = some t.second) ∧
  t.flow.shape = [h, w, 2] ∧ t.first.shape = [h, w] ∧ t.second.shape = [h, w] ∧ t.flow.WF ∧ t.first.WF ∧ t.second.WF

/-- The file `p` cannot be read, or lacks one of the three arrays. -/
def Unusable (io : MatIO) (p : String) : Prop :=
  ∀ data, matRead io p = .ok data →
    data.lookup "V" = none ∨ data.lookup "I0" = none ∨ data.lookup "I1" = none

/-- `ShowsPairs n h w l b`: the batch has `n` rows; the first ones are the pairs `l` in order, flagged, each with the name of its
file; the others are zero, unflagged and nameless. -/
structure ShowsPairs (n h w : Nat) (l : List (String × Pair)) (b : RealBatch Rat) : Prop where
  flow_shape : b.flow.shape = [n, h, w, 2]
  mask : b.mask = List.replicate l.length true ++ List.replicate (n - l.length) false
  flow : ∀ i (hi : i < l.length), b.flow.row i = l[i].2.flow
  flow_pad : ∀ i, l.length ≤ i → i < n → b.flow.row i = Arr.zeros 0 [h, w, 2]
  images : ∃ a c, b.images1 = some a ∧ b.images2 = some c ∧ a.shape = [n, h, w] ∧ c.shape = [n, h, w] ∧
    (∀ i (hi : i < l.length), a.row i = l[i].2.first ∧ c.row i = l[i].2.second) ∧
    ∀ i, l.length ≤ i → i < n → a.row i = Arr.zeros 0 [h, w] ∧ c.row i = Arr.zeros 0 [h, w]
  files : b.files = some (l.map Prod.fst ++ List.replicate (n - l.length) "")
  params : b.params = none

/-- The pairs of the files of a list, in order, with their names. -/
def pairsOf (content : String → Option Pair) (order : List String) : List (String × Pair) :=
  order.filterMap (fun p => (content p).map (fun t => (p, t)))

/-- The sample a pair gives. -/
def toSample (q : String × Pair) : Sample Rat := ⟨q.2.flow, some q.2.first, some q.2.second, some [q.1]⟩

theorem matLoad_holds {io : MatIO} {h w : Nat} {p : String} {t : Pair} (ht : Holds io h w p t) :
    matLoad io ⟨true, h, w⟩ p = .ok (toSample (p, t)) := by
  obtain ⟨⟨data, hr, hv, h0, h1⟩, s0, s1, s2, _⟩ := ht
  unfold matLoad
  rw [hr]
  simp [hv, h0, h1, matImage, s1, s2, matFlow, s0, matFit, toSample]

theorem matLoad_unusable {io : MatIO} {h w : Nat} {p : String} (hu : Unusable io p) :
    ∃ e, matLoad io ⟨true, h, w⟩ p = .error e := by
  unfold matLoad
  cases hr : matRead io p with
  | error e => exact ⟨e, rfl⟩
  | ok data =>
    rcases hu data hr with h0 | h0 | h0
    · simp [h0]
    · cases hv : data.lookup "V" <;> simp [h0, hv]
    · cases hv : data.lookup "V" <;> cases data.lookup "I0" <;> simp [h0, hv]

/-- The samples of a file. -/
def samplesOf (content : String → Option Pair) (p : String) : List (Sample Rat) :=
  match content p with
  | some t => [toSample (p, t)]
  | none => []

theorem flatMap_samplesOf (content : String → Option Pair) (l : List String) :
    l.flatMap (samplesOf content) = (pairsOf content l).map toSample := by
  induction l with
  | nil => rfl
  | cons p l ih =>
    rw [List.flatMap_cons, ih]
    unfold samplesOf pairsOf
    cases h : content p <;> simp [h]

/-- The contents of the files of a list. -/
def Contents (io : MatIO) (h w : Nat) (fl : List String) (content : String → Option Pair) : Prop :=
  ∀ p ∈ fl, match content p with
    | some t => Holds io h w p t
    | none => Unusable io p

theorem contents_yields {Key : Type} {io : MatIO} {h w : Nat} {fl : List String} {content : String → Option Pair}
    (hc : Contents io h w fl content) (split : Key → Key × Key) (perm : Key → Nat → List Nat) :
    ∀ p ∈ fl, Yields (matWorld io ⟨true, h, w⟩ split perm) p (samplesOf content p) := by
  intro p hp
  have h1 := FormatInit.C87_one_sample io ⟨true, h, w⟩ split perm p
  have h2 := hc p hp
  unfold samplesOf
  cases ht : content p with
  | some t =>
    rw [ht] at h2
    exact (h1.1 _ (matLoad_holds h2)).1
  | none =>
    rw [ht] at h2
    obtain ⟨e, he⟩ := matLoad_unusable (h := h) (w := w) h2
    exact h1.2 e he

theorem contents_uniform {io : MatIO} {h w : Nat} {fl : List String} {content : String → Option Pair}
    (hc : Contents io h w fl content) :
    Uniform (fl.flatMap (samplesOf content)) [h, w, 2] (some [h, w]) (some [h, w]) true := by
  have hx : ∀ x ∈ fl.flatMap (samplesOf content), ∃ p t, Holds io h w p t ∧ x = toSample (p, t) := by
    intro x hx
    obtain ⟨p, hp, hxp⟩ := List.mem_flatMap.mp hx
    have h2 := hc p hp
    unfold samplesOf at hxp
    cases ht : content p with
    | none => rw [ht] at hxp; simp at hxp
    | some t =>
      rw [ht] at h2 hxp
      exact ⟨p, t, h2, by simpa using hxp⟩
  refine ⟨rfl, fun sh e => by cases e; rfl, fun sh e => by cases e; rfl, ?_, ?_, ?_, ?_⟩
  · intro x hm
    obtain ⟨p, t, ht, rfl⟩ := hx x hm
    exact ⟨ht.2.1, ht.2.2.2.2.1⟩
  · intro x hm
    obtain ⟨p, t, ht, rfl⟩ := hx x hm
    exact ⟨congrArg some ht.2.2.1, fun a e => by cases e; exact ht.2.2.2.2.2.1⟩
  · intro x hm
    obtain ⟨p, t, ht, rfl⟩ := hx x hm
    exact ⟨congrArg some ht.2.2.2.1, fun a e => by cases e; exact ht.2.2.2.2.2.2⟩
  · intro x hm
    obtain ⟨p, t, ht, rfl⟩ := hx x hm
    exact ⟨[p], rfl, by simp⟩

/-- What the real-image sampler makes of a batch of a plain scheduler. -/
def asReal (b : Base.Batch Rat) : RealBatch Rat :=
  { flow := b.flow, images1 := b.images1, images2 := b.images2, mask := b.mask, files := b.files, params := none, done := none }

theorem realRun_eq {D Key : Type} (zero : Rat) (w : World Rat D Key) (cfg : Base.Cfg) (fuel n : Nat) :
    ∀ (k : Nat) (s : Base.St D Key) (outs : List (Except Exc (Base.Batch Rat))) (s' : Base.St D Key),
    runBatches zero w cfg fuel (List.replicate k n) s = some (outs, s') →
    realRun (ofPlain (Base.sched zero w cfg fuel)) n k s = some (outs.map (Except.map asReal), s') := by
  intro k
  induction k with
  | zero => intro s outs s' h; cases h; rfl
  | succ k ih =>
    intro s outs s' h
    rw [List.replicate_succ, runBatches] at h
    cases hg : Base.getBatch zero w cfg fuel n s with
    | none => rw [hg] at h; cases h
    | some q =>
      obtain ⟨r, s1⟩ := q
      rw [hg] at h
      dsimp only at h
      cases hk : runBatches zero w cfg fuel (List.replicate k n) s1 with
      | none => rw [hk] at h; cases h
      | some q2 =>
        obtain ⟨rs, s2⟩ := q2
        rw [hk] at h
        cases h
        have hn : realNext (ofPlain (Base.sched zero w cfg fuel)) n s = some (Except.map asReal r, s1) := by
          have e : (ofPlain (Base.sched zero w cfg fuel)).getBatch n s = some (r, s1) := hg
          unfold realNext episodeOver realGetNext
          rw [e]
          cases r <;> rfl
        rw [realRun, hn]
        simp only
        rw [ih s1 rs _ hk]
        rfl

theorem getElem_takeBatches {V : Type} (n : Nat) : ∀ (k : Nat) (l : List (Sample V)) (i : Nat) (_ : i < k),
    (takeBatches l (List.replicate k n))[i]? = some ((l.drop (n * i)).take n) := by
  intro k
  induction k with
  | zero => intro l i hi; omega
  | succ k ih =>
    intro l i hi
    rw [List.replicate_succ, takeBatches]
    cases i with
    | zero => simp
    | succ i =>
      rw [List.getElem?_cons_succ, ih _ _ (by omega), List.drop_drop]
      congr 3
      rw [Nat.mul_succ, Nat.add_comm]

theorem shows_real {n h w : Nat} {l : List (String × Pair)} (hne : l ≠ [])
    (hs : ∀ q ∈ l, q.2.flow.shape = [h, w, 2] ∧ q.2.first.shape = [h, w] ∧ q.2.second.shape = [h, w])
    {b : Base.Batch Rat} (hb : Shows 0 (l.map toSample) n b) (hn : l.length ≤ n) : ShowsPairs n h w l (asReal b) := by
  obtain ⟨q0, hq0⟩ := List.exists_mem_of_ne_nil l hne
  have hm0 : toSample q0 ∈ l.map toSample := List.mem_map_of_mem hq0
  have hlen : (l.map toSample).length = l.length := by simp
  have hmask := hb.mask
  have hflow := hb.flow_rows
  rw [hlen] at hmask
  refine ⟨?_, hmask, ?_, ?_, ?_, ?_, rfl⟩
  · have := hb.flow_shape _ hm0
    show b.flow.shape = _
    rw [this]
    show n :: q0.2.flow.shape = _
    rw [(hs q0 hq0).1]
  · intro i hi
    show b.flow.row i = _
    rw [hflow i (by simpa using hi), List.getElem_map]
    rfl
  · intro i h1 h2
    show b.flow.row i = _
    rw [hb.flow_pad i (by simpa using h1) h2 _ hm0]
    show Arr.zeros 0 q0.2.flow.shape = _
    rw [(hs q0 hq0).1]
  · rcases hb.im1 with ⟨_, x, hx, hx'⟩ | ⟨a, sha, ea, esa, ra, sa, pa⟩
    · obtain ⟨q, _, rfl⟩ := List.mem_map.mp hx
      cases hx'
    · rcases hb.im2 with ⟨_, x, hx, hx'⟩ | ⟨c, shc, ec, esc, rc, sc, pc⟩
      · obtain ⟨q, _, rfl⟩ := List.mem_map.mp hx
        cases hx'
      · have e1 : sha = [h, w] := by rw [← sa _ hm0 q0.2.first rfl]; exact (hs q0 hq0).2.1
        have e2 : shc = [h, w] := by rw [← sc _ hm0 q0.2.second rfl]; exact (hs q0 hq0).2.2
        subst e1 e2
        refine ⟨a, c, ea, ec, esa, esc, ?_, ?_⟩
        · intro i hi
          have h1 := ra i (by simpa using hi)
          have h2 := rc i (by simpa using hi)
          rw [List.getElem_map] at h1 h2
          exact ⟨(Option.some.inj h1).symm, (Option.some.inj h2).symm⟩
        · intro i h1 h2
          exact ⟨pa i (by simpa using h1) h2, pc i (by simpa using h1) h2⟩
  · rcases hb.files with ⟨_, hx⟩ | ⟨fs, e, hl, hr, hp⟩
    · have := hx _ hm0
      cases this
    · show b.files = _
      rw [e]
      congr 1
      apply List.ext_getElem
      · rw [hl, List.length_append, List.length_map, List.length_replicate]; omega
      · intro i h1 h2
        have hg : fs.getD i "" = fs[i] := by rw [List.getD_eq_getElem?_getD, List.getElem?_eq_getElem h1]; rfl
        by_cases hi : i < l.length
        · have := hr i (by simpa using hi)
          rw [List.getElem_map, hg] at this
          rw [List.getElem_append_left (by simpa using hi), List.getElem_map]
          exact (Option.some.inj this).symm
        · have := hp i (by simpa using Nat.le_of_not_lt hi) (hl ▸ h1)
          rw [hg] at this
          rw [this, List.getElem_append_right (by simpa using Nat.le_of_not_lt hi), List.getElem_replicate]

/-- What the calls show: call `i` shows the pairs number `n * i` to `n * i + n - 1` of the list, or the end if there are none. -/
def Serves (n h w : Nat) (l : List (String × Pair)) (i : Nat) (r : Except Exc (RealBatch Rat)) : Prop :=
  if (l.drop (n * i)).take n = [] then r = .error .stopIteration
  else ∃ b, r = .ok b ∧ ShowsPairs n h w ((l.drop (n * i)).take n) b ∧ b.done = none

/-- **C107**: over a list of MAT files without repetition, each of which holds a flow field and an image pair of the requested size or
is unusable, the real-image sampler on a scheduler that does not loop serves, call by call, exactly the pairs of the usable files, each
once, in one order of the files (the given one unless shuffling is on), every pair complete and under its own name; then it ends. -/
theorem C107_real_mat {Key : Type} (io : MatIO) (h w : Nat) (split : Key → Key × Key) (perm : Key → Nat → List Nat)
    (cfg : Base.Cfg) (hloop : cfg.loop = false) (hp : cfg.randomize = true → ∀ k n, (perm k n).Perm (List.range n))
    (fl : List String) (hnd : fl.Nodup) (key : Key) (content : String → Option Pair) (hc : Contents io h w fl content)
    (n fuel : Nat) (hf : fl.length < fuel) :
    ∃ order : List String, order.Perm fl ∧ (cfg.randomize = false → order = fl) ∧ ∀ k, ∃ outs s',
      realRun (ofPlain (Base.sched 0 (matWorld io ⟨true, h, w⟩ split perm) cfg fuel)) n k
        (Base.init (matWorld io ⟨true, h, w⟩ split perm) cfg fl key) = some (outs, s') ∧
      outs.length = k ∧ ∀ i r, outs[i]? = some r → Serves n h w (pairsOf content order) i r := by
  have hp' : cfg.randomize = true → PermOK (matWorld io ⟨true, h, w⟩ split perm) := hp
  have hperm := shuffle_perm hp' fl key
  have hi : Inv (matWorld io ⟨true, h, w⟩ split perm) (samplesOf content)
      (Base.init (matWorld io ⟨true, h, w⟩ split perm) cfg fl key) :=
    inv_fresh (fun p hp => contents_yields hc split perm p (hperm.mem_iff.mp hp))
  have hfl : (Base.init (matWorld io ⟨true, h, w⟩ split perm) cfg fl key).fileList =
      passOrder (matWorld io ⟨true, h, w⟩ split perm) cfg fl key 0 := shuffles_order _ cfg fl key 0
  have hord : (passOrder (matWorld io ⟨true, h, w⟩ split perm) cfg fl key 0).Perm fl := hfl ▸ hperm
  refine ⟨passOrder (matWorld io ⟨true, h, w⟩ split perm) cfg fl key 0, hord,
    fun hr => by unfold passOrder; rw [hr]; rfl, ?_⟩
  intro k
  obtain ⟨s', _, _, _, _, hrun⟩ := runBatches_nonloop (0 : Rat) hloop (List.replicate k n) _ hi
  have hrem : rem (samplesOf content) (Base.init (matWorld io ⟨true, h, w⟩ split perm) cfg fl key) =
      (pairsOf content (passOrder (matWorld io ⟨true, h, w⟩ split perm) cfg fl key 0)).map toSample := by
    rw [rem_fresh _ rfl rfl, streamAfter_none, hfl, dropRepeats_eq_self _ (nodup_chain (hord.nodup_iff.mpr hnd)),
      flatMap_samplesOf]
  have hlen : (Base.init (matWorld io ⟨true, h, w⟩ split perm) cfg fl key).fileList.length = fl.length := hperm.length_eq
  have hr := realRun_eq 0 (matWorld io ⟨true, h, w⟩ split perm) cfg fuel n k _ _ _ (hrun fuel (by omega))
  refine ⟨_, s', hr, ?_, ?_⟩
  · have : ∀ (l : List (Sample Rat)) (ns : List Nat), (takeBatches l ns).length = ns.length := by
      intro l ns
      induction ns generalizing l with
      | nil => rfl
      | cons a ns ih => simp [takeBatches, ih]
    rw [List.length_map, List.length_zipWith, this]
    simp
  intro i r hr
  rw [List.getElem?_map] at hr
  have hik : i < k := by
    by_contra hlt
    rw [List.getElem?_eq_none] at hr
    · cases hr
    · rw [List.length_zipWith]; simp; omega
  rw [List.getElem?_zipWith, getElem_takeBatches n k _ i hik, List.getElem?_replicate, if_pos hik, hrem] at hr
  simp only [Option.map_some, Option.some.injEq] at hr
  generalize hl : pairsOf content (passOrder (matWorld io ⟨true, h, w⟩ split perm) cfg fl key 0) = l at hr ⊢
  have hmap : (List.drop (n * i) (l.map toSample)).take n = ((l.drop (n * i)).take n).map toSample := by
    rw [List.map_take, List.map_drop]
  rw [hmap] at hr
  unfold Serves
  split
  · rename_i he
    rw [he, List.map_nil, if_pos rfl] at hr
    exact hr.symm
  · rename_i hne
    rw [if_neg (by simpa using hne)] at hr
    have hmem : ∀ q ∈ (l.drop (n * i)).take n, ∃ p, p ∈ fl ∧ content p = some q.2 ∧ p = q.1 := by
      intro q hq
      have hq' : q ∈ l := List.mem_of_mem_drop (List.mem_of_mem_take hq)
      rw [← hl] at hq'
      obtain ⟨p, hp1, hp2⟩ := List.mem_filterMap.mp hq'
      cases hcp : content p with
      | none => rw [hcp] at hp2; cases hp2
      | some t =>
        rw [hcp] at hp2
        cases hp2
        exact ⟨p, hord.mem_iff.mp hp1, hcp, rfl⟩
    have hu : Uniform (((l.drop (n * i)).take n).map toSample) [h, w, 2] (some [h, w]) (some [h, w]) true := by
      refine uniform_sub (contents_uniform hc) ?_
      intro x hx
      obtain ⟨q, hq, rfl⟩ := List.mem_map.mp hx
      obtain ⟨p, hp1, hp2, hp3⟩ := hmem q hq
      refine List.mem_flatMap.mpr ⟨p, hp1, ?_⟩
      unfold samplesOf
      rw [hp2, hp3]
      exact List.mem_singleton.mpr rfl
    obtain ⟨b, hb, hsh, _⟩ := assemble_uniform (0 : Rat) cfg (n := n) (l := ((l.drop (n * i)).take n).map toSample)
      (by simpa using hne) (by simp) (by simp [hloop]) hu
    rw [hb] at hr
    refine ⟨asReal b, hr.symm, shows_real hne ?_ hsh (by simp), rfl⟩
    intro q hq
    obtain ⟨p, hp1, hp2, _⟩ := hmem q hq
    have := hc p hp1
    rw [hp2] at this
    exact ⟨this.2.1, this.2.2.1, this.2.2.2.1⟩

/-- **C107**, looping (the default of `make`): the sampler serves without end, call by call, the pairs of the usable files, in passes each of
which goes through every file once (in the given order unless shuffling is on), every batch full. -/
theorem C107_real_mat_looping {Key : Type} (io : MatIO) (h w : Nat) (split : Key → Key × Key) (perm : Key → Nat → List Nat)
    (cfg : Base.Cfg) (hloop : cfg.loop = true) (hp : cfg.randomize = true → ∀ k n, (perm k n).Perm (List.range n))
    (fl : List String) (hnd : fl.Nodup) (key : Key) (content : String → Option Pair) (hc : Contents io h w fl content)
    (hne : pairsOf content fl ≠ []) (n : Nat) (hn : 0 < n) (fuel : Nat) (hf : 2 * fl.length ≤ fuel) :
    ∃ order : Nat → List String, (∀ k, (order k).Perm fl) ∧ (cfg.randomize = false → ∀ k, order k = fl) ∧ ∀ N, ∃ outs s',
      realRun (ofPlain (Base.sched 0 (matWorld io ⟨true, h, w⟩ split perm) cfg fuel)) n N
        (Base.init (matWorld io ⟨true, h, w⟩ split perm) cfg fl key) = some (outs, s') ∧
      outs.length = N ∧ ∃ K, N * n ≤ ((List.range K).flatMap (fun k => pairsOf content (order k))).length ∧
        ∀ i, i < N → ∃ b, outs[i]? = some (.ok b) ∧
          ShowsPairs n h w ((((List.range K).flatMap (fun k => pairsOf content (order k))).drop (n * i)).take n) b ∧ b.done = none := by
  let w' := matWorld io ⟨true, h, w⟩ split perm
  have hp' : cfg.randomize = true → PermOK w' := hp
  have hperm := shuffle_perm hp' fl key
  have hmem : ∀ p, p ∈ (Base.init w' cfg fl key).fileList ↔ p ∈ fl := fun p => hperm.mem_iff
  have hi : Inv w' (samplesOf content) (Base.init w' cfg fl key) :=
    inv_fresh (fun p hp => contents_yields hc split perm p ((hmem p).mp hp))
  have hord : ∀ k, (passOrder w' cfg fl key k).Perm fl := by
    intro k
    unfold passOrder
    split
    · rename_i hr; exact epochOrder_perm (hp' hr) key fl (k + 1)
    · exact List.Perm.refl _
  refine ⟨passOrder w' cfg fl key, hord, fun hr k => by simp [passOrder, hr], ?_⟩
  intro N
  obtain ⟨p0, hp0, hc0⟩ : ∃ p ∈ fl, samplesOf content p ≠ [] := by
    obtain ⟨q, hq⟩ := List.exists_mem_of_ne_nil _ hne
    obtain ⟨p, hp, hq'⟩ := List.mem_filterMap.mp hq
    refine ⟨p, hp, ?_⟩
    unfold samplesOf
    cases hcp : content p with
    | none => rw [hcp] at hq'; cases hq'
    | some t => simp
  obtain ⟨xs, s', j, hxl, _, _, hstream, hrun⟩ := runBatches_loop (0 : Rat) hloop hp' (List.replicate N n)
    (Base.init w' cfg fl key) (by intro m hm; rw [(List.mem_replicate.mp hm).2]; exact hn) hi ⟨p0, (hmem p0).mpr hp0, hc0⟩
  have hall : loopStream w' cfg (samplesOf content) (Base.init w' cfg fl key) j =
      ((List.range (j + 1)).flatMap (fun k => pairsOf content (passOrder w' cfg fl key k))).map toSample := by
    rw [loopStream_init, List.map_flatMap]
    congr 1
    funext k
    rw [streamAfter_none, shuffles_order]
    show List.flatMap (samplesOf content) (dropRepeats (passOrder w' cfg fl key k)) = _
    rw [dropRepeats_eq_self _ (nodup_chain ((hord k).nodup_iff.mpr hnd)), flatMap_samplesOf]
  have h0 := hstream 0
  rw [Nat.zero_add, hall] at h0
  generalize hL : (List.range (j + 1)).flatMap (fun k => pairsOf content (passOrder w' cfg fl key k)) = L at h0
  have hsum : (List.replicate N n).sum = N * n := by simp
  have hLlen : N * n ≤ L.length := by
    have := congrArg List.length h0
    rw [List.length_map, List.length_append, hxl, hsum] at this
    omega
  have hxs : xs = (L.take (N * n)).map toSample := by
    have := congrArg (List.take (N * n)) h0
    rw [← hsum, ← hxl, List.take_left', hxl, hsum, ← List.map_take] at this
    · exact this.symm
    · rfl
  have hlen : (Base.init w' cfg fl key).fileList.length = fl.length := hperm.length_eq
  have hr := realRun_eq 0 w' cfg fuel n N _ _ _ (hrun fuel (by omega))
  refine ⟨_, s', hr, ?_, j + 1, by rw [hL]; exact hLlen, ?_⟩
  · have : ∀ (l : List (Sample Rat)) (ns : List Nat), (takeBatches l ns).length = ns.length := by
      intro l ns
      induction ns generalizing l with
      | nil => rfl
      | cons a ns ih => simp [takeBatches, ih]
    rw [List.length_map, List.length_zipWith, this]
    simp
  intro i hiN
  rw [hL]
  have hmul : n * i + n ≤ N * n := by
    have := Nat.mul_le_mul_right n (show i + 1 ≤ N by omega)
    rw [Nat.add_mul, Nat.one_mul, Nat.mul_comm i n] at this
    exact this
  have hmap : (List.drop (n * i) xs).take n = ((L.drop (n * i)).take n).map toSample := by
    rw [hxs, ← List.map_drop, ← List.map_take, List.drop_take, List.take_take, Nat.min_eq_left (by omega)]
  have hfull : ((L.drop (n * i)).take n).length = n := by
    rw [List.length_take, List.length_drop]; omega
  rw [List.getElem?_map, List.getElem?_zipWith, getElem_takeBatches n N _ i hiN, List.getElem?_replicate, if_pos hiN, hmap]
  simp only [Option.map_some]
  have hmem' : ∀ q ∈ (L.drop (n * i)).take n, ∃ p, p ∈ fl ∧ content p = some q.2 ∧ p = q.1 := by
    intro q hq
    have hq' : q ∈ L := List.mem_of_mem_drop (List.mem_of_mem_take hq)
    rw [← hL] at hq'
    obtain ⟨k, _, hq'⟩ := List.mem_flatMap.mp hq'
    obtain ⟨p, hp1, hp2⟩ := List.mem_filterMap.mp hq'
    cases hcp : content p with
    | none => rw [hcp] at hp2; cases hp2
    | some t =>
      rw [hcp] at hp2
      cases hp2
      exact ⟨p, (hord k).mem_iff.mp hp1, hcp, rfl⟩
  have hu : Uniform (((L.drop (n * i)).take n).map toSample) [h, w, 2] (some [h, w]) (some [h, w]) true := by
    refine uniform_sub (contents_uniform hc) ?_
    intro x hx
    obtain ⟨q, hq, rfl⟩ := List.mem_map.mp hx
    obtain ⟨p, hp1, hp2, hp3⟩ := hmem' q hq
    refine List.mem_flatMap.mpr ⟨p, hp1, ?_⟩
    unfold samplesOf
    rw [hp2, hp3]
    exact List.mem_singleton.mpr rfl
  have hnil : (L.drop (n * i)).take n ≠ [] := by
    intro he
    rw [he] at hfull
    simp at hfull
    omega
  obtain ⟨b, hb, hsh, _⟩ := assemble_uniform (0 : Rat) cfg (n := n) (l := ((L.drop (n * i)).take n).map toSample)
    (by simpa using hnil) (by rw [List.length_map]; omega) (by intro _; rw [List.length_map]; exact hfull) hu
  rw [hb]
  refine ⟨asReal b, rfl, shows_real hnil ?_ hsh (by omega), rfl⟩
  intro q hq
  obtain ⟨p, hp1, hp2, _⟩ := hmem' q hq
  have := hc p hp1
  rw [hp2] at this
  exact ⟨this.2.1, this.2.2.1, this.2.2.2.1⟩

theorem realHistory_nexts {S : Type} (sch : ISched S (Base.Batch Rat)) (n : Nat) : ∀ (k : Nat) (s : S) (outs) (s' : S),
    realRun sch n k s = some (outs, s') → realHistory sch n (List.replicate k .next) s = some (outs.map batchOut, s') := by
  intro k
  induction k with
  | zero => intro s outs s' h; cases h; rfl
  | succ k ih =>
    intro s outs s' h
    rw [realRun] at h
    cases hn : realNext sch n s with
    | none => rw [hn] at h; cases h
    | some q =>
      obtain ⟨r, s1⟩ := q
      rw [hn] at h
      dsimp only at h
      cases hk : realRun sch n k s1 with
      | none => rw [hk] at h; cases h
      | some q2 =>
        obtain ⟨rs, s2⟩ := q2
        rw [hk] at h
        cases h
        rw [List.replicate_succ, realHistory]
        have e : realStep sch n s .next = some (batchOut r, s1) := by
          unfold realStep
          rw [hn]
          rfl
        rw [e]
        dsimp only
        rw [ih _ _ _ hk]
        rfl

/-- The same for the outcome of a call on the sampler over a prefetching scheduler, which adds `done` flags, never raised, since Python 3.12 (`modern`). -/
def ServesPrefetched (modern : Bool) (n h w : Nat) (l : List (String × Pair)) (i : Nat) (o : Out (RealBatch Rat)) : Prop :=
  if (l.drop (n * i)).take n = [] then o = .raised .stopIteration
  else ∃ b, o = .batch b ∧ ShowsPairs n h w ((l.drop (n * i)).take n) b ∧ b.done = if modern then some (List.replicate n false) else none

/-- **C107** through the prefetching scheduler: whatever the interleaving of the worker thread with the calls of `next` that return,
they serve the same pairs in the same order. `calls` gives for each call an outcome that the prefetching scheduler may show. -/
theorem C107_real_mat_prefetched {Key : Type} (modern : Bool) (io : MatIO) (h w : Nat) (split : Key → Key × Key) (perm : Key → Nat → List Nat)
    (cfg : Base.Cfg) (hloop : cfg.loop = false) (hp : cfg.randomize = true → ∀ k n, (perm k n).Perm (List.range n))
    (fl : List String) (hnd : fl.Nodup) (key : Key) (content : String → Option Pair) (hc : Contents io h w fl content)
    (n : Nat) (hn : 0 < n) (fuel : Nat) (hf : 2 * fl.length < fuel) (pcfg : Prefetch.Cfg) (hb : pcfg.batchSize = n) :
    ∃ order : List String, order.Perm fl ∧ (cfg.randomize = false → order = fl) ∧
      ∀ (calls : List (ISched (Prefetch.St (Base.St (Sample Rat) Key) (Base.Batch Rat)) (Base.Batch Rat))),
      (∀ A ∈ calls, Stack.Meets modern (Stack.plainSrc (Base.sched 0 (matWorld io ⟨true, h, w⟩ split perm) cfg fuel) n) pcfg A) →
      ∀ outs s, Stack.realVia n (calls.map (fun A => (A, .next)))
        (Prefetch.init (Base.init (matWorld io ⟨true, h, w⟩ split perm) cfg fl key)) = some (outs, s) →
      outs.length = calls.length ∧ ∀ i o, outs[i]? = some o → ServesPrefetched modern n h w (pairsOf content order) i o := by
  obtain ⟨order, h1, h2, h3⟩ := C107_real_mat io h w split perm cfg hloop hp fl hnd key content hc n fuel (by omega)
  refine ⟨order, h1, h2, ?_⟩
  intro calls hA outs s hr
  obtain ⟨outs', s', hh, he⟩ := Stack.C82_real_base_partial modern (0 : Rat) (matWorld io ⟨true, h, w⟩ split perm) cfg hp fl key
    (samplesOf content) (contents_yields hc split perm) (contents_uniform hc) (fun hl => by rw [hloop] at hl; cases hl) fuel hf n hn
    pcfg hb (calls.map (fun A => (A, .next)))
    (fun ⟨q, hq, hq'⟩ => by
      obtain ⟨A, _, rfl⟩ := List.mem_map.mp hq
      cases hq')
    (fun q hq => by
      obtain ⟨A, hA', rfl⟩ := List.mem_map.mp hq
      exact hA A hA')
    (fun _ q hq => by
      obtain ⟨A, _, rfl⟩ := List.mem_map.mp hq
      intro h
      cases h)
    outs s hr
  obtain ⟨outs0, s0, g1, g2, g3⟩ := h3 calls.length
  have hm : (calls.map (fun A => (A, Op.next))).map Prod.snd = List.replicate calls.length Op.next := by
    rw [List.map_map]
    exact List.map_const'
  rw [hm, realHistory_nexts _ _ _ _ _ _ g1] at hh
  cases hh
  subst he
  refine ⟨by simp [g2], ?_⟩
  intro i o ho
  rw [List.getElem?_map, List.getElem?_map] at ho
  cases hi : outs0[i]? with
  | none => rw [hi] at ho; cases ho
  | some r =>
    rw [hi] at ho
    cases ho
    have hs := g3 i r hi
    unfold Serves at hs
    unfold ServesPrefetched
    split
    · rename_i hne
      rw [if_pos hne] at hs
      rw [hs]
      rfl
    · rename_i hne
      rw [if_neg hne] at hs
      obtain ⟨b, rfl, hb, hd⟩ := hs
      exact ⟨_, rfl, ⟨hb.flow_shape, hb.mask, hb.flow, hb.flow_pad, hb.images, hb.files, hb.params⟩, by
        show Stack.flags modern n b.done = _
        rw [hd]
        rfl⟩

/-- **C107**, looping, through the prefetching scheduler, likewise. -/
theorem C107_real_mat_looping_prefetched {Key : Type} (modern : Bool) (io : MatIO) (h w : Nat) (split : Key → Key × Key) (perm : Key → Nat → List Nat)
    (cfg : Base.Cfg) (hloop : cfg.loop = true) (hp : cfg.randomize = true → ∀ k n, (perm k n).Perm (List.range n))
    (fl : List String) (hnd : fl.Nodup) (key : Key) (content : String → Option Pair) (hc : Contents io h w fl content)
    (hne : pairsOf content fl ≠ []) (n : Nat) (hn : 0 < n) (fuel : Nat) (hf : 2 * fl.length < fuel) (pcfg : Prefetch.Cfg) (hb : pcfg.batchSize = n) :
    ∃ order : Nat → List String, (∀ k, (order k).Perm fl) ∧ (cfg.randomize = false → ∀ k, order k = fl) ∧
      ∀ (calls : List (ISched (Prefetch.St (Base.St (Sample Rat) Key) (Base.Batch Rat)) (Base.Batch Rat))),
      (∀ A ∈ calls, Stack.Meets modern (Stack.plainSrc (Base.sched 0 (matWorld io ⟨true, h, w⟩ split perm) cfg fuel) n) pcfg A) →
      ∀ outs s, Stack.realVia n (calls.map (fun A => (A, .next)))
        (Prefetch.init (Base.init (matWorld io ⟨true, h, w⟩ split perm) cfg fl key)) = some (outs, s) →
      outs.length = calls.length ∧ ∃ K, calls.length * n ≤ ((List.range K).flatMap (fun k => pairsOf content (order k))).length ∧
        ∀ i, i < calls.length → ∃ b, outs[i]? = some (.batch b) ∧
          ShowsPairs n h w ((((List.range K).flatMap (fun k => pairsOf content (order k))).drop (n * i)).take n) b ∧
          b.done = if modern then some (List.replicate n false) else none := by
  obtain ⟨order, h1, h2, h3⟩ := C107_real_mat_looping io h w split perm cfg hloop hp fl hnd key content hc hne n hn fuel (by omega)
  refine ⟨order, h1, h2, ?_⟩
  intro calls hA outs s hr
  obtain ⟨outs', s', hh, he⟩ := Stack.C82_real_base_partial modern (0 : Rat) (matWorld io ⟨true, h, w⟩ split perm) cfg hp fl key
    (samplesOf content) (contents_yields hc split perm) (contents_uniform hc)
    (fun _ => by
      obtain ⟨q, hq⟩ := List.exists_mem_of_ne_nil _ hne
      obtain ⟨p, hp, hq'⟩ := List.mem_filterMap.mp hq
      refine ⟨p, hp, ?_⟩
      unfold samplesOf
      cases hcp : content p with
      | none => rw [hcp] at hq'; cases hq'
      | some t => simp) fuel hf n hn
    pcfg hb (calls.map (fun A => (A, .next)))
    (fun ⟨q, hq, hq'⟩ => by
      obtain ⟨A, _, rfl⟩ := List.mem_map.mp hq
      cases hq')
    (fun q hq => by
      obtain ⟨A, hA', rfl⟩ := List.mem_map.mp hq
      exact hA A hA')
    (fun _ q hq => by
      obtain ⟨A, _, rfl⟩ := List.mem_map.mp hq
      intro h
      cases h)
    outs s hr
  obtain ⟨outs0, s0, g1, g2, K, g3, g4⟩ := h3 calls.length
  have hm : (calls.map (fun A => (A, Op.next))).map Prod.snd = List.replicate calls.length Op.next := by
    rw [List.map_map]
    exact List.map_const'
  rw [hm, realHistory_nexts _ _ _ _ _ _ g1] at hh
  cases hh
  subst he
  refine ⟨by simp [g2], K, g3, ?_⟩
  intro i hi
  obtain ⟨b, hb, hs, hd⟩ := g4 i hi
  rw [List.getElem?_map, List.getElem?_map, hb]
  exact ⟨_, rfl, ⟨hs.flow_shape, hs.mask, hs.flow, hs.flow_pad, hs.images, hs.files, hs.params⟩, by
    show Stack.flags modern n b.done = _
    rw [hd]
    rfl⟩

/-- A store of three files: `a` and `b` hold pairs, `x` cannot be read. -/
def demoIO : MatIO where
  scipy p := if p = "a" then .ok [("I0", ⟨[1, 1], [1]⟩), ("I1", ⟨[1, 1], [2]⟩), ("V", ⟨[1, 1, 2], [3, 4]⟩)]
    else if p = "b" then .error .notImplemented else .error .fileNotFound
  isHdf5 p := p == "b"
  hdf5 p := if p = "b" then .ok [("V", ⟨[1, 1, 2], [7, 8]⟩), ("I0", ⟨[1, 1], [5]⟩), ("I1", ⟨[1, 1], [6]⟩)] else .error .fileNotFound
  resizeImage a _ _ := .ok a
  resizeFlow a _ _ := .ok a

/-- Its contents. -/
def demoContent (p : String) : Option Pair :=
  if p = "a" then some ⟨⟨[1, 1, 2], [3, 4]⟩, ⟨[1, 1], [1]⟩, ⟨[1, 1], [2]⟩⟩
  else if p = "b" then some ⟨⟨[1, 1, 2], [7, 8]⟩, ⟨[1, 1], [5]⟩, ⟨[1, 1], [6]⟩⟩ else none

theorem demo_contents : Contents demoIO 1 1 ["b", "x", "a"] demoContent := by
  intro p hp
  simp only [List.mem_cons, List.not_mem_nil, or_false] at hp
  rcases hp with rfl | rfl | rfl
  · exact ⟨⟨_, rfl, rfl, rfl, rfl⟩, rfl, rfl, rfl, rfl, rfl, rfl⟩
  · intro data h
    exact nomatch h
  · exact ⟨⟨_, rfl, rfl, rfl, rfl⟩, rfl, rfl, rfl, rfl, rfl, rfl⟩

/-- The hypotheses are met: one batch of three rows shows `b` and `a`, then the end. -/
example : pairsOf demoContent ["b", "x", "a"] =
      [("b", ⟨⟨[1, 1, 2], [7, 8]⟩, ⟨[1, 1], [5]⟩, ⟨[1, 1], [6]⟩⟩), ("a", ⟨⟨[1, 1, 2], [3, 4]⟩, ⟨[1, 1], [1]⟩, ⟨[1, 1], [2]⟩⟩)] ∧
    ∃ outs s', realRun (ofPlain (Base.sched 0 (matWorld demoIO ⟨true, 1, 1⟩ (fun k : Nat => (k, k)) (fun _ n => List.range n)) ⟨false, false⟩ 9))
      3 2 (Base.init (matWorld demoIO ⟨true, 1, 1⟩ (fun k : Nat => (k, k)) (fun _ n => List.range n)) ⟨false, false⟩ ["b", "x", "a"] 0) =
        some (outs, s') ∧
      outs = [.ok ⟨⟨[3, 1, 1, 2], [7, 8, 3, 4, 0, 0]⟩, some ⟨[3, 1, 1], [5, 1, 0]⟩, some ⟨[3, 1, 1], [6, 2, 0]⟩,
        [true, true, false], some ["b", "a", ""], none, none⟩, .error .stopIteration] :=
  ⟨by decide +kernel, _, _, rfl, rfl⟩

example := C107_real_mat demoIO 1 1 (fun k : Nat => (k, k)) (fun _ n => List.range n) ⟨false, true⟩ rfl (fun _ _ _ => List.Perm.refl _)
  ["b", "x", "a"] (by decide) 0 demoContent demo_contents 3 9 (by decide)

example := C107_real_mat_prefetched true demoIO 1 1 (fun k : Nat => (k, k)) (fun _ n => List.range n) ⟨false, true⟩ rfl (fun _ _ _ => List.Perm.refl _)
  ["b", "x", "a"] (by decide) 0 demoContent demo_contents 1 (by decide) 9 (by decide) ⟨1, 2⟩ rfl

example := C107_real_mat_looping demoIO 1 1 (fun k : Nat => (k, k)) (fun _ n => List.range n) ⟨true, true⟩ rfl (fun _ _ _ => List.Perm.refl _)
  ["b", "x", "a"] (by decide) 0 demoContent demo_contents (by decide +kernel) 3 (by decide) 9 (by decide)

example := C107_real_mat_looping_prefetched true demoIO 1 1 (fun k : Nat => (k, k)) (fun _ n => List.range n) ⟨true, true⟩ rfl
  (fun _ _ _ => List.Perm.refl _) ["b", "x", "a"] (by decide) 0 demoContent demo_contents (by decide +kernel) 3 (by decide) 9 (by decide) ⟨3, 2⟩ rfl

end Verif.RealPipeline
