import Verif.Props.SynthPipeline
/-!
# From the files of any format to the batches of the synthetic sampler

The same as `Props/SynthPipeline.lean` (C109) for every format whose files have been shown to contribute certain flow fields; used for MAT
and NumPy files in `Props/SynthMat.lean`.
-/

namespace Verif.SynthAny
open Verif
open Verif.SynthPipeline (Blank blank_zeros view draws_of_run next_progress next_ends run_progress)

/-! ## Specification -/

/-- The flow fields of one pass over the files in the given order, each with the name of its file. -/
def fieldsOf (content : String → List (Arr ℚ)) (order : List String) : List (String × Arr ℚ) :=
  order.flatMap (fun p => (content p).map (fun a => (p, a)))

/-- `f` is the array `a` of shape `(X, Z, C)`: `f[j, i] = a[j, i, :2]`. -/
def IsField (X Z : Nat) (a : Arr ℚ) (f : Adapter.Field2 ℚ) : Prop :=
  f.H = X ∧ f.W = Z ∧ ∀ j i, j < X → i < Z → a.at? [j, i, 0] = some (f.at_ j i).1 ∧ a.at? [j, i, 1] = some (f.at_ j i).2

/-- The image batch `x`, number `n` of a run, shows the flow fields `l` (at most `flow_fields_per_batch`): mask and names are those of
`l`, padded; pair `i` is made with flow field `flowOf ... i` (blank if that number is beyond `l`), both the image and the
reported flow. -/
def MadeOf {O I : Type} (g : Sampler.Gen (Adapter.Field2 ℚ) O I) (cfg : Sampler.Cfg) (X Z : Nat)
    (n : Nat) (l : List (String × Arr ℚ)) (x : Sampler.OutBatch O I) : Prop :=
  x.images.length = cfg.batchSize ∧ x.flows.length = cfg.batchSize ∧
  x.mask = some (List.replicate l.length true ++ List.replicate (cfg.ffpb - l.length) false) ∧
  x.files = some (l.map Prod.fst ++ List.replicate (cfg.ffpb - l.length) "") ∧
  ∀ i, i < cfg.batchSize → ∃ f,
    (∀ q, l[Sampler.flowOf cfg.batchSize cfg.ndevices cfg.ffpb i]? = some q → IsField X Z q.2 f) ∧
    (l.length ≤ Sampler.flowOf cfg.batchSize cfg.ndevices cfg.ffpb i → Blank f) ∧
    x.flows[i]? = some (g.adapt f).1 ∧
    x.images[i]? = some (g.render (.sub (Sampler.batchKey cfg.seed n) cfg.ndevices (i / (cfg.batchSize / cfg.ndevices)))
      (cfg.batchSize / cfg.ndevices) (i % (cfg.batchSize / cfg.ndevices)) (g.adapt f).2)

/-! ## Lemmas -/

/-- The sample that a flow field gives. -/
def toSample (q : String × Arr ℚ) : Base.Sample ℚ := ⟨q.2, none, none, some [q.1]⟩

/-- The samples of a file. -/
def samplesOf (content : String → List (Arr ℚ)) (p : String) : List (Base.Sample ℚ) := (content p).map (fun a => toSample (p, a))

/-- Every file of the list contributes its flow fields, arrays of shape `(X, Z, C)`. -/
def Reads {D Key : Type} (w : Base.World ℚ D Key) (X Z C : Nat) (fl : List String) (content : String → List (Arr ℚ)) : Prop :=
  ∀ p ∈ fl, Base.Yields w p (samplesOf content p) ∧ ∀ a ∈ content p, a.shape = [X, Z, C] ∧ a.WF

theorem flatMap_samplesOf (content : String → List (Arr ℚ)) (l : List String) :
    l.flatMap (samplesOf content) = (fieldsOf content l).map toSample := by
  unfold samplesOf fieldsOf
  rw [List.map_flatMap]
  congr 1
  funext p
  rw [List.map_map]
  rfl

section
variable {D Key : Type}

theorem reads_shape {w : Base.World ℚ D Key} {X Z C : Nat} {fl : List String} {content : String → List (Arr ℚ)}
    (hc : Reads w X Z C fl content) {q : String × Arr ℚ} (hq : q ∈ fieldsOf content fl) : q.2.shape = [X, Z, C] ∧ q.2.WF := by
  obtain ⟨p, hp, hq⟩ := List.mem_flatMap.mp hq
  obtain ⟨a, ha, rfl⟩ := List.mem_map.mp hq
  exact (hc p hp).2 a ha

theorem contents_uniform {w : Base.World ℚ D Key} {X Z C : Nat} {fl : List String} {content : String → List (Arr ℚ)}
    (hc : Reads w X Z C fl content) {l : List (String × Arr ℚ)} (hl : ∀ q ∈ l, q ∈ fieldsOf content fl) :
    Base.Uniform (l.map toSample) [X, Z, C] none none true := by
  refine ⟨rfl, (fun sh e => nomatch e), (fun sh e => nomatch e), ?_, ?_, ?_, ?_⟩
  all_goals
    intro x hx
    obtain ⟨q, hq, rfl⟩ := List.mem_map.mp hx
  · exact reads_shape hc (hl q hq)
  · exact ⟨rfl, fun a e => by cases e⟩
  · exact ⟨rfl, fun a e => by cases e⟩
  · exact ⟨[q.1], rfl, by simp⟩

theorem fieldOf_isField {X Z C : Nat} (hC : 2 ≤ C) {f : Arr ℚ} (h2 : f.shape = [X, Z, C]) (h3 : f.WF) :
    IsField X Z f (Synthetic.fieldOf f) := by
  have e : Synthetic.fieldOf f = ⟨X, Z, fun j i => (f.data.getD ((j * Z + i) * C) 0, f.data.getD ((j * Z + i) * C + 1) 0)⟩ := by
    unfold Synthetic.fieldOf
    rw [h2]
  have hat : ∀ j i k, j < X → i < Z → k < C → f.at? [j, i, k] = some (f.data.getD ((j * Z + i) * C + k) 0) := by
    intro j i k hj hi hk
    have ho : Arr.offset f.shape [j, i, k] = some ((j * Z + i) * C + k) := by
      rw [h2]
      simp [Arr.offset, hj, hi, hk, Arr.size]
      ring
    have hlt : (j * Z + i) * C + k < f.data.length := by
      have : f.data.length = X * (Z * C) := by
        have := h3; unfold Arr.WF at this; rw [this, h2]; simp [Arr.size]
      rw [this]
      have a1 : (j * Z + i) + 1 ≤ X * Z := by
        have := Nat.mul_le_mul_right Z (show j + 1 ≤ X by omega)
        rw [Nat.add_mul] at this
        omega
      have a2 := Nat.mul_le_mul_right C a1
      rw [Nat.add_mul, Nat.mul_assoc X] at a2
      omega
    unfold Arr.at?
    rw [ho, Option.bind_some, List.getElem?_eq_getElem hlt, List.getD_eq_getElem?_getD, List.getElem?_eq_getElem hlt]
    rfl
  refine ⟨by rw [e], by rw [e], ?_⟩
  intro j i hj hi
  rw [e]
  exact ⟨hat j i 0 hj hi (by omega), hat j i 1 hj hi (by omega)⟩

/-- From a batch of the scheduler that shows `l` to the image batch made from it. -/
theorem madeOf {O I : Type} {w : Base.World ℚ D Key} {X Z C : Nat} (hC : 2 ≤ C) {fl : List String}
    {content : String → List (Arr ℚ)} (hc : Reads w X Z C fl content) (g : Sampler.Gen (Adapter.Field2 ℚ) O I) (cfg : Sampler.Cfg)
    {n : Nat} {l : List (String × Arr ℚ)} (hne : l ≠ []) (hlf : l.length ≤ cfg.ffpb) (hl : ∀ q ∈ l, q ∈ fieldsOf content fl)
    {b : Base.Batch ℚ} (hs : Base.Shows 0 (l.map toSample) cfg.ffpb b) {x : Sampler.OutBatch O I}
    (hx : Sampler.MadeFrom g cfg (Sampler.batchKey cfg.seed n) (view b) x) : MadeOf g cfg X Z n l x := by
  obtain ⟨h1, h2, h3, h4, h5⟩ := hx
  obtain ⟨q0, hq0⟩ := List.exists_mem_of_ne_nil l hne
  have hm0 : toSample q0 ∈ l.map toSample := List.mem_map_of_mem hq0
  have hmask := hs.mask
  rw [List.length_map] at hmask
  have hrows : b.flow.rows.length = cfg.ffpb := by
    unfold Arr.rows
    rw [List.length_map, List.length_range, hs.flow_shape _ hm0]
    rfl
  refine ⟨h1, h2, by rw [h3]; exact congrArg some hmask, ?_, ?_⟩
  · rw [h4]
    show b.files = _
    rcases hs.files with ⟨_, hx⟩ | ⟨fs, e, hl', hr, hp⟩
    · have := hx _ hm0
      cases this
    · rw [e]
      congr 1
      apply List.ext_getElem
      · rw [hl', List.length_append, List.length_map, List.length_replicate]; omega
      · intro i g1 g2
        have hg : fs.getD i "" = fs[i] := by rw [List.getD_eq_getElem?_getD, List.getElem?_eq_getElem g1]; rfl
        by_cases hi : i < l.length
        · have := hr i (by simpa using hi)
          rw [List.getElem_map, hg] at this
          rw [List.getElem_append_left (by simpa using hi), List.getElem_map]
          exact (Option.some.inj this).symm
        · have := hp i (by simpa using Nat.le_of_not_lt hi) (hl' ▸ g1)
          rw [hg] at this
          rw [this, List.getElem_append_right (by simpa using Nat.le_of_not_lt hi), List.getElem_replicate]
  · intro i hi
    obtain ⟨f, hf, hfl, him⟩ := h5 i hi
    have hvl : (view b).flows.length = cfg.ffpb := by
      show (b.flow.rows.map _).length = _
      rw [List.length_map, hrows]
    rw [hvl] at hf
    generalize hj : Sampler.flowOf cfg.batchSize cfg.ndevices cfg.ffpb i = j at hf ⊢
    have hjn : j < cfg.ffpb := by rw [← hvl]; exact (List.getElem?_eq_some_iff.mp hf).1
    have hff : f = Synthetic.fieldOf (b.flow.row j) := by
      have : (view b).flows[j]? = some (Synthetic.fieldOf (b.flow.row j)) := by
        show (b.flow.rows.map _)[j]? = _
        rw [List.getElem?_map]
        unfold Arr.rows at hrows ⊢
        rw [List.length_map, List.length_range] at hrows
        rw [List.getElem?_map, List.getElem?_range (by rw [hrows]; exact hjn)]
        rfl
      rw [hf] at this
      exact Option.some.inj this
    refine ⟨f, ?_, ?_, hfl, him⟩
    · intro q hq
      obtain ⟨hjl, hq'⟩ := List.getElem?_eq_some_iff.mp hq
      rw [hff, hs.flow_rows j (by simpa using hjl), List.getElem_map, hq']
      obtain ⟨z1, z2⟩ := reads_shape hc (hl q (hq' ▸ List.getElem_mem _))
      exact fieldOf_isField hC z1 z2
    · intro hge
      rw [hff, hs.flow_pad j (by simpa using hge) hjn _ hm0]
      exact blank_zeros _

/-- What the sampler makes from a run of the scheduler. -/
theorem serve {O I : Type} {w : Base.World ℚ D Key} {X Z C : Nat} (hC : 2 ≤ C) {fl : List String}
    {content : String → List (Arr ℚ)} (hc : Reads w X Z C fl content) (c : Base.Cfg) (fuel : Nat)
    (g : Sampler.Gen (Adapter.Field2 ℚ) O I) {b : Int} {nd : Nat} {bpfb ffpb seed : Int} {cfg : Sampler.Cfg}
    (hcfg : Sampler.Cfg.make b nd false bpfb ffpb seed = .ok cfg) (hdv : nd ∣ cfg.ffpb) {L : List (String × Arr ℚ)}
    (hLmem : ∀ q ∈ L, q ∈ fieldsOf content fl) {M : Nat} (hM : ∀ i, i < M → i * cfg.ffpb < L.length)
    (hfit : c.loop = true → M * cfg.ffpb ≤ L.length) {s0 s' : Base.St D Key}
    (hrun : Base.runBatches 0 w c fuel (List.replicate M cfg.ffpb) s0 = some ((List.range M).map (fun i =>
      Base.assemble 0 c (((L.drop (i * cfg.ffpb)).take cfg.ffpb).map toSample) cfg.ffpb), s'))
    {N : Nat} (hN : N ≤ M * cfg.bpfb) :
    ∃ outs s, Sampler.run (Sampler.ofPlain (Synthetic.fieldSched w c fuel)) g cfg (List.replicate N .next) (Sampler.init cfg s0) = some (outs, s) ∧
      outs.length = N ∧ (∀ n, n < N → ∃ x, outs[n]? = some (.batch x) ∧
        MadeOf g cfg X Z n ((L.drop (n / cfg.bpfb * cfg.ffpb)).take cfg.ffpb) x) ∧
      (N = M * cfg.bpfb → ∃ bs, Sampler.After (Sampler.ofPlain (Synthetic.fieldSched w c fuel)) g cfg s0 N bs s ∧ bs.length = M ∧ s.sched = s') := by
  have hok := Sampler.Cfg.ok_of_make hcfg
  have hnd' : cfg.ndevices = nd := by obtain ⟨_, _, _, _, _, _, rfl⟩ := Sampler.Cfg.make_ok hcfg; rfl
  have hdv' : cfg.ffpb % cfg.ndevices = 0 := by rw [hnd']; exact Nat.mod_eq_zero_of_dvd hdv
  have hpos := hok.ffpb
  have hchunk : ∀ i, i < M → (L.drop (i * cfg.ffpb)).take cfg.ffpb ≠ [] := by
    intro i hi h
    have := hM i hi
    have h2 := congrArg List.length h
    rw [List.length_take, List.length_drop, List.length_nil] at h2
    omega
  have hle : ∀ i, ((L.drop (i * cfg.ffpb)).take cfg.ffpb).length ≤ cfg.ffpb := fun i => by rw [List.length_take]; omega
  have hbatch : ∀ i, i < M → ∃ bb, Base.assemble 0 c (((L.drop (i * cfg.ffpb)).take cfg.ffpb).map toSample) cfg.ffpb = .ok bb ∧
      Base.Shows 0 (((L.drop (i * cfg.ffpb)).take cfg.ffpb).map toSample) cfg.ffpb bb := by
    intro i hi
    have hu := contents_uniform hc (l := (L.drop (i * cfg.ffpb)).take cfg.ffpb)
      (fun q hq => hLmem q (List.mem_of_mem_drop (List.mem_of_mem_take hq)))
    obtain ⟨bb, h1, h2, _⟩ := Base.assemble_uniform (0 : ℚ) c (n := cfg.ffpb) (by simpa using hchunk i hi)
      (by rw [List.length_map]; exact hle i) (fun hl => by
        rw [List.length_map, List.length_take, List.length_drop]
        have h3 := hfit hl
        have := Nat.mul_le_mul_right cfg.ffpb (show i + 1 ≤ M by omega)
        rw [Nat.add_mul] at this
        omega) hu
    exact ⟨bb, h1, h2⟩
  let bs : List (Base.Batch ℚ) := (List.finRange M).map (fun i => (hbatch i.1 i.2).choose)
  have hbl : bs.length = M := by simp [bs]
  have hbget : ∀ i (h : i < M), bs[i]? = some (hbatch i h).choose := by
    intro i h
    simp only [bs]
    rw [List.getElem?_map, List.getElem?_eq_getElem (by simpa using h)]
    simp
  have hrun' : Base.runBatches 0 w c fuel (List.replicate bs.length cfg.ffpb) s0 = some (bs.map .ok, s') := by
    rw [hbl, hrun]
    congr 2
    apply List.ext_getElem?
    intro i
    by_cases hiM : i < M
    · rw [List.getElem?_map, List.getElem?_range hiM, List.getElem?_map, hbget i hiM]
      simp only [Option.map_some, Option.some.injEq]
      exact (hbatch i hiM).choose_spec.1
    · rw [List.getElem?_eq_none, List.getElem?_eq_none]
      · rw [List.length_map, hbl]; omega
      · rw [List.length_map, List.length_range]; omega
  have hd := draws_of_run w c fuel cfg.ffpb bs _ _ hrun'
  have hvl : (bs.map view).length = M := by rw [List.length_map, hbl]
  obtain ⟨outs, s1, bs2, r1, r2, r3, r4⟩ := run_progress rfl hok (Synthetic.full_plain w c fuel) hdv' hd N 0 [] _
    (Sampler.After.init _ g cfg _) List.nil_prefix (by rw [hvl, Nat.zero_add]; exact hN)
  rw [Nat.zero_add] at r4
  obtain ⟨bs3, hd3, hlen, hz, hl3, hall3⟩ := Sampler.C34_flow_batch_used_partial _ (Synthetic.full_plain w c fuel) g b nd false bpfb ffpb seed cfg hcfg _ N outs s1 r1 r2
  refine ⟨outs, s1, r1, hlen, ?_, ?_⟩
  · intro n hn
    obtain ⟨x, fb, hx, hfb, hmade⟩ := hall3 n hn
    have hlen3 : bs3.length ≤ (bs.map view).length := by
      rw [hl3 (by omega), hvl]
      exact Nat.div_lt_of_lt_mul (by rw [Nat.mul_comm]; omega)
    have hpre := next_progress.draws_prefix hd3 hd hlen3
    have hiM : n / cfg.bpfb < M := Nat.div_lt_of_lt_mul (by rw [Nat.mul_comm]; omega)
    have hfb' : fb = view (hbatch _ hiM).choose := by
      have h1 : (bs.map view)[n / cfg.bpfb]? = some fb := by
        obtain ⟨t, ht⟩ := hpre
        rw [← ht, List.getElem?_append_left (List.getElem?_eq_some_iff.mp hfb).1]
        exact hfb
      rw [List.getElem?_map, hbget _ hiM] at h1
      exact (Option.some.inj h1).symm
    rw [hfb'] at hmade
    exact ⟨x, hx, madeOf hC hc g cfg (hchunk _ hiM) (hle _) (fun q hq => hLmem q (List.mem_of_mem_drop (List.mem_of_mem_take hq)))
      (hbatch _ hiM).choose_spec.2 hmade⟩
  · intro hNM
    have hl2 : bs2.length = M := by
      rcases Nat.eq_zero_or_pos N with h0 | h0
      · rw [(r4.start h0).2]
        rcases Nat.mul_eq_zero.mp (hNM ▸ h0) with h | h
        · exact h.symm
        · have := hok.bpfb; omega
      · obtain ⟨_, _, _, _, _, _, _, h5, _⟩ := r4.last h0
        have hk := hok.bpfb
        have hM0 : 0 < M := Nat.pos_of_ne_zero (fun h => by rw [h, Nat.zero_mul] at hNM; omega)
        rw [h5, hNM]
        have e : M * cfg.bpfb - 1 = cfg.bpfb * (M - 1) + (cfg.bpfb - 1) := by
          obtain ⟨m, rfl⟩ : ∃ m, M = m + 1 := ⟨M - 1, by omega⟩
          rw [Nat.add_sub_cancel, Nat.add_mul, Nat.mul_comm m]
          omega
        rw [e, Nat.mul_add_div hk, Nat.div_eq_of_lt (by omega)]
        omega
    refine ⟨bs2, r4, hl2, ?_⟩
    have he : bs2 = bs.map view := r3.eq_of_length (by rw [hl2, hvl])
    have h1 := r4.draws
    rw [he] at h1
    exact draws_det h1 hd
where
  draws_det {S B : Type} {sch : Sampler.ISched S B} {n : Nat} {s : S} {bs : List B} {s1 s2 : S}
      (h1 : Sampler.Draws sch n s bs s1) (h2 : Sampler.Draws sch n s bs s2) : s1 = s2 := by
    induction h1 with
    | nil => cases h2; rfl
    | cons hg _ ih =>
      cases h2 with
      | cons hg' ht' =>
        rw [hg] at hg'
        cases hg'
        exact ih ht'

end

/-- Looping: over files without repetition, at least one of them with a flow field, the synthetic sampler never ends, and image batch `n` is
made from the flow fields number `⌊n / k⌋ * m` to `⌊n / k⌋ * m + m - 1` (`k` image batches per flow batch, `m` flow fields per batch) of the passes
over the files one after the other, each in one order of the files (the given one unless shuffling is on). -/
theorem looping {D Key O I : Type} (w : Base.World ℚ D Key) (X Z C : Nat) (hC : 2 ≤ C) (c : Base.Cfg) (hloop : c.loop = true)
    (hp' : c.randomize = true → Base.PermOK w) (fl : List String) (hnd : fl.Nodup) (key : Key)
    (content : String → List (Arr ℚ)) (hc : Reads w X Z C fl content) (hne : fieldsOf content fl ≠ [])
    (g : Sampler.Gen (Adapter.Field2 ℚ) O I) (b : Int) (nd : Nat) (bpfb ffpb seed : Int) (cfg : Sampler.Cfg)
    (hcfg : Sampler.Cfg.make b nd false bpfb ffpb seed = .ok cfg) (hdv : nd ∣ cfg.ffpb) (fuel : Nat) (hf : 2 * fl.length ≤ fuel) :
    ∃ order : Nat → List String, (∀ k, (order k).Perm fl) ∧ (c.randomize = false → ∀ k, order k = fl) ∧ ∀ N, ∃ outs s,
      Sampler.run (Sampler.ofPlain (Synthetic.fieldSched w c fuel)) g cfg (List.replicate N .next)
        (Sampler.init cfg (Base.init w c fl key)) = some (outs, s) ∧ outs.length = N ∧
      ∃ K, N * cfg.ffpb ≤ ((List.range K).flatMap (fun k => fieldsOf content (order k))).length ∧
        ∀ n, n < N → ∃ x, outs[n]? = some (.batch x) ∧ MadeOf g cfg X Z n
          ((((List.range K).flatMap (fun k => fieldsOf content (order k))).drop (n / cfg.bpfb * cfg.ffpb)).take cfg.ffpb) x := by
  have hok := Sampler.Cfg.ok_of_make hcfg
  have hperm := Base.shuffle_perm hp' fl key
  have hmem : ∀ p, p ∈ (Base.init w c fl key).fileList ↔ p ∈ fl := fun p => hperm.mem_iff
  have hi : Base.Inv w (samplesOf content) (Base.init w c fl key) :=
    Base.inv_fresh (fun p hp => (hc p ((hmem p).mp hp)).1)
  have hord : ∀ k, (Base.passOrder w c fl key k).Perm fl := by
    intro k
    unfold Base.passOrder
    split
    · rename_i hr; exact Base.epochOrder_perm (hp' hr) key fl (k + 1)
    · exact List.Perm.refl _
  refine ⟨Base.passOrder w c fl key, hord, fun hr k => by simp [Base.passOrder, hr], ?_⟩
  intro N
  obtain ⟨p0, hp0, hc0⟩ : ∃ p ∈ fl, samplesOf content p ≠ [] := by
    obtain ⟨q, hq⟩ := List.exists_mem_of_ne_nil _ hne
    obtain ⟨p, hp, hq'⟩ := List.mem_flatMap.mp hq
    refine ⟨p, hp, ?_⟩
    unfold samplesOf
    obtain ⟨a, ha, _⟩ := List.mem_map.mp hq'
    exact List.ne_nil_of_mem (List.mem_map_of_mem ha)
  -- N flow batches are enough
  obtain ⟨xs, s', j, hxl, _, _, hstream, hrun⟩ := Base.runBatches_loop (0 : ℚ) hloop hp' (List.replicate N cfg.ffpb)
    (Base.init w c fl key) (by intro n hn; rw [(List.mem_replicate.mp hn).2]; exact hok.ffpb) hi ⟨p0, (hmem p0).mpr hp0, hc0⟩
  have hall : Base.loopStream w c (samplesOf content) (Base.init w c fl key) j =
      ((List.range (j + 1)).flatMap (fun k => fieldsOf content (Base.passOrder w c fl key k))).map toSample := by
    rw [Base.loopStream_init, List.map_flatMap]
    congr 1
    funext k
    rw [Base.streamAfter_none, Base.shuffles_order]
    show List.flatMap (samplesOf content) (Base.dropRepeats (Base.passOrder w c fl key k)) = _
    rw [Base.dropRepeats_eq_self _ (Base.nodup_chain ((hord k).nodup_iff.mpr hnd)), flatMap_samplesOf]
  have h0 := hstream 0
  rw [Nat.zero_add, hall] at h0
  generalize hL : (List.range (j + 1)).flatMap (fun k => fieldsOf content (Base.passOrder w c fl key k)) = L at h0
  have hLmem : ∀ q ∈ L, q ∈ fieldsOf content fl := by
    intro q hq
    rw [← hL] at hq
    obtain ⟨k, _, hq⟩ := List.mem_flatMap.mp hq
    obtain ⟨p, hp, hq⟩ := List.mem_flatMap.mp hq
    exact List.mem_flatMap.mpr ⟨p, (hord k).mem_iff.mp hp, hq⟩
  have hsum : (List.replicate N cfg.ffpb).sum = N * cfg.ffpb := by simp
  have hLlen : N * cfg.ffpb ≤ L.length := by
    have := congrArg List.length h0
    rw [List.length_map, List.length_append, hxl, hsum] at this
    omega
  have hxs : xs = (L.take (N * cfg.ffpb)).map toSample := by
    have := congrArg (List.take (N * cfg.ffpb)) h0
    rw [← hsum, ← hxl, List.take_left', hxl, hsum, ← List.map_take] at this
    · exact this.symm
    · rfl
  have hmul : ∀ i, i < N → i * cfg.ffpb + cfg.ffpb ≤ N * cfg.ffpb := by
    intro i hi
    have := Nat.mul_le_mul_right cfg.ffpb (show i + 1 ≤ N by omega)
    rwa [Nat.add_mul, Nat.one_mul] at this
  have hrun' : Base.runBatches 0 w c fuel (List.replicate N cfg.ffpb) (Base.init w c fl key) = some ((List.range N).map (fun i =>
      Base.assemble 0 c (((L.drop (i * cfg.ffpb)).take cfg.ffpb).map toSample) cfg.ffpb), s') := by
    rw [hrun fuel (by rw [show (Base.init w c fl key).fileList.length = fl.length from hperm.length_eq]; exact hf)]
    congr 2
    apply List.ext_getElem?
    intro i
    by_cases hiN : i < N
    · rw [List.getElem?_zipWith, RealPipeline.getElem_takeBatches cfg.ffpb N _ i hiN, List.getElem?_replicate, if_pos hiN,
        List.getElem?_map, List.getElem?_range hiN]
      simp only [Option.map_some, Option.some.injEq]
      rw [hxs]
      congr 1
      rw [← List.map_drop, ← List.map_take, List.drop_take, List.take_take, Nat.mul_comm cfg.ffpb i]
      congr 2
      have := hmul i hiN
      omega
    · rw [List.getElem?_eq_none, List.getElem?_eq_none]
      · rw [List.length_map, List.length_range]; omega
      · rw [List.length_zipWith]; simp; omega
  have hpos := hok.ffpb
  obtain ⟨outs, s, r1, r2, r3, _⟩ := serve hC hc c fuel g hcfg hdv hLmem (fun i hi => by have := hmul i hi; omega) (fun _ => hLlen) hrun'
    (Nat.le_mul_of_pos_right N hok.bpfb)
  refine ⟨outs, s, r1, r2, j + 1, ?_, ?_⟩
  · rw [hL]; exact hLlen
  · rw [hL]; exact r3

/-- Not looping: with `T` flow fields in the files, the sampler serves `⌈T / m⌉ * k` image batches, number `n` made from the flow fields from
number `⌊n / k⌋ * m` on, at most `m`, and then raises StopIteration. -/
theorem ends {D Key O I : Type} (w : Base.World ℚ D Key) (X Z C : Nat) (hC : 2 ≤ C) (c : Base.Cfg) (hloop : c.loop = false)
    (hp' : c.randomize = true → Base.PermOK w) (fl : List String) (hnd : fl.Nodup) (key : Key)
    (content : String → List (Arr ℚ)) (hc : Reads w X Z C fl content)
    (g : Sampler.Gen (Adapter.Field2 ℚ) O I) (b : Int) (nd : Nat) (bpfb ffpb seed : Int) (cfg : Sampler.Cfg)
    (hcfg : Sampler.Cfg.make b nd false bpfb ffpb seed = .ok cfg) (hdv : nd ∣ cfg.ffpb) (fuel : Nat) (hf : fl.length < fuel) :
    ∃ order : List String, order.Perm fl ∧ (c.randomize = false → order = fl) ∧ ∃ outs s,
      Sampler.run (Sampler.ofPlain (Synthetic.fieldSched w c fuel)) g cfg
        (List.replicate (((fieldsOf content fl).length + cfg.ffpb - 1) / cfg.ffpb * cfg.bpfb + 1) .next)
        (Sampler.init cfg (Base.init w c fl key)) = some (outs, s) ∧
      outs.length = ((fieldsOf content fl).length + cfg.ffpb - 1) / cfg.ffpb * cfg.bpfb + 1 ∧
      (∀ n, n < ((fieldsOf content fl).length + cfg.ffpb - 1) / cfg.ffpb * cfg.bpfb → ∃ x, outs[n]? = some (.batch x) ∧
        MadeOf g cfg X Z n (((fieldsOf content order).drop (n / cfg.bpfb * cfg.ffpb)).take cfg.ffpb) x) ∧
      outs[((fieldsOf content fl).length + cfg.ffpb - 1) / cfg.ffpb * cfg.bpfb]? = some (.raised .stopIteration) := by
  have hok := Sampler.Cfg.ok_of_make hcfg
  have hpos := hok.ffpb
  have hperm := Base.shuffle_perm hp' fl key
  have hi : Base.Inv w (samplesOf content) (Base.init w c fl key) :=
    Base.inv_fresh (fun p hp => (hc p (hperm.mem_iff.mp hp)).1)
  have hfl : (Base.init w c fl key).fileList = Base.passOrder w c fl key 0 := Base.shuffles_order w c fl key 0
  have hord : (Base.passOrder w c fl key 0).Perm fl := hfl ▸ hperm
  refine ⟨Base.passOrder w c fl key 0, hord, fun hr => by simp [Base.passOrder, hr], ?_⟩
  have hlen : (fieldsOf content fl).length = (fieldsOf content (Base.passOrder w c fl key 0)).length :=
    (List.Perm.flatMap_right _ hord).length_eq.symm
  rw [hlen]
  have hrem : Base.rem (samplesOf content) (Base.init w c fl key) =
      (fieldsOf content (Base.passOrder w c fl key 0)).map toSample := by
    rw [Base.rem_fresh _ rfl rfl, Base.streamAfter_none, hfl, Base.dropRepeats_eq_self _ (Base.nodup_chain (hord.nodup_iff.mpr hnd)),
      flatMap_samplesOf]
  have hLmem : ∀ q ∈ fieldsOf content (Base.passOrder w c fl key 0), q ∈ fieldsOf content fl := by
    intro q hq
    obtain ⟨p, hp, hq⟩ := List.mem_flatMap.mp hq
    exact List.mem_flatMap.mpr ⟨p, hord.mem_iff.mp hp, hq⟩
  generalize fieldsOf content (Base.passOrder w c fl key 0) = L at hrem hLmem ⊢
  generalize hM : (L.length + cfg.ffpb - 1) / cfg.ffpb = M
  have hM1 : ∀ i, i < M → i * cfg.ffpb < L.length := by
    intro i hi
    have h1 : (i + 1) * cfg.ffpb ≤ L.length + cfg.ffpb - 1 := by
      rw [← Nat.le_div_iff_mul_le hpos, hM]
      exact hi
    rw [Nat.add_mul] at h1
    omega
  have hM2 : L.length ≤ M * cfg.ffpb := by
    have h1 : L.length + cfg.ffpb - 1 < (M + 1) * cfg.ffpb := by
      rw [← Nat.div_lt_iff_lt_mul hpos, hM]
      omega
    rw [Nat.add_mul] at h1
    omega
  obtain ⟨s', hi', hrem', hfl', _, hrun⟩ := Base.runBatches_nonloop (0 : ℚ) hloop (List.replicate M cfg.ffpb) _ hi
  have hlenfl : (Base.init w c fl key).fileList.length = fl.length := hperm.length_eq
  have hrun' : Base.runBatches 0 w c fuel (List.replicate M cfg.ffpb) (Base.init w c fl key) = some ((List.range M).map (fun i =>
      Base.assemble 0 c (((L.drop (i * cfg.ffpb)).take cfg.ffpb).map toSample) cfg.ffpb), s') := by
    rw [hrun fuel (by omega)]
    congr 2
    apply List.ext_getElem?
    intro i
    by_cases hiM : i < M
    · rw [List.getElem?_zipWith, RealPipeline.getElem_takeBatches cfg.ffpb M _ i hiM, List.getElem?_replicate, if_pos hiM,
        List.getElem?_map, List.getElem?_range hiM, hrem]
      simp only [Option.map_some, Option.some.injEq]
      rw [← List.map_drop, ← List.map_take, Nat.mul_comm cfg.ffpb i, if_neg]
      rw [List.map_eq_nil_iff]
      intro h
      have := hM1 i hiM
      have h2 := congrArg List.length h
      rw [List.length_take, List.length_drop, List.length_nil] at h2
      omega
    · rw [List.getElem?_eq_none, List.getElem?_eq_none]
      · rw [List.length_map, List.length_range]; omega
      · rw [List.length_zipWith]; simp; omega
  obtain ⟨outs, s, r1, r2, r3, r4⟩ := serve hC hc c fuel g hcfg hdv hLmem hM1 (fun h => by rw [hloop] at h; cases h) hrun'
    (Nat.le_refl (M * cfg.bpfb))
  obtain ⟨bs, ha, hbl, hsc⟩ := r4 rfl
  obtain ⟨s2, _, _, _, _, hend⟩ := Base.getBatch_nonloop (0 : ℚ) hloop cfg.ffpb s' hi'
  have hnil : Base.rem (samplesOf content) s' = [] := by
    rw [hrem', hrem, List.drop_eq_nil_iff, List.length_map]
    simpa using hM2
  have he : (Sampler.ofPlain (Synthetic.fieldSched w c fuel)).getBatch cfg.ffpb s.sched = some (.error .stopIteration, s2) := by
    rw [hsc]
    show (Base.getBatch 0 w c fuel cfg.ffpb s').map _ = _
    rw [hend fuel (by rw [hfl']; omega), hnil, List.take_nil, if_pos rfl]
    rfl
  obtain ⟨s3, hn⟩ := next_ends rfl hok ha (by rw [hbl]) he
  refine ⟨outs ++ [.raised .stopIteration], s3, ?_, by simp [r2], ?_, ?_⟩
  · rw [List.replicate_succ']
    rw [run_append r1]
    simp only [Sampler.run, Sampler.step, hn, Option.map_some, Sampler.batchOut]
  · intro n hn'
    obtain ⟨x, h1, h2⟩ := r3 n hn'
    exact ⟨x, by rw [List.getElem?_append_left (by omega)]; exact h1, h2⟩
  · rw [List.getElem?_append_right (by omega), r2]
    simp
where
  run_append {S F O I : Type} {sch : Sampler.ISched S (Sampler.FlowBatch F)} {g : Sampler.Gen F O I} {cfg : Sampler.Cfg} {l1 l2 : List Sampler.Op}
      {s s1 : Sampler.St S F O} {o1 : List (Sampler.Out (Sampler.OutBatch O I))} (h1 : Sampler.run sch g cfg l1 s = some (o1, s1)) :
      Sampler.run sch g cfg (l1 ++ l2) s = (Sampler.run sch g cfg l2 s1).map (fun q => (o1 ++ q.1, q.2)) := by
    induction l1 generalizing s o1 with
    | nil =>
      cases h1
      rw [List.nil_append]
      cases Sampler.run sch g cfg l2 s1 <;> rfl
    | cons op l1 ih =>
      rw [List.cons_append]
      rw [Sampler.run] at h1 ⊢
      cases hs : Sampler.step sch g cfg s op with
      | none => rw [hs] at h1; cases h1
      | some q =>
        obtain ⟨o, s'⟩ := q
        rw [hs] at h1
        dsimp only at h1 ⊢
        cases hr : Sampler.run sch g cfg l1 s' with
        | none => rw [hr] at h1; cases h1
        | some q =>
          obtain ⟨os, s''⟩ := q
          rw [hr] at h1
          cases h1
          rw [ih hr]
          cases Sampler.run sch g cfg l2 s1 <;> rfl

end Verif.SynthAny
