import Verif.Props.Synthetic
import Verif.Props.RealPipeline
import Verif.Props.Stack
/-!
# Property C109: from the HDF5 files to the batches of the synthetic sampler

The layers are those of `Model/Formats.lean` (hdf5.py), `Model/Base.lean` (scheduler/base.py) and `Model/Sampler.lean` and
`Model/Synthetic.lean` (sampler/base.py, synthetic.py), put together.
-/

namespace Verif.SynthPipeline
open Verif

/-! ## Specification -/

/-- The first dataset of the file `p` is `v`, a volume of shape `(X, Y, Z, C)` with some `Y`. -/
def Holds (files : String → Formats.H5File ℚ) (X Z C : Nat) (p : String) (v : Arr ℚ) : Prop :=
  (∃ name others, files p = .ok ((name, some v) :: others)) ∧ (∃ Y, v.shape = [X, Y, Z, C]) ∧ v.WF

/-- The contents of the files of a list: a volume, or nothing that can be used. -/
def Contents (files : String → Formats.H5File ℚ) (X Z C : Nat) (fl : List String) (content : String → Option (Arr ℚ)) : Prop :=
  ∀ p ∈ fl, match content p with
    | some v => Holds files X Z C p v
    | none => ∀ items, files p = .ok items → ∀ q ∈ items.head?, q.2 = none

/-- The flow fields of one pass over the files in the given order: file by file, `y = 0, 1, ...` within a file. -/
def fieldsOf (content : String → Option (Arr ℚ)) (order : List String) : List (String × Nat) :=
  order.flatMap (fun p => match content p with
    | some v => (List.range (v.shape.getD 1 0)).map (fun y => (p, y))
    | none => [])

/-- `f` is flow field number `y` of file `p`: `f[j, i] = volume[j, y, i, :2]`. -/
def IsField (X Z : Nat) (content : String → Option (Arr ℚ)) (q : String × Nat) (f : Adapter.Field2 ℚ) : Prop :=
  ∃ v, content q.1 = some v ∧ f.H = X ∧ f.W = Z ∧
    ∀ j i, j < X → i < Z → v.at? [j, q.2, i, 0] = some (f.at_ j i).1 ∧ v.at? [j, q.2, i, 1] = some (f.at_ j i).2

/-- A flow field that is zero everywhere. -/
def Blank (f : Adapter.Field2 ℚ) : Prop := ∀ j i, f.at_ j i = (0, 0)

/-- The image batch `x`, number `n` of a run, shows the flow fields `l` (at most `flow_fields_per_batch`): mask and names are those of
`l`, padded; pair `i` is made with flow field `flowOf ... i` (blank if that number is beyond `l`), both the image and the
reported flow. -/
def MadeOf {O I : Type} (g : Sampler.Gen (Adapter.Field2 ℚ) O I) (cfg : Sampler.Cfg) (X Z : Nat) (content : String → Option (Arr ℚ))
    (n : Nat) (l : List (String × Nat)) (x : Sampler.OutBatch O I) : Prop :=
  x.images.length = cfg.batchSize ∧ x.flows.length = cfg.batchSize ∧
  x.mask = some (List.replicate l.length true ++ List.replicate (cfg.ffpb - l.length) false) ∧
  x.files = some (l.map Prod.fst ++ List.replicate (cfg.ffpb - l.length) "") ∧
  ∀ i, i < cfg.batchSize → ∃ f,
    (∀ q, l[Sampler.flowOf cfg.batchSize cfg.ndevices cfg.ffpb i]? = some q → IsField X Z content q f) ∧
    (l.length ≤ Sampler.flowOf cfg.batchSize cfg.ndevices cfg.ffpb i → Blank f) ∧
    x.flows[i]? = some (g.adapt f).1 ∧
    x.images[i]? = some (g.render (.sub (Sampler.batchKey cfg.seed n) cfg.ndevices (i / (cfg.batchSize / cfg.ndevices)))
      (cfg.batchSize / cfg.ndevices) (i % (cfg.batchSize / cfg.ndevices)) (g.adapt f).2)

/-! ## The sampler makes progress -/

section
variable {S B F O I : Type}
open Sampler

theorem draws_next {sch : ISched S B} {n : Nat} {s : S} {bs : List B} {s' : S} (h : Draws sch n s bs s') :
    ∀ {bs1 : List B} {s1 : S}, Draws sch n s bs1 s1 → bs1 <+: bs → bs1.length < bs.length →
    ∃ b s2, sch.getBatch n s1 = some (.ok b, s2) ∧ bs1 ++ [b] <+: bs := by
  induction h with
  | nil s => intro bs1 s1 _ _ hl; simp at hl
  | cons hg ht ih =>
    intro bs1 s1 h1 hp hl
    cases h1 with
    | nil =>
      refine ⟨_, _, hg, ?_⟩
      simp
    | cons hg' ht' =>
      rw [hg] at hg'
      cases hg'
      obtain ⟨b, s2, h3, h4⟩ := ih ht' (List.cons_prefix_cons.mp hp).2 (by simpa using hl)
      exact ⟨b, s2, h3, by simpa using h4⟩

theorem next_progress {sch : ISched S (FlowBatch F)} (hpl : sch.episodic = none) {g : Gen F O I} {cfg : Cfg} (hc : cfg.OK)
    (hfull : FullBatches sch) (hdv : cfg.ffpb % cfg.ndevices = 0) {s0 : S} {bs : List (FlowBatch F)} {s' : S}
    (hd : Draws sch cfg.ffpb s0 bs s') {n : Nat} {bs1 : List (FlowBatch F)} {s : St S F O} (h : After sch g cfg s0 n bs1 s)
    (hp : bs1 <+: bs) (hn : n < bs.length * cfg.bpfb) :
    ∃ x s1 bs2, next sch g cfg s = some (.ok x, s1) ∧ bs2 <+: bs ∧ After sch g cfg s0 (n + 1) bs2 s1 := by
  have hover : episodeOver sch s.sched = false := by simp [episodeOver, hpl]
  have hk := hc.bpfb
  have main : ∃ x s1, next sch g cfg s = some (.ok x, s1) ∧
      (s1.sched = s.sched ∨ bs1.length < bs.length ∧ (s.cur = none ∨ ¬ s.generated < cfg.bpfb)) := by
    by_cases hcur : ∃ fl, s.cur = some fl ∧ s.generated < cfg.bpfb
    · obtain ⟨fl, h1, h2⟩ := hcur
      rcases Nat.eq_zero_or_pos n with hn0 | hn0
      · rw [(h.start hn0).1] at h1; cases h1
      obtain ⟨b, hb, hbd, g1, _⟩ := h.last hn0
      have hl : fl.length % cfg.ndevices = 0 := by
        rw [h1] at g1
        cases g1
        simpa [adaptAll] using hbd
      have hl' : ¬ fl.length % cfg.ndevices ≠ 0 := by omega
      unfold next
      rw [hover]
      simp only [Bool.false_eq_true, if_false, getNext, h1, if_pos h2, produce, if_neg hl']
      exact ⟨_, _, rfl, Or.inl rfl⟩
    · have hcase : s.cur = none ∨ ¬ s.generated < cfg.bpfb := by
        cases hs : s.cur with
        | none => exact Or.inl rfl
        | some fl => exact Or.inr (fun hlt => hcur ⟨fl, hs, hlt⟩)
      have hlen : bs1.length < bs.length := by
        rcases Nat.eq_zero_or_pos n with hn0 | hn0
        · rw [(h.start hn0).2]
          rw [hn0] at hn
          exact Nat.pos_of_mul_pos_right hn
        · obtain ⟨b, hb, hbd, g1, _, _, _, g5, g6⟩ := h.last hn0
          rcases hcase with h1 | h1
          · rw [h1] at g1; cases g1
          · rw [g6] at h1
            obtain ⟨e1, e2⟩ := div_mod_wrap hn0 hk (by omega)
            rw [g5, ← e1]
            exact Nat.div_lt_of_lt_mul (by rw [Nat.mul_comm]; exact hn)
      obtain ⟨b, s2, hg, _⟩ := draws_next hd h.draws hp hlen
      have hb := hfull _ _ _ _ hg
      have e1 : ¬ b.flows.length % cfg.ndevices ≠ 0 := by rw [hb]; omega
      have e2 : ¬ (adaptAll g cfg b.flows).2.length % cfg.ndevices ≠ 0 := by simp only [adaptAll, List.length_map]; exact e1
      have hf : getNext sch g cfg s = getNext.fetch sch g cfg s := by
        unfold getNext
        rcases hcase with h1 | h1
        · rw [h1]
        · cases hs : s.cur with
          | none => rfl
          | some fl => simp [h1]
      unfold next
      rw [hover, hf]
      unfold getNext.fetch
      rw [hg]
      simp only [Bool.false_eq_true, if_false, if_neg e1, produce, if_neg e2]
      exact ⟨_, _, rfl, Or.inr ⟨hlen, hcase⟩⟩
  obtain ⟨x, s1, hx, hor⟩ := main
  obtain ⟨bs2, b, hp2, ha, hb, _⟩ := h.step hc hfull hx
  refine ⟨x, s1, bs2, hx, ?_, ha⟩
  -- both are sequences of draws; the new one is at most as long
  obtain ⟨_, _, _, _, _, _, _, hl2, _⟩ := ha.last (by omega)
  simp only [Nat.add_sub_cancel] at hl2
  have hlen2 : bs2.length ≤ bs.length := by
    rw [hl2]
    have := Nat.div_lt_of_lt_mul (show n < cfg.bpfb * bs.length by rw [Nat.mul_comm]; exact hn)
    omega
  exact draws_prefix ha.draws hd hlen2
where
  draws_prefix {sch : ISched S (FlowBatch F)} {n : Nat} {s : S} {bs1 bs2 : List (FlowBatch F)} {s1 s2 : S}
      (h1 : Draws sch n s bs1 s1) (h2 : Draws sch n s bs2 s2) (hl : bs1.length ≤ bs2.length) : bs1 <+: bs2 := by
    induction h1 generalizing bs2 with
    | nil => exact List.nil_prefix
    | cons hg _ ih =>
      cases h2 with
      | nil => simp at hl
      | cons hg' ht' =>
        rw [hg] at hg'
        cases hg'
        exact List.cons_prefix_cons.mpr ⟨rfl, ih ht' (by simpa using hl)⟩

/-- As long as the scheduler has flow batches, the sampler has image batches. -/
theorem run_progress {sch : ISched S (FlowBatch F)} (hpl : sch.episodic = none) {g : Gen F O I} {cfg : Cfg} (hc : cfg.OK)
    (hfull : FullBatches sch) (hdv : cfg.ffpb % cfg.ndevices = 0) {s0 : S} {bs : List (FlowBatch F)} {s' : S}
    (hd : Draws sch cfg.ffpb s0 bs s') : ∀ (N n : Nat) (bs1 : List (FlowBatch F)) (s : St S F O), After sch g cfg s0 n bs1 s →
    bs1 <+: bs → n + N ≤ bs.length * cfg.bpfb →
    ∃ outs s1 bs2, run sch g cfg (List.replicate N .next) s = some (outs, s1) ∧ (∀ o ∈ outs, ∃ x, o = .batch x) ∧ bs2 <+: bs ∧
      After sch g cfg s0 (n + N) bs2 s1 := by
  intro N
  induction N with
  | zero => intro n bs1 s h hp _; exact ⟨[], s, bs1, rfl, by simp, hp, h⟩
  | succ N ih =>
    intro n bs1 s h hp hn
    obtain ⟨x, s1, bs2, h1, h2, h3⟩ := next_progress hpl hc hfull hdv hd h hp (by omega)
    obtain ⟨outs, s2, bs3, g1, g2, g3, g4⟩ := ih (n + 1) bs2 s1 h3 h2 (by omega)
    refine ⟨.batch x :: outs, s2, bs3, ?_, ?_, g3, by rw [← Nat.add_assoc, Nat.add_right_comm]; exact g4⟩
    · rw [List.replicate_succ, run]
      simp only [step, h1, Option.map_some, batchOut, g1]
    · intro o ho
      rcases List.mem_cons.mp ho with rfl | ho
      · exact ⟨x, rfl⟩
      · exact g2 o ho

/-- If all flow batches are used up and the scheduler ends, the sampler ends. -/
theorem next_ends {sch : ISched S (FlowBatch F)} (hpl : sch.episodic = none) {g : Gen F O I} {cfg : Cfg} (hc : cfg.OK)
    {s0 : S} {n : Nat} {bs : List (FlowBatch F)} {s : St S F O} (h : After sch g cfg s0 n bs s) (hn : n = bs.length * cfg.bpfb)
    {e : Exc} {sc : S} (he : sch.getBatch cfg.ffpb s.sched = some (.error e, sc)) :
    ∃ s1, next sch g cfg s = some (.error e, s1) := by
  have hover : episodeOver sch s.sched = false := by simp [episodeOver, hpl]
  have hf : getNext sch g cfg s = getNext.fetch sch g cfg s := by
    unfold getNext
    rcases Nat.eq_zero_or_pos n with hn0 | hn0
    · rw [(h.start hn0).1]
    · obtain ⟨b, _, _, g1, _, _, _, g5, g6⟩ := h.last hn0
      have hk := hc.bpfb
      have : ¬ s.generated < cfg.bpfb := by
        intro hlt
        rw [g6] at hlt
        obtain ⟨e1, _⟩ := div_mod_step hn0 hlt
        have e2 : n / cfg.bpfb = bs.length := by rw [hn, Nat.mul_div_cancel _ hk]
        omega
      rw [g1]
      simp [this]
  unfold next
  rw [hover, hf]
  unfold getNext.fetch
  rw [he]
  exact ⟨_, rfl⟩

end

/-! ## The base scheduler as a source of flow batches -/

section
variable {D Key : Type}

/-- The part of a batch the synthetic sampler uses. -/
def view (b : Base.Batch ℚ) : Sampler.FlowBatch (Adapter.Field2 ℚ) := ⟨b.flow.rows.map Synthetic.fieldOf, some b.mask, b.files⟩

theorem draws_of_run (w : Base.World ℚ D Key) (c : Base.Cfg) (fuel n : Nat) : ∀ (bs : List (Base.Batch ℚ)) (s s' : Base.St D Key),
    Base.runBatches 0 w c fuel (List.replicate bs.length n) s = some (bs.map .ok, s') →
    Sampler.Draws (Sampler.ofPlain (Synthetic.fieldSched w c fuel)) n s (bs.map view) s' := by
  intro bs
  induction bs with
  | nil => intro s s' h; cases h; exact .nil _
  | cons b bs ih =>
    intro s s' h
    rw [List.length_cons, List.replicate_succ, Base.runBatches] at h
    cases hg : Base.getBatch 0 w c fuel n s with
    | none => rw [hg] at h; cases h
    | some q =>
      obtain ⟨r, s1⟩ := q
      rw [hg] at h
      dsimp only at h
      cases hk : Base.runBatches 0 w c fuel (List.replicate bs.length n) s1 with
      | none => rw [hk] at h; cases h
      | some q2 =>
        obtain ⟨rs, s2⟩ := q2
        rw [hk] at h
        simp only [List.map_cons, Option.some.injEq, Prod.mk.injEq, List.cons.injEq] at h
        obtain ⟨⟨rfl, rfl⟩, rfl⟩ := h
        refine .cons ?_ (ih _ _ hk)
        show (Base.getBatch 0 w c fuel n s).map _ = _
        rw [hg]
        rfl

/-- The sample that flow field `y` of file `p` gives. -/
def toSample (content : String → Option (Arr ℚ)) (q : String × Nat) : Base.Sample ℚ :=
  ⟨match content q.1 with
    | some v => (match Formats.h5Slice v q.2 with | .ok f => f | .error _ => v)
    | none => ⟨[], []⟩, none, none, some [q.1]⟩

/-- The samples of a file. -/
def samplesOf (content : String → Option (Arr ℚ)) (p : String) : List (Base.Sample ℚ) :=
  (fieldsOf content [p]).map (toSample content)

theorem flatMap_samplesOf (content : String → Option (Arr ℚ)) (l : List String) :
    l.flatMap (samplesOf content) = (fieldsOf content l).map (toSample content) := by
  unfold samplesOf fieldsOf
  rw [List.map_flatMap]
  congr 1
  funext p
  rw [List.flatMap_cons, List.flatMap_nil, List.append_nil]

theorem mem_fieldsOf {content : String → Option (Arr ℚ)} {l : List String} {q : String × Nat} (h : q ∈ fieldsOf content l) :
    q.1 ∈ l ∧ ∃ v, content q.1 = some v ∧ q.2 < v.shape.getD 1 0 := by
  obtain ⟨p, hp, hq⟩ := List.mem_flatMap.mp h
  cases hc : content p with
  | none => rw [hc] at hq; simp at hq
  | some v =>
    rw [hc] at hq
    obtain ⟨y, hy, rfl⟩ := List.mem_map.mp hq
    exact ⟨hp, v, hc, by simpa using hy⟩

/-- What a usable flow field is. -/
theorem field_spec {files : String → Formats.H5File ℚ} {X Z C : Nat} {fl : List String} {content : String → Option (Arr ℚ)}
    (hc : Contents files X Z C fl content) {q : String × Nat} (hp : q.1 ∈ fl) {v : Arr ℚ} (hv : content q.1 = some v)
    (hy : q.2 < v.shape.getD 1 0) :
    Formats.h5Slice v q.2 = .ok (toSample content q).flow ∧ (toSample content q).flow.shape = [X, Z, C] ∧ (toSample content q).flow.WF ∧
    ∀ j i k, j < X → i < Z → k < C → (toSample content q).flow.at? [j, i, k] = v.at? [j, q.2, i, k] := by
  have h := hc q.1 hp
  rw [hv] at h
  obtain ⟨_, ⟨Y, hs⟩, hw⟩ := h
  have hy' : q.2 < Y := by rw [hs] at hy; simpa using hy
  obtain ⟨f, h1, h2, h3, h4⟩ := Formats.h5Slice_spec hs hw hy'
  have e : (toSample content q).flow = f := by unfold toSample; simp only [hv, h1]
  rw [e]
  exact ⟨h1, h2, h3, h4⟩

theorem contents_yields {files : String → Formats.H5File ℚ} {X Z C : Nat} {fl : List String} {content : String → Option (Arr ℚ)}
    (hc : Contents files X Z C fl content) (split : Key → Key × Key) (perm : Key → Nat → List Nat) :
    ∀ p ∈ fl, Base.Yields (Formats.h5World files split perm) p (samplesOf content p) := by
  intro p hp
  have h := hc p hp
  cases hv : content p with
  | none =>
    rw [hv] at h
    have e : samplesOf content p = [] := by unfold samplesOf fieldsOf; simp [hv]
    rw [e]
    exact Formats.C13_other_files files split perm p h
  | some v =>
    rw [hv] at h
    obtain ⟨⟨name, others, hf⟩, ⟨Y, hs⟩, hw⟩ := h
    have hY : v.shape.getD 1 0 = Y := by rw [hs]; rfl
    have e : samplesOf content p = (List.range Y).map (fun y => toSample content (p, y)) := by
      unfold samplesOf fieldsOf
      rw [List.flatMap_cons, List.flatMap_nil, List.append_nil, hv]
      dsimp only
      rw [hY, List.map_map]
      rfl
    rw [e]
    unfold Base.Yields
    have hl : (Formats.h5World files split perm).load p = .ok v := by
      show Formats.h5Load (files p) = _
      rw [hf]; rfl
    rw [hl]
    refine ⟨?_, ?_⟩
    · intro i hi
      have hi' : i < Y := by simpa using hi
      obtain ⟨h1, _⟩ := field_spec hc (q := (p, i)) hp hv (by rw [hY]; exact hi')
      show Formats.h5Next p v i = _
      simp only [Formats.h5Next, hs, List.getElem?_cons_succ, List.getElem?_cons_zero, if_neg (show ¬ Y ≤ i by omega), h1,
        List.getElem_map, List.getElem_range]
      rfl
    · show Formats.h5Next p v _ = _
      simp [Formats.h5Next, hs]

theorem contents_uniform {files : String → Formats.H5File ℚ} {X Z C : Nat} {fl : List String} {content : String → Option (Arr ℚ)}
    (hc : Contents files X Z C fl content) {l : List (String × Nat)} (hl : ∀ q ∈ l, q ∈ fieldsOf content fl) :
    Base.Uniform (l.map (toSample content)) [X, Z, C] none none true := by
  refine ⟨rfl, (fun sh e => nomatch e), (fun sh e => nomatch e), ?_, ?_, ?_, ?_⟩
  all_goals
    intro x hx
    obtain ⟨q, hq, rfl⟩ := List.mem_map.mp hx
  · obtain ⟨h1, v, hv, hy⟩ := mem_fieldsOf (hl q hq)
    obtain ⟨_, h2, h3, _⟩ := field_spec hc h1 hv hy
    exact ⟨h2, h3⟩
  · exact ⟨rfl, fun a e => by cases e⟩
  · exact ⟨rfl, fun a e => by cases e⟩
  · exact ⟨[q.1], rfl, by simp⟩

theorem fieldOf_isField {files : String → Formats.H5File ℚ} {X Z C : Nat} (hC : 2 ≤ C) {fl : List String} {content : String → Option (Arr ℚ)}
    (hc : Contents files X Z C fl content) {q : String × Nat} (hq : q ∈ fieldsOf content fl) :
    IsField X Z content q (Synthetic.fieldOf (toSample content q).flow) := by
  obtain ⟨h1, v, hv, hy⟩ := mem_fieldsOf hq
  obtain ⟨_, h2, h3, h4⟩ := field_spec hc h1 hv hy
  generalize (toSample content q).flow = f at h2 h3 h4 ⊢
  have e : Synthetic.fieldOf f = ⟨X, Z, fun j i => (f.data.getD ((j * Z + i) * C) 0, f.data.getD ((j * Z + i) * C + 1) 0)⟩ := by
    unfold Synthetic.fieldOf
    rw [h2]
  have hat : ∀ j i k, j < X → i < Z → k < C → v.at? [j, q.2, i, k] = some (f.data.getD ((j * Z + i) * C + k) 0) := by
    intro j i k hj hi hk
    rw [← h4 j i k hj hi hk]
    have ho : Arr.offset f.shape [j, i, k] = some ((j * Z + i) * C + k) := by
      rw [h2]
      simp [Arr.offset, hj, hi, hk, Arr.size]
      ring
    have hlt : (j * Z + i) * C + k < f.data.length := by
      have : f.data.length = X * (Z * C) := by
        have := h3; unfold Arr.WF at this; rw [this, h2]; simp [Arr.size]
      rw [this]
      have a1 : (j * Z + i) + 1 ≤ X * Z := by
        have := Nat.mul_le_mul_right Z (show j + 1 ≤ X by omega)
        rw [Nat.add_mul] at this
        omega
      have a2 := Nat.mul_le_mul_right C a1
      rw [Nat.add_mul, Nat.mul_assoc X] at a2
      omega
    unfold Arr.at?
    rw [ho, Option.bind_some, List.getElem?_eq_getElem hlt, List.getD_eq_getElem?_getD, List.getElem?_eq_getElem hlt]
    rfl
  refine ⟨v, hv, by rw [e], by rw [e], ?_⟩
  intro j i hj hi
  rw [e]
  exact ⟨hat j i 0 hj hi (by omega), hat j i 1 hj hi (by omega)⟩

theorem blank_zeros (sh : List Nat) : Blank (Synthetic.fieldOf (Arr.zeros 0 sh)) := by
  intro j i
  unfold Synthetic.fieldOf Arr.zeros
  dsimp only
  split
  · have : ∀ k n : Nat, (List.replicate n (0 : ℚ)).getD k 0 = 0 := by
      intro k n
      rw [List.getD_eq_getElem?_getD, List.getElem?_replicate]
      split <;> rfl
    simp only [this]
  · rfl

/-- From a batch of the scheduler that shows `l` to the image batch made from it. -/
theorem madeOf {O I : Type} {files : String → Formats.H5File ℚ} {X Z C : Nat} (hC : 2 ≤ C) {fl : List String}
    {content : String → Option (Arr ℚ)} (hc : Contents files X Z C fl content) (g : Sampler.Gen (Adapter.Field2 ℚ) O I) (cfg : Sampler.Cfg)
    {n : Nat} {l : List (String × Nat)} (hne : l ≠ []) (hlf : l.length ≤ cfg.ffpb) (hl : ∀ q ∈ l, q ∈ fieldsOf content fl)
    {b : Base.Batch ℚ} (hs : Base.Shows 0 (l.map (toSample content)) cfg.ffpb b) {x : Sampler.OutBatch O I}
    (hx : Sampler.MadeFrom g cfg (Sampler.batchKey cfg.seed n) (view b) x) : MadeOf g cfg X Z content n l x := by
  obtain ⟨h1, h2, h3, h4, h5⟩ := hx
  obtain ⟨q0, hq0⟩ := List.exists_mem_of_ne_nil l hne
  have hm0 : toSample content q0 ∈ l.map (toSample content) := List.mem_map_of_mem hq0
  have hmask := hs.mask
  rw [List.length_map] at hmask
  have hrows : b.flow.rows.length = cfg.ffpb := by
    unfold Arr.rows
    rw [List.length_map, List.length_range, hs.flow_shape _ hm0]
    rfl
  refine ⟨h1, h2, by rw [h3]; exact congrArg some hmask, ?_, ?_⟩
  · rw [h4]
    show b.files = _
    rcases hs.files with ⟨_, hx⟩ | ⟨fs, e, hl', hr, hp⟩
    · have := hx _ hm0
      cases this
    · rw [e]
      congr 1
      apply List.ext_getElem
      · rw [hl', List.length_append, List.length_map, List.length_replicate]; omega
      · intro i g1 g2
        have hg : fs.getD i "" = fs[i] := by rw [List.getD_eq_getElem?_getD, List.getElem?_eq_getElem g1]; rfl
        by_cases hi : i < l.length
        · have := hr i (by simpa using hi)
          rw [List.getElem_map, hg] at this
          rw [List.getElem_append_left (by simpa using hi), List.getElem_map]
          exact (Option.some.inj this).symm
        · have := hp i (by simpa using Nat.le_of_not_lt hi) (hl' ▸ g1)
          rw [hg] at this
          rw [this, List.getElem_append_right (by simpa using Nat.le_of_not_lt hi), List.getElem_replicate]
  · intro i hi
    obtain ⟨f, hf, hfl, him⟩ := h5 i hi
    have hvl : (view b).flows.length = cfg.ffpb := by
      show (b.flow.rows.map _).length = _
      rw [List.length_map, hrows]
    rw [hvl] at hf
    generalize hj : Sampler.flowOf cfg.batchSize cfg.ndevices cfg.ffpb i = j at hf ⊢
    have hjn : j < cfg.ffpb := by rw [← hvl]; exact (List.getElem?_eq_some_iff.mp hf).1
    have hff : f = Synthetic.fieldOf (b.flow.row j) := by
      have : (view b).flows[j]? = some (Synthetic.fieldOf (b.flow.row j)) := by
        show (b.flow.rows.map _)[j]? = _
        rw [List.getElem?_map]
        unfold Arr.rows at hrows ⊢
        rw [List.length_map, List.length_range] at hrows
        rw [List.getElem?_map, List.getElem?_range (by rw [hrows]; exact hjn)]
        rfl
      rw [hf] at this
      exact Option.some.inj this
    refine ⟨f, ?_, ?_, hfl, him⟩
    · intro q hq
      obtain ⟨hjl, hq'⟩ := List.getElem?_eq_some_iff.mp hq
      rw [hff, hs.flow_rows j (by simpa using hjl), List.getElem_map, hq']
      exact fieldOf_isField hC hc (hl q (hq' ▸ List.getElem_mem _))
    · intro hge
      rw [hff, hs.flow_pad j (by simpa using hge) hjn _ hm0]
      exact blank_zeros _

/-- What the sampler makes from a run of the scheduler. -/
theorem serve {O I : Type} {files : String → Formats.H5File ℚ} {X Z C : Nat} (hC : 2 ≤ C) {fl : List String}
    {content : String → Option (Arr ℚ)} (hc : Contents files X Z C fl content) (w : Base.World ℚ D Key) (c : Base.Cfg) (fuel : Nat)
    (g : Sampler.Gen (Adapter.Field2 ℚ) O I) {b : Int} {nd : Nat} {bpfb ffpb seed : Int} {cfg : Sampler.Cfg}
    (hcfg : Sampler.Cfg.make b nd false bpfb ffpb seed = .ok cfg) (hdv : nd ∣ cfg.ffpb) {L : List (String × Nat)}
    (hLmem : ∀ q ∈ L, q ∈ fieldsOf content fl) {M : Nat} (hM : ∀ i, i < M → i * cfg.ffpb < L.length)
    (hfit : c.loop = true → M * cfg.ffpb ≤ L.length) {s0 s' : Base.St D Key}
    (hrun : Base.runBatches 0 w c fuel (List.replicate M cfg.ffpb) s0 = some ((List.range M).map (fun i =>
      Base.assemble 0 c (((L.drop (i * cfg.ffpb)).take cfg.ffpb).map (toSample content)) cfg.ffpb), s'))
    {N : Nat} (hN : N ≤ M * cfg.bpfb) :
    ∃ outs s, Sampler.run (Sampler.ofPlain (Synthetic.fieldSched w c fuel)) g cfg (List.replicate N .next) (Sampler.init cfg s0) = some (outs, s) ∧
      outs.length = N ∧ (∀ n, n < N → ∃ x, outs[n]? = some (.batch x) ∧
        MadeOf g cfg X Z content n ((L.drop (n / cfg.bpfb * cfg.ffpb)).take cfg.ffpb) x) ∧
      (N = M * cfg.bpfb → ∃ bs, Sampler.After (Sampler.ofPlain (Synthetic.fieldSched w c fuel)) g cfg s0 N bs s ∧ bs.length = M ∧ s.sched = s') := by
  have hok := Sampler.Cfg.ok_of_make hcfg
  have hnd' : cfg.ndevices = nd := by obtain ⟨_, _, _, _, _, _, rfl⟩ := Sampler.Cfg.make_ok hcfg; rfl
  have hdv' : cfg.ffpb % cfg.ndevices = 0 := by rw [hnd']; exact Nat.mod_eq_zero_of_dvd hdv
  have hpos := hok.ffpb
  have hchunk : ∀ i, i < M → (L.drop (i * cfg.ffpb)).take cfg.ffpb ≠ [] := by
    intro i hi h
    have := hM i hi
    have h2 := congrArg List.length h
    rw [List.length_take, List.length_drop, List.length_nil] at h2
    omega
  have hle : ∀ i, ((L.drop (i * cfg.ffpb)).take cfg.ffpb).length ≤ cfg.ffpb := fun i => by rw [List.length_take]; omega
  have hbatch : ∀ i, i < M → ∃ bb, Base.assemble 0 c (((L.drop (i * cfg.ffpb)).take cfg.ffpb).map (toSample content)) cfg.ffpb = .ok bb ∧
      Base.Shows 0 (((L.drop (i * cfg.ffpb)).take cfg.ffpb).map (toSample content)) cfg.ffpb bb := by
    intro i hi
    have hu := contents_uniform hc (l := (L.drop (i * cfg.ffpb)).take cfg.ffpb)
      (fun q hq => hLmem q (List.mem_of_mem_drop (List.mem_of_mem_take hq)))
    obtain ⟨bb, h1, h2, _⟩ := Base.assemble_uniform (0 : ℚ) c (n := cfg.ffpb) (by simpa using hchunk i hi)
      (by rw [List.length_map]; exact hle i) (fun hl => by
        rw [List.length_map, List.length_take, List.length_drop]
        have h3 := hfit hl
        have := Nat.mul_le_mul_right cfg.ffpb (show i + 1 ≤ M by omega)
        rw [Nat.add_mul] at this
        omega) hu
    exact ⟨bb, h1, h2⟩
  let bs : List (Base.Batch ℚ) := (List.finRange M).map (fun i => (hbatch i.1 i.2).choose)
  have hbl : bs.length = M := by simp [bs]
  have hbget : ∀ i (h : i < M), bs[i]? = some (hbatch i h).choose := by
    intro i h
    simp only [bs]
    rw [List.getElem?_map, List.getElem?_eq_getElem (by simpa using h)]
    simp
  have hrun' : Base.runBatches 0 w c fuel (List.replicate bs.length cfg.ffpb) s0 = some (bs.map .ok, s') := by
    rw [hbl, hrun]
    congr 2
    apply List.ext_getElem?
    intro i
    by_cases hiM : i < M
    · rw [List.getElem?_map, List.getElem?_range hiM, List.getElem?_map, hbget i hiM]
      simp only [Option.map_some, Option.some.injEq]
      exact (hbatch i hiM).choose_spec.1
    · rw [List.getElem?_eq_none, List.getElem?_eq_none]
      · rw [List.length_map, hbl]; omega
      · rw [List.length_map, List.length_range]; omega
  have hd := draws_of_run w c fuel cfg.ffpb bs _ _ hrun'
  have hvl : (bs.map view).length = M := by rw [List.length_map, hbl]
  obtain ⟨outs, s1, bs2, r1, r2, r3, r4⟩ := run_progress rfl hok (Synthetic.full_plain w c fuel) hdv' hd N 0 [] _
    (Sampler.After.init _ g cfg _) List.nil_prefix (by rw [hvl, Nat.zero_add]; exact hN)
  rw [Nat.zero_add] at r4
  obtain ⟨bs3, hd3, hlen, hz, hl3, hall3⟩ := Sampler.C34_flow_batch_used_partial _ (Synthetic.full_plain w c fuel) g b nd false bpfb ffpb seed cfg hcfg _ N outs s1 r1 r2
  refine ⟨outs, s1, r1, hlen, ?_, ?_⟩
  · intro n hn
    obtain ⟨x, fb, hx, hfb, hmade⟩ := hall3 n hn
    have hlen3 : bs3.length ≤ (bs.map view).length := by
      rw [hl3 (by omega), hvl]
      exact Nat.div_lt_of_lt_mul (by rw [Nat.mul_comm]; omega)
    have hpre := next_progress.draws_prefix hd3 hd hlen3
    have hiM : n / cfg.bpfb < M := Nat.div_lt_of_lt_mul (by rw [Nat.mul_comm]; omega)
    have hfb' : fb = view (hbatch _ hiM).choose := by
      have h1 : (bs.map view)[n / cfg.bpfb]? = some fb := by
        obtain ⟨t, ht⟩ := hpre
        rw [← ht, List.getElem?_append_left (List.getElem?_eq_some_iff.mp hfb).1]
        exact hfb
      rw [List.getElem?_map, hbget _ hiM] at h1
      exact (Option.some.inj h1).symm
    rw [hfb'] at hmade
    exact ⟨x, hx, madeOf hC hc g cfg (hchunk _ hiM) (hle _) (fun q hq => hLmem q (List.mem_of_mem_drop (List.mem_of_mem_take hq)))
      (hbatch _ hiM).choose_spec.2 hmade⟩
  · intro hNM
    have hl2 : bs2.length = M := by
      rcases Nat.eq_zero_or_pos N with h0 | h0
      · rw [(r4.start h0).2]
        rcases Nat.mul_eq_zero.mp (hNM ▸ h0) with h | h
        · exact h.symm
        · have := hok.bpfb; omega
      · obtain ⟨_, _, _, _, _, _, _, h5, _⟩ := r4.last h0
        have hk := hok.bpfb
        have hM0 : 0 < M := Nat.pos_of_ne_zero (fun h => by rw [h, Nat.zero_mul] at hNM; omega)
        rw [h5, hNM]
        have e : M * cfg.bpfb - 1 = cfg.bpfb * (M - 1) + (cfg.bpfb - 1) := by
          obtain ⟨m, rfl⟩ : ∃ m, M = m + 1 := ⟨M - 1, by omega⟩
          rw [Nat.add_sub_cancel, Nat.add_mul, Nat.mul_comm m]
          omega
        rw [e, Nat.mul_add_div hk, Nat.div_eq_of_lt (by omega)]
        omega
    refine ⟨bs2, r4, hl2, ?_⟩
    have he : bs2 = bs.map view := r3.eq_of_length (by rw [hl2, hvl])
    have h1 := r4.draws
    rw [he] at h1
    exact draws_det h1 hd
where
  draws_det {S B : Type} {sch : Sampler.ISched S B} {n : Nat} {s : S} {bs : List B} {s1 s2 : S}
      (h1 : Sampler.Draws sch n s bs s1) (h2 : Sampler.Draws sch n s bs s2) : s1 = s2 := by
    induction h1 with
    | nil => cases h2; rfl
    | cons hg _ ih =>
      cases h2 with
      | cons hg' ht' =>
        rw [hg] at hg'
        cases hg'
        exact ih ht'

end

/-! ## C109 -/

/-- **C109**, looping: over HDF5 files without repetition, each with a volume of `(X, ., Z, C)` or unusable, at least one of them with a
flow field, the synthetic sampler never ends, and image batch `n` is made from the flow fields number `⌊n / k⌋ * m` to
`⌊n / k⌋ * m + m - 1` (`k` image batches per flow batch, `m` flow fields per batch) of the passes over the files one after the other, each in
one order of the files (the given one unless shuffling is on). -/
theorem C109_synthetic_looping {Key O I : Type} (files : String → Formats.H5File ℚ) (X Z C : Nat) (hC : 2 ≤ C) (split : Key → Key × Key)
    (perm : Key → Nat → List Nat) (c : Base.Cfg) (hloop : c.loop = true)
    (hp : c.randomize = true → ∀ k n, (perm k n).Perm (List.range n)) (fl : List String) (hnd : fl.Nodup) (key : Key)
    (content : String → Option (Arr ℚ)) (hc : Contents files X Z C fl content) (hne : fieldsOf content fl ≠ [])
    (g : Sampler.Gen (Adapter.Field2 ℚ) O I) (b : Int) (nd : Nat) (bpfb ffpb seed : Int) (cfg : Sampler.Cfg)
    (hcfg : Sampler.Cfg.make b nd false bpfb ffpb seed = .ok cfg) (hdv : nd ∣ cfg.ffpb) (fuel : Nat) (hf : 2 * fl.length ≤ fuel) :
    ∃ order : Nat → List String, (∀ k, (order k).Perm fl) ∧ (c.randomize = false → ∀ k, order k = fl) ∧ ∀ N, ∃ outs s,
      Sampler.run (Sampler.ofPlain (Synthetic.fieldSched (Formats.h5World files split perm) c fuel)) g cfg (List.replicate N .next)
        (Sampler.init cfg (Base.init (Formats.h5World files split perm) c fl key)) = some (outs, s) ∧ outs.length = N ∧
      ∃ K, N * cfg.ffpb ≤ ((List.range K).flatMap (fun k => fieldsOf content (order k))).length ∧
        ∀ n, n < N → ∃ x, outs[n]? = some (.batch x) ∧ MadeOf g cfg X Z content n
          ((((List.range K).flatMap (fun k => fieldsOf content (order k))).drop (n / cfg.bpfb * cfg.ffpb)).take cfg.ffpb) x := by
  have hok := Sampler.Cfg.ok_of_make hcfg
  let w := Formats.h5World files split perm
  have hp' : c.randomize = true → Base.PermOK w := hp
  have hperm := Base.shuffle_perm hp' fl key
  have hmem : ∀ p, p ∈ (Base.init w c fl key).fileList ↔ p ∈ fl := fun p => hperm.mem_iff
  have hi : Base.Inv w (samplesOf content) (Base.init w c fl key) :=
    Base.inv_fresh (fun p hp => contents_yields hc split perm p ((hmem p).mp hp))
  have hord : ∀ k, (Base.passOrder w c fl key k).Perm fl := by
    intro k
    unfold Base.passOrder
    split
    · rename_i hr; exact Base.epochOrder_perm (hp' hr) key fl (k + 1)
    · exact List.Perm.refl _
  refine ⟨Base.passOrder w c fl key, hord, fun hr k => by simp [Base.passOrder, hr], ?_⟩
  intro N
  obtain ⟨p0, hp0, hc0⟩ : ∃ p ∈ fl, samplesOf content p ≠ [] := by
    obtain ⟨q, hq⟩ := List.exists_mem_of_ne_nil _ hne
    obtain ⟨p, hp, hq'⟩ := List.mem_flatMap.mp hq
    refine ⟨p, hp, ?_⟩
    unfold samplesOf fieldsOf
    simp only [List.flatMap_cons, List.flatMap_nil, List.append_nil, ne_eq, List.map_eq_nil_iff]
    exact List.ne_nil_of_mem hq'
  -- N flow batches are enough
  obtain ⟨xs, s', j, hxl, _, _, hstream, hrun⟩ := Base.runBatches_loop (0 : ℚ) hloop hp' (List.replicate N cfg.ffpb)
    (Base.init w c fl key) (by intro n hn; rw [(List.mem_replicate.mp hn).2]; exact hok.ffpb) hi ⟨p0, (hmem p0).mpr hp0, hc0⟩
  have hall : Base.loopStream w c (samplesOf content) (Base.init w c fl key) j =
      ((List.range (j + 1)).flatMap (fun k => fieldsOf content (Base.passOrder w c fl key k))).map (toSample content) := by
    rw [Base.loopStream_init, List.map_flatMap]
    congr 1
    funext k
    rw [Base.streamAfter_none, Base.shuffles_order]
    show List.flatMap (samplesOf content) (Base.dropRepeats (Base.passOrder w c fl key k)) = _
    rw [Base.dropRepeats_eq_self _ (Base.nodup_chain ((hord k).nodup_iff.mpr hnd)), flatMap_samplesOf]
  have h0 := hstream 0
  rw [Nat.zero_add, hall] at h0
  generalize hL : (List.range (j + 1)).flatMap (fun k => fieldsOf content (Base.passOrder w c fl key k)) = L at h0
  have hLmem : ∀ q ∈ L, q ∈ fieldsOf content fl := by
    intro q hq
    rw [← hL] at hq
    obtain ⟨k, _, hq⟩ := List.mem_flatMap.mp hq
    obtain ⟨p, hp, hq⟩ := List.mem_flatMap.mp hq
    exact List.mem_flatMap.mpr ⟨p, (hord k).mem_iff.mp hp, hq⟩
  have hsum : (List.replicate N cfg.ffpb).sum = N * cfg.ffpb := by simp
  have hLlen : N * cfg.ffpb ≤ L.length := by
    have := congrArg List.length h0
    rw [List.length_map, List.length_append, hxl, hsum] at this
    omega
  have hxs : xs = (L.take (N * cfg.ffpb)).map (toSample content) := by
    have := congrArg (List.take (N * cfg.ffpb)) h0
    rw [← hsum, ← hxl, List.take_left', hxl, hsum, ← List.map_take] at this
    · exact this.symm
    · rfl
  have hmul : ∀ i, i < N → i * cfg.ffpb + cfg.ffpb ≤ N * cfg.ffpb := by
    intro i hi
    have := Nat.mul_le_mul_right cfg.ffpb (show i + 1 ≤ N by omega)
    rwa [Nat.add_mul, Nat.one_mul] at this
  have hrun' : Base.runBatches 0 w c fuel (List.replicate N cfg.ffpb) (Base.init w c fl key) = some ((List.range N).map (fun i =>
      Base.assemble 0 c (((L.drop (i * cfg.ffpb)).take cfg.ffpb).map (toSample content)) cfg.ffpb), s') := by
    rw [hrun fuel (by rw [show (Base.init w c fl key).fileList.length = fl.length from hperm.length_eq]; exact hf)]
    congr 2
    apply List.ext_getElem?
    intro i
    by_cases hiN : i < N
    · rw [List.getElem?_zipWith, RealPipeline.getElem_takeBatches cfg.ffpb N _ i hiN, List.getElem?_replicate, if_pos hiN,
        List.getElem?_map, List.getElem?_range hiN]
      simp only [Option.map_some, Option.some.injEq]
      rw [hxs]
      congr 1
      rw [← List.map_drop, ← List.map_take, List.drop_take, List.take_take, Nat.mul_comm cfg.ffpb i]
      congr 2
      have := hmul i hiN
      omega
    · rw [List.getElem?_eq_none, List.getElem?_eq_none]
      · rw [List.length_map, List.length_range]; omega
      · rw [List.length_zipWith]; simp; omega
  have hpos := hok.ffpb
  obtain ⟨outs, s, r1, r2, r3, _⟩ := serve hC hc w c fuel g hcfg hdv hLmem (fun i hi => by have := hmul i hi; omega) (fun _ => hLlen) hrun'
    (Nat.le_mul_of_pos_right N hok.bpfb)
  refine ⟨outs, s, r1, r2, j + 1, ?_, ?_⟩
  · rw [hL]; exact hLlen
  · rw [hL]; exact r3

/-- **C109**, not looping: with `T` flow fields in the usable files, `m` flow fields per batch and `k` image batches per flow batch, the
sampler serves `⌈T / m⌉ * k` image batches, number `n` made from the flow fields from number `⌊n / k⌋ * m` on, at most `m` (the last rows are marked as
padding if there are fewer), in one order of the files (the given one unless shuffling is on), and then raises StopIteration. -/
theorem C109_synthetic_ends {Key O I : Type} (files : String → Formats.H5File ℚ) (X Z C : Nat) (hC : 2 ≤ C) (split : Key → Key × Key)
    (perm : Key → Nat → List Nat) (c : Base.Cfg) (hloop : c.loop = false)
    (hp : c.randomize = true → ∀ k n, (perm k n).Perm (List.range n)) (fl : List String) (hnd : fl.Nodup) (key : Key)
    (content : String → Option (Arr ℚ)) (hc : Contents files X Z C fl content)
    (g : Sampler.Gen (Adapter.Field2 ℚ) O I) (b : Int) (nd : Nat) (bpfb ffpb seed : Int) (cfg : Sampler.Cfg)
    (hcfg : Sampler.Cfg.make b nd false bpfb ffpb seed = .ok cfg) (hdv : nd ∣ cfg.ffpb) (fuel : Nat) (hf : fl.length < fuel) :
    ∃ order : List String, order.Perm fl ∧ (c.randomize = false → order = fl) ∧ ∃ outs s,
      Sampler.run (Sampler.ofPlain (Synthetic.fieldSched (Formats.h5World files split perm) c fuel)) g cfg
        (List.replicate (((fieldsOf content fl).length + cfg.ffpb - 1) / cfg.ffpb * cfg.bpfb + 1) .next)
        (Sampler.init cfg (Base.init (Formats.h5World files split perm) c fl key)) = some (outs, s) ∧
      outs.length = ((fieldsOf content fl).length + cfg.ffpb - 1) / cfg.ffpb * cfg.bpfb + 1 ∧
      (∀ n, n < ((fieldsOf content fl).length + cfg.ffpb - 1) / cfg.ffpb * cfg.bpfb → ∃ x, outs[n]? = some (.batch x) ∧
        MadeOf g cfg X Z content n (((fieldsOf content order).drop (n / cfg.bpfb * cfg.ffpb)).take cfg.ffpb) x) ∧
      outs[((fieldsOf content fl).length + cfg.ffpb - 1) / cfg.ffpb * cfg.bpfb]? = some (.raised .stopIteration) := by
  have hok := Sampler.Cfg.ok_of_make hcfg
  have hpos := hok.ffpb
  let w := Formats.h5World files split perm
  have hp' : c.randomize = true → Base.PermOK w := hp
  have hperm := Base.shuffle_perm hp' fl key
  have hi : Base.Inv w (samplesOf content) (Base.init w c fl key) :=
    Base.inv_fresh (fun p hp => contents_yields hc split perm p (hperm.mem_iff.mp hp))
  have hfl : (Base.init w c fl key).fileList = Base.passOrder w c fl key 0 := Base.shuffles_order w c fl key 0
  have hord : (Base.passOrder w c fl key 0).Perm fl := hfl ▸ hperm
  refine ⟨Base.passOrder w c fl key 0, hord, fun hr => by simp [Base.passOrder, hr], ?_⟩
  have hlen : (fieldsOf content fl).length = (fieldsOf content (Base.passOrder w c fl key 0)).length :=
    (List.Perm.flatMap_right _ hord).length_eq.symm
  rw [hlen]
  have hrem : Base.rem (samplesOf content) (Base.init w c fl key) =
      (fieldsOf content (Base.passOrder w c fl key 0)).map (toSample content) := by
    rw [Base.rem_fresh _ rfl rfl, Base.streamAfter_none, hfl, Base.dropRepeats_eq_self _ (Base.nodup_chain (hord.nodup_iff.mpr hnd)),
      flatMap_samplesOf]
  have hLmem : ∀ q ∈ fieldsOf content (Base.passOrder w c fl key 0), q ∈ fieldsOf content fl := by
    intro q hq
    obtain ⟨p, hp, hq⟩ := List.mem_flatMap.mp hq
    exact List.mem_flatMap.mpr ⟨p, hord.mem_iff.mp hp, hq⟩
  generalize fieldsOf content (Base.passOrder w c fl key 0) = L at hrem hLmem ⊢
  generalize hM : (L.length + cfg.ffpb - 1) / cfg.ffpb = M
  have hM1 : ∀ i, i < M → i * cfg.ffpb < L.length := by
    intro i hi
    have h1 : (i + 1) * cfg.ffpb ≤ L.length + cfg.ffpb - 1 := by
      rw [← Nat.le_div_iff_mul_le hpos, hM]
      exact hi
    rw [Nat.add_mul] at h1
    omega
  have hM2 : L.length ≤ M * cfg.ffpb := by
    have h1 : L.length + cfg.ffpb - 1 < (M + 1) * cfg.ffpb := by
      rw [← Nat.div_lt_iff_lt_mul hpos, hM]
      omega
    rw [Nat.add_mul] at h1
    omega
  obtain ⟨s', hi', hrem', hfl', _, hrun⟩ := Base.runBatches_nonloop (0 : ℚ) hloop (List.replicate M cfg.ffpb) _ hi
  have hlenfl : (Base.init w c fl key).fileList.length = fl.length := hperm.length_eq
  have hrun' : Base.runBatches 0 w c fuel (List.replicate M cfg.ffpb) (Base.init w c fl key) = some ((List.range M).map (fun i =>
      Base.assemble 0 c (((L.drop (i * cfg.ffpb)).take cfg.ffpb).map (toSample content)) cfg.ffpb), s') := by
    rw [hrun fuel (by omega)]
    congr 2
    apply List.ext_getElem?
    intro i
    by_cases hiM : i < M
    · rw [List.getElem?_zipWith, RealPipeline.getElem_takeBatches cfg.ffpb M _ i hiM, List.getElem?_replicate, if_pos hiM,
        List.getElem?_map, List.getElem?_range hiM, hrem]
      simp only [Option.map_some, Option.some.injEq]
      rw [← List.map_drop, ← List.map_take, Nat.mul_comm cfg.ffpb i, if_neg]
      rw [List.map_eq_nil_iff]
      intro h
      have := hM1 i hiM
      have h2 := congrArg List.length h
      rw [List.length_take, List.length_drop, List.length_nil] at h2
      omega
    · rw [List.getElem?_eq_none, List.getElem?_eq_none]
      · rw [List.length_map, List.length_range]; omega
      · rw [List.length_zipWith]; simp; omega
  obtain ⟨outs, s, r1, r2, r3, r4⟩ := serve hC hc w c fuel g hcfg hdv hLmem hM1 (fun h => by rw [hloop] at h; cases h) hrun'
    (Nat.le_refl (M * cfg.bpfb))
  obtain ⟨bs, ha, hbl, hsc⟩ := r4 rfl
  obtain ⟨s2, _, _, _, _, hend⟩ := Base.getBatch_nonloop (0 : ℚ) hloop cfg.ffpb s' hi'
  have hnil : Base.rem (samplesOf content) s' = [] := by
    rw [hrem', hrem, List.drop_eq_nil_iff, List.length_map]
    simpa using hM2
  have he : (Sampler.ofPlain (Synthetic.fieldSched w c fuel)).getBatch cfg.ffpb s.sched = some (.error .stopIteration, s2) := by
    rw [hsc]
    show (Base.getBatch 0 w c fuel cfg.ffpb s').map _ = _
    rw [hend fuel (by rw [hfl']; omega), hnil, List.take_nil, if_pos rfl]
    rfl
  obtain ⟨s3, hn⟩ := next_ends rfl hok ha (by rw [hbl]) he
  refine ⟨outs ++ [.raised .stopIteration], s3, ?_, by simp [r2], ?_, ?_⟩
  · rw [List.replicate_succ']
    rw [run_append r1]
    simp only [Sampler.run, Sampler.step, hn, Option.map_some, Sampler.batchOut]
  · intro n hn'
    obtain ⟨x, h1, h2⟩ := r3 n hn'
    exact ⟨x, by rw [List.getElem?_append_left (by omega)]; exact h1, h2⟩
  · rw [List.getElem?_append_right (by omega), r2]
    simp
where
  run_append {S F O I : Type} {sch : Sampler.ISched S (Sampler.FlowBatch F)} {g : Sampler.Gen F O I} {cfg : Sampler.Cfg} {l1 l2 : List Sampler.Op}
      {s s1 : Sampler.St S F O} {o1 : List (Sampler.Out (Sampler.OutBatch O I))} (h1 : Sampler.run sch g cfg l1 s = some (o1, s1)) :
      Sampler.run sch g cfg (l1 ++ l2) s = (Sampler.run sch g cfg l2 s1).map (fun q => (o1 ++ q.1, q.2)) := by
    induction l1 generalizing s o1 with
    | nil =>
      cases h1
      rw [List.nil_append]
      cases Sampler.run sch g cfg l2 s1 <;> rfl
    | cons op l1 ih =>
      rw [List.cons_append]
      rw [Sampler.run] at h1 ⊢
      cases hs : Sampler.step sch g cfg s op with
      | none => rw [hs] at h1; cases h1
      | some q =>
        obtain ⟨o, s'⟩ := q
        rw [hs] at h1
        dsimp only at h1 ⊢
        cases hr : Sampler.run sch g cfg l1 s' with
        | none => rw [hr] at h1; cases h1
        | some q =>
          obtain ⟨os, s''⟩ := q
          rw [hr] at h1
          cases h1
          rw [ih hr]
          cases Sampler.run sch g cfg l2 s1 <;> rfl

/-- The buffered sampler shows the same batches. -/
theorem buffered {Key O I : Type} (modern : Bool) {files : String → Formats.H5File ℚ} {X Z C : Nat} {split : Key → Key × Key}
    {perm : Key → Nat → List Nat} {c : Base.Cfg} (hp : c.randomize = true → ∀ k n, (perm k n).Perm (List.range n)) {fl : List String} {key : Key}
    {content : String → Option (Arr ℚ)} (hc : Contents files X Z C fl content) (hlive : c.loop = true → fieldsOf content fl ≠ [])
    {g : Sampler.Gen (Adapter.Field2 ℚ) O I} {cfg : Sampler.Cfg} (hpos : 0 < cfg.ffpb) {fuel : Nat} (hf : 2 * fl.length < fuel)
    {pcfg : Prefetch.Cfg} (hb : pcfg.batchSize = cfg.ffpb)
    {calls : List (Sampler.ISched (Prefetch.St (Base.St (Arr ℚ) Key) (Sampler.FlowBatch (Adapter.Field2 ℚ))) (Sampler.FlowBatch (Adapter.Field2 ℚ)))}
    (hA : ∀ A ∈ calls, Stack.Meets modern (Stack.plainSrc (Synthetic.fieldSched (Formats.h5World files split perm) c fuel) cfg.ffpb) pcfg A)
    {outs : List (Sampler.Out (Sampler.OutBatch O I))} {s}
    (hr : Stack.runVia g cfg (calls.map (fun A => (A, .next)))
      (Sampler.init cfg (Prefetch.init (Base.init (Formats.h5World files split perm) c fl key))) = some (outs, s)) :
    ∃ outs' s', Sampler.run (Sampler.ofPlain (Synthetic.fieldSched (Formats.h5World files split perm) c fuel)) g cfg
        (List.replicate calls.length .next) (Sampler.init cfg (Base.init (Formats.h5World files split perm) c fl key)) = some (outs', s') ∧
      outs = outs'.map (Stack.withDone (Stack.flags modern cfg.batchSize)) := by
  have hu : Base.Uniform (fl.flatMap (samplesOf content)) [X, Z, C] none none true := by
    rw [flatMap_samplesOf]
    exact contents_uniform hc (fun q hq => hq)
  obtain ⟨h1, h2, _⟩ := Stack.base_plain view (0 : ℚ) (Formats.h5World files split perm) c hp fl key (samplesOf content)
    (contents_yields hc split perm) hu (fun hl => by
      obtain ⟨q, hq⟩ := List.exists_mem_of_ne_nil _ (hlive hl)
      obtain ⟨p, hp, hq'⟩ := List.mem_flatMap.mp hq
      refine ⟨p, hp, ?_⟩
      unfold samplesOf fieldsOf
      simp only [List.flatMap_cons, List.flatMap_nil, List.append_nil, ne_eq, List.map_eq_nil_iff]
      exact List.ne_nil_of_mem hq') fuel hf hpos
  obtain ⟨outs', s', h3, h4⟩ := Stack.C82_buffering_invisible_partial modern (Synthetic.fieldSched (Formats.h5World files split perm) c fuel) g cfg
    pcfg hb _ h1 h2 (calls.map (fun A => (A, .next)))
    (fun ⟨q, hq, hq'⟩ => by
      obtain ⟨A, _, rfl⟩ := List.mem_map.mp hq
      cases hq')
    (fun q hq => by
      obtain ⟨A, hA', rfl⟩ := List.mem_map.mp hq
      exact hA A hA')
    (fun _ q hq => by
      obtain ⟨A, _, rfl⟩ := List.mem_map.mp hq
      intro h
      cases h) outs s hr
  have hm : (calls.map (fun A => (A, Sampler.Op.next))).map Prod.snd = List.replicate calls.length Sampler.Op.next := by
    rw [List.map_map]
    exact List.map_const'
  rw [hm] at h3
  exact ⟨outs', s', h3, h4⟩

/-- **C109**, looping, through a prefetching scheduler built with `batch_size = flow_fields_per_batch`, under every interleaving of the worker
with the calls in which no timeout strikes: whatever number of calls has returned, their batches are those of `C109_synthetic_looping`. -/
theorem C109_synthetic_looping_prefetched {Key O I : Type} (modern : Bool) (files : String → Formats.H5File ℚ) (X Z C : Nat) (hC : 2 ≤ C)
    (split : Key → Key × Key) (perm : Key → Nat → List Nat) (c : Base.Cfg) (hloop : c.loop = true)
    (hp : c.randomize = true → ∀ k n, (perm k n).Perm (List.range n)) (fl : List String) (hnd : fl.Nodup) (key : Key)
    (content : String → Option (Arr ℚ)) (hc : Contents files X Z C fl content) (hne : fieldsOf content fl ≠ [])
    (g : Sampler.Gen (Adapter.Field2 ℚ) O I) (b : Int) (nd : Nat) (bpfb ffpb seed : Int) (cfg : Sampler.Cfg)
    (hcfg : Sampler.Cfg.make b nd false bpfb ffpb seed = .ok cfg) (hdv : nd ∣ cfg.ffpb) (fuel : Nat) (hf : 2 * fl.length < fuel)
    (pcfg : Prefetch.Cfg) (hb : pcfg.batchSize = cfg.ffpb) :
    ∃ order : Nat → List String, (∀ k, (order k).Perm fl) ∧ (c.randomize = false → ∀ k, order k = fl) ∧
      ∀ (calls : List (Sampler.ISched (Prefetch.St (Base.St (Arr ℚ) Key) (Sampler.FlowBatch (Adapter.Field2 ℚ))) (Sampler.FlowBatch (Adapter.Field2 ℚ)))),
      (∀ A ∈ calls, Stack.Meets modern (Stack.plainSrc (Synthetic.fieldSched (Formats.h5World files split perm) c fuel) cfg.ffpb) pcfg A) →
      ∀ outs s, Stack.runVia g cfg (calls.map (fun A => (A, .next)))
        (Sampler.init cfg (Prefetch.init (Base.init (Formats.h5World files split perm) c fl key))) = some (outs, s) →
      outs.length = calls.length ∧
      ∃ K, calls.length * cfg.ffpb ≤ ((List.range K).flatMap (fun k => fieldsOf content (order k))).length ∧
        ∀ n, n < calls.length → ∃ x, outs[n]? = some (.batch x) ∧ MadeOf g cfg X Z content n
          ((((List.range K).flatMap (fun k => fieldsOf content (order k))).drop (n / cfg.bpfb * cfg.ffpb)).take cfg.ffpb) x := by
  obtain ⟨order, h1, h2, h3⟩ := C109_synthetic_looping files X Z C hC split perm c hloop hp fl hnd key content hc hne g b nd bpfb ffpb seed cfg hcfg
    hdv fuel (by omega)
  refine ⟨order, h1, h2, ?_⟩
  intro calls hA outs s hr
  obtain ⟨outs', s', hrun, rfl⟩ := buffered modern hp hc (fun _ => hne) (Sampler.Cfg.ok_of_make hcfg).ffpb hf hb hA hr
  obtain ⟨outs0, s0, g1, g2, K, g3, g4⟩ := h3 calls.length
  rw [g1] at hrun
  cases hrun
  refine ⟨by simp [g2], K, g3, ?_⟩
  intro n hn
  obtain ⟨x, hx, hm⟩ := g4 n hn
  exact ⟨{ x with done := Stack.flags modern cfg.batchSize x.done }, by rw [List.getElem?_map, hx]; rfl, hm⟩

/-- **C109**, not looping, through a prefetching scheduler, likewise. -/
theorem C109_synthetic_ends_prefetched {Key O I : Type} (modern : Bool) (files : String → Formats.H5File ℚ) (X Z C : Nat) (hC : 2 ≤ C)
    (split : Key → Key × Key) (perm : Key → Nat → List Nat) (c : Base.Cfg) (hloop : c.loop = false)
    (hp : c.randomize = true → ∀ k n, (perm k n).Perm (List.range n)) (fl : List String) (hnd : fl.Nodup) (key : Key)
    (content : String → Option (Arr ℚ)) (hc : Contents files X Z C fl content)
    (g : Sampler.Gen (Adapter.Field2 ℚ) O I) (b : Int) (nd : Nat) (bpfb ffpb seed : Int) (cfg : Sampler.Cfg)
    (hcfg : Sampler.Cfg.make b nd false bpfb ffpb seed = .ok cfg) (hdv : nd ∣ cfg.ffpb) (fuel : Nat) (hf : 2 * fl.length < fuel)
    (pcfg : Prefetch.Cfg) (hb : pcfg.batchSize = cfg.ffpb) :
    ∃ order : List String, order.Perm fl ∧ (c.randomize = false → order = fl) ∧
      ∀ (calls : List (Sampler.ISched (Prefetch.St (Base.St (Arr ℚ) Key) (Sampler.FlowBatch (Adapter.Field2 ℚ))) (Sampler.FlowBatch (Adapter.Field2 ℚ)))),
      (∀ A ∈ calls, Stack.Meets modern (Stack.plainSrc (Synthetic.fieldSched (Formats.h5World files split perm) c fuel) cfg.ffpb) pcfg A) →
      calls.length = ((fieldsOf content fl).length + cfg.ffpb - 1) / cfg.ffpb * cfg.bpfb + 1 →
      ∀ outs s, Stack.runVia g cfg (calls.map (fun A => (A, .next)))
        (Sampler.init cfg (Prefetch.init (Base.init (Formats.h5World files split perm) c fl key))) = some (outs, s) →
      outs.length = calls.length ∧
      (∀ n, n < calls.length - 1 → ∃ x, outs[n]? = some (.batch x) ∧
        MadeOf g cfg X Z content n (((fieldsOf content order).drop (n / cfg.bpfb * cfg.ffpb)).take cfg.ffpb) x) ∧
      outs[calls.length - 1]? = some (.raised .stopIteration) := by
  obtain ⟨order, h1, h2, outs0, s0, g1, g2, g3, g4⟩ := C109_synthetic_ends files X Z C hC split perm c hloop hp fl hnd key content hc g b nd bpfb ffpb
    seed cfg hcfg hdv fuel (by omega)
  refine ⟨order, h1, h2, ?_⟩
  intro calls hA hl outs s hr
  obtain ⟨outs', s', hrun, rfl⟩ := buffered modern hp hc (fun h => by rw [hloop] at h; cases h) (Sampler.Cfg.ok_of_make hcfg).ffpb hf hb hA hr
  rw [hl, g1] at hrun
  cases hrun
  rw [hl, Nat.add_sub_cancel]
  refine ⟨by simp [g2], ?_, ?_⟩
  · intro n hn
    obtain ⟨x, hx, hm⟩ := g3 n hn
    exact ⟨{ x with done := Stack.flags modern cfg.batchSize x.done }, by rw [List.getElem?_map, hx]; rfl, hm⟩
  · rw [List.getElem?_map, g4]
    rfl

/-! ### A case: three files, one of them broken, with three flow fields -/

/-- Files `a` (two flow fields of 2 x 2) and `b` (one), and a broken one. -/
def demoFiles (p : String) : Formats.H5File ℚ :=
  if p = "a" then .ok [("flow", some ⟨[2, 2, 2, 2], (List.range 16).map (fun i : Nat => (i : ℚ))⟩)]
  else if p = "b" then .ok [("flow", some ⟨[2, 1, 2, 2], (List.range 8).map (fun i : Nat => (100 + i : ℚ))⟩), ("extra", none)]
  else .error (.other 0)

/-- What they hold. -/
def demoContent (p : String) : Option (Arr ℚ) :=
  if p = "a" then some ⟨[2, 2, 2, 2], (List.range 16).map (fun i : Nat => (i : ℚ))⟩
  else if p = "b" then some ⟨[2, 1, 2, 2], (List.range 8).map (fun i : Nat => (100 + i : ℚ))⟩
  else none

/-- A generator that reports the first vector of the flow field and draws the last. -/
def demoGen : Sampler.Gen (Adapter.Field2 ℚ) (ℚ × ℚ) (KeyTerm × Nat × ℚ × ℚ) where
  adapt f := (f.at_ 0 0, f)
  render k _ i f := (k, i, f.at_ 1 1)

theorem demo_contents : Contents demoFiles 2 2 2 ["a", "x", "b"] demoContent := by
  intro p hp
  simp only [List.mem_cons, List.not_mem_nil, or_false] at hp
  rcases hp with rfl | rfl | rfl
  · exact ⟨⟨"flow", [], rfl⟩, ⟨2, rfl⟩, by simp [Arr.WF, Arr.size]⟩
  · intro items h
    cases h
  · exact ⟨⟨"flow", [("extra", none)], rfl⟩, ⟨1, rfl⟩, by simp [Arr.WF, Arr.size]⟩

example : fieldsOf demoContent ["a", "x", "b"] = [("a", 0), ("a", 1), ("b", 0)] := by decide +kernel

example : Sampler.Cfg.make 4 2 false 2 2 7 = .ok ⟨4, 2, 2, 2, 7⟩ := by decide

example := C109_synthetic_looping demoFiles 2 2 2 (by omega) KeyTerm.split2 (fun _ n => List.range n) ⟨true, true⟩ rfl
  (fun _ _ _ => List.Perm.refl _) ["a", "x", "b"] (by decide) (.seed 0) demoContent demo_contents (by decide +kernel) demoGen 4 2 2 2 7
  ⟨4, 2, 2, 2, 7⟩ (by decide) (by decide) 6 (by decide)

example := C109_synthetic_ends demoFiles 2 2 2 (by omega) KeyTerm.split2 (fun _ n => List.range n) ⟨false, true⟩ rfl
  (fun _ _ _ => List.Perm.refl _) ["a", "x", "b"] (by decide) (.seed 0) demoContent demo_contents demoGen 4 2 2 2 7
  ⟨4, 2, 2, 2, 7⟩ (by decide) (by decide) 6 (by decide)

/-- What a call shows: reported flows and images. -/
def demoPairs : Sampler.Out (Sampler.OutBatch (ℚ × ℚ) (KeyTerm × Nat × ℚ × ℚ)) → List (ℚ × ℚ) × List (ℚ × ℚ)
  | .batch x => (x.flows, x.images.map (fun i => i.2.2))
  | _ => ([], [])

/-- What a call shows: mask, names, and the exception. -/
def demoMarks : Sampler.Out (Sampler.OutBatch (ℚ × ℚ) (KeyTerm × Nat × ℚ × ℚ)) → Option (List Bool) × Option (List String) × Option Exc
  | .batch x => (x.mask, x.files, none)
  | .raised e => (none, none, some e)
  | .done => (none, none, none)

/-- The run itself. -/
def demoRun := Sampler.run (Sampler.ofPlain (Synthetic.fieldSched (Formats.h5World demoFiles KeyTerm.split2 (fun _ n => List.range n)) ⟨false, true⟩ 6))
  demoGen ⟨4, 2, 2, 2, 7⟩ (List.replicate 5 .next)
  (Sampler.init ⟨4, 2, 2, 2, 7⟩ (Base.init (Formats.h5World demoFiles KeyTerm.split2 (fun _ n => List.range n)) ⟨false, true⟩ ["a", "x", "b"]
    (.seed 0)))

/-- Two image batches from fields 0 and 1 of `a`, two from field 0 of `b` and a blank one, then the end. -/
example : demoRun.map (fun q => q.1.map demoPairs) = some [
    ([(0, 1), (0, 1), (4, 5), (4, 5)], [(10, 11), (10, 11), (14, 15), (14, 15)]),
    ([(0, 1), (0, 1), (4, 5), (4, 5)], [(10, 11), (10, 11), (14, 15), (14, 15)]),
    ([(100, 101), (100, 101), (0, 0), (0, 0)], [(106, 107), (106, 107), (0, 0), (0, 0)]),
    ([(100, 101), (100, 101), (0, 0), (0, 0)], [(106, 107), (106, 107), (0, 0), (0, 0)]), ([], [])] := by
  decide +kernel

example : demoRun.map (fun q => q.1.map demoMarks) = some [
    (some [true, true], some ["a", "a"], none), (some [true, true], some ["a", "a"], none),
    (some [true, false], some ["b", ""], none), (some [true, false], some ["b", ""], none), (none, none, some .stopIteration)] := by
  decide +kernel

/-- A call during which the worker makes the steps `w`. -/
def demoCall (w : List Prefetch.Action) := Stack.scripted true (Stack.plainSrc (Synthetic.fieldSched (Formats.h5World demoFiles KeyTerm.split2
  (fun _ n => List.range n)) ⟨false, true⟩ 7) 2) ⟨2, 2⟩ [] w [] []

/-- Through a prefetching scheduler with room for two: the worker fetches both batches while the first call waits, and meets the end
during the last. -/
def demoBuffered := Stack.runVia demoGen ⟨4, 2, 2, 2, 7⟩
  ([demoCall [.check, .fetch, .put, .check, .fetch, .put], demoCall [], demoCall [], demoCall [], demoCall [.check, .fetch, .eosPut]].map
    (fun A => (A, .next)))
  (Sampler.init ⟨4, 2, 2, 2, 7⟩ (Prefetch.init (Base.init (Formats.h5World demoFiles KeyTerm.split2 (fun _ n => List.range n)) ⟨false, true⟩
    ["a", "x", "b"] (.seed 0))))

example : demoBuffered.map (fun q => q.1.map demoMarks) = some [
    (some [true, true], some ["a", "a"], none), (some [true, true], some ["a", "a"], none),
    (some [true, false], some ["b", ""], none), (some [true, false], some ["b", ""], none), (none, none, some .stopIteration)] := by
  decide +kernel

example := C109_synthetic_ends_prefetched true demoFiles 2 2 2 (by omega) KeyTerm.split2 (fun _ n => List.range n) ⟨false, true⟩ rfl
  (fun _ _ _ => List.Perm.refl _) ["a", "x", "b"] (by decide) (.seed 0) demoContent demo_contents demoGen 4 2 2 2 7
  ⟨4, 2, 2, 2, 7⟩ (by decide) (by decide) 7 (by decide) ⟨2, 2⟩ rfl

example := C109_synthetic_looping_prefetched false demoFiles 2 2 2 (by omega) KeyTerm.split2 (fun _ n => List.range n) ⟨true, true⟩ rfl
  (fun _ _ _ => List.Perm.refl _) ["a", "x", "b"] (by decide) (.seed 0) demoContent demo_contents (by decide +kernel) demoGen 4 2 2 2 7
  ⟨4, 2, 2, 2, 7⟩ (by decide) (by decide) 7 (by decide) ⟨2, 2⟩ rfl

end Verif.SynthPipeline
