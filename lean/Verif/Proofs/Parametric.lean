import Verif.Model.Sampler
import Mathlib.Data.List.Forall2
/-!
# Runs of samplers on schedulers that deliver related flow fields
-/

namespace Verif.Sampler
open Verif

section
variable {S F F' O O' I I' : Type}

/-- Batches that correspond. -/
def BatchRel (RO : O → O' → Prop) (RI : I → I' → Prop) (b : OutBatch O I) (b' : OutBatch O' I') : Prop :=
  List.Forall₂ RI b.images b'.images ∧ List.Forall₂ RO b.flows b'.flows ∧ b.mask = b'.mask ∧ b.files = b'.files ∧ b.done = b'.done

/-- Outcomes that correspond: the same exception, or batches that correspond. -/
def OutRel (RO : O → O' → Prop) (RI : I → I' → Prop) : Out (OutBatch O I) → Out (OutBatch O' I') → Prop
  | .batch b, .batch b' => BatchRel RO RI b b'
  | .raised e, .raised e' => e = e'
  | .done, .done => True
  | _, _ => False

/-- The second scheduler does what the first one does, delivering related flow fields. -/
structure SchedRel (RF : F → F' → Prop) (sch : ISched S (FlowBatch F)) (sch' : ISched S (FlowBatch F')) : Prop where
  getBatch : ∀ n s, (sch.getBatch n s = none ∧ sch'.getBatch n s = none) ∨
    (∃ e s', sch.getBatch n s = some (.error e, s') ∧ sch'.getBatch n s = some (.error e, s')) ∨
    ∃ b b' s', sch.getBatch n s = some (.ok b, s') ∧ sch'.getBatch n s = some (.ok b', s') ∧ List.Forall₂ RF b.flows b'.flows ∧ b.mask = b'.mask ∧ b.files = b'.files
  reset : sch.reset = sch'.reset
  episodic : sch.episodic = sch'.episodic

/-- The two functions turn related flow fields into related ones, and into related images. -/
structure GenRel (RF RR : F → F' → Prop) (RO : O → O' → Prop) (RI : I → I' → Prop) (g : Gen F O I) (g' : Gen F' O' I') : Prop where
  adapt : ∀ f f', RF f f' → RO (g.adapt f).1 (g'.adapt f').1 ∧ RR (g.adapt f).2 (g'.adapt f').2
  render : ∀ k b i f f', RR f f' → RI (g.render k b i f) (g'.render k b i f')

/-- Samplers in corresponding states. Flow fields that cannot be laid out over the devices are kept as delivered, and are never rendered. -/
structure StRel (RR : F → F' → Prop) (RO : O → O' → Prop) (cfg : Cfg) (s : St S F O) (s' : St S F' O') : Prop where
  sched : s.sched = s'.sched
  rng : s.rng = s'.rng
  cur : (s.cur = none ∧ s'.cur = none) ∨ ∃ l l', s.cur = some l ∧ s'.cur = some l' ∧ (List.Forall₂ RR l l' ∨ (l.length = l'.length ∧ l.length % cfg.ndevices ≠ 0))
  out : List.Forall₂ RO s.outFlows s'.outFlows
  mask : s.mask = s'.mask
  files : s.files = s'.files
  generated : s.generated = s'.generated

theorem shards_rel {α β : Type} {R : α → β → Prop} (d : Nat) {l : List α} {l' : List β} (h : List.Forall₂ R l l') :
    List.Forall₂ (List.Forall₂ R) (shards d l) (shards d l') := by
  unfold shards
  rw [← h.length_eq]
  rw [List.forall₂_map_left_iff, List.forall₂_map_right_iff]
  exact List.forall₂_same.2 (fun j _ => List.forall₂_take _ (List.forall₂_drop _ h))

theorem forall₂_replicate {α β : Type} {R : α → β → Prop} {a : α} {b : β} (h : R a b) (n : Nat) : List.Forall₂ R (List.replicate n a) (List.replicate n b) := by
  induction n with
  | zero => exact .nil
  | succ n ih => exact .cons h ih

theorem forall₂_flatten {α β : Type} {R : α → β → Prop} {l : List (List α)} {l' : List (List β)} (h : List.Forall₂ (List.Forall₂ R) l l') :
    List.Forall₂ R l.flatten l'.flatten := by
  induction h with
  | nil => exact .nil
  | cons h _ ih => exact List.rel_append h ih

theorem tiled_rel {α β : Type} {R : α → β → Prop} (b : Nat) {l : List α} {l' : List β} (h : List.Forall₂ R l l') : List.Forall₂ R (tiled b l) (tiled b l') := by
  unfold tiled
  rw [← h.length_eq]
  exact List.forall₂_take _ (forall₂_flatten (forall₂_replicate h _))

theorem forall₂_getElem? {α β : Type} {R : α → β → Prop} {l : List α} {l' : List β} (h : List.Forall₂ R l l') (i : Nat) :
    (l[i]? = none ∧ l'[i]? = none) ∨ ∃ a b, l[i]? = some a ∧ l'[i]? = some b ∧ R a b := by
  induction h generalizing i with
  | nil => left; simp
  | @cons a b l l' h _ ih =>
    cases i with
    | zero => exact .inr ⟨a, b, rfl, rfl, h⟩
    | succ i => simpa using ih i

theorem deviceImages_rel {RF RR : F → F' → Prop} {RO : O → O' → Prop} {RI : I → I' → Prop} {g : Gen F O I} {g' : Gen F' O' I'} (hg : GenRel RF RR RO RI g g')
    (b : Nat) (k : KeyTerm) {l : List F} {l' : List F'} (h : List.Forall₂ RR l l') : List.Forall₂ RI (deviceImages g b k l) (deviceImages g' b k l') := by
  unfold deviceImages
  rw [← h.length_eq]
  generalize List.range b = is
  generalize l.length = n
  induction is with
  | nil => exact .nil
  | cons i is ih =>
    simp only [List.filterMap_cons]
    rcases forall₂_getElem? h (i % n) with ⟨h1, h2⟩ | ⟨f, f', h1, h2, h3⟩
    · rw [h1, h2]; exact ih
    · rw [h1, h2]; exact .cons (hg.render k b i f f' h3) ih

theorem images_rel {RF RR : F → F' → Prop} {RO : O → O' → Prop} {RI : I → I' → Prop} {g : Gen F O I} {g' : Gen F' O' I'} (hg : GenRel RF RR RO RI g g')
    (cfg : Cfg) (k : KeyTerm) {l : List F} {l' : List F'} (h : List.Forall₂ RR l l') : List.Forall₂ RI (images g cfg k l) (images g' cfg k l') := by
  unfold images
  have hs := shards_rel cfg.ndevices h
  generalize shards cfg.ndevices l = A at hs
  generalize shards cfg.ndevices l' = B at hs
  generalize (List.range cfg.ndevices).map (fun j => KeyTerm.sub k cfg.ndevices j) = ks
  induction hs generalizing ks with
  | nil => simp
  | cons h _ ih =>
    cases ks with
    | nil => simp
    | cons k ks =>
      simp only [List.zip_cons_cons, List.flatMap_cons]
      exact List.rel_append (deviceImages_rel hg _ _ h) (ih ks)

theorem adaptAll_rel {RF RR : F → F' → Prop} {RO : O → O' → Prop} {RI : I → I' → Prop} {g : Gen F O I} {g' : Gen F' O' I'} (hg : GenRel RF RR RO RI g g')
    (cfg : Cfg) {l : List F} {l' : List F'} (h : List.Forall₂ RF l l') :
    List.Forall₂ RO (adaptAll g cfg l).1 (adaptAll g' cfg l').1 ∧ List.Forall₂ RR (adaptAll g cfg l).2 (adaptAll g' cfg l').2 := by
  unfold adaptAll
  constructor
  · have hs := shards_rel cfg.ndevices h
    dsimp only
    generalize shards cfg.ndevices l = A at hs
    generalize shards cfg.ndevices l' = B at hs
    induction hs with
    | nil => exact .nil
    | cons h _ ih =>
      simp only [List.flatMap_cons]
      refine List.rel_append (tiled_rel _ ?_) ih
      rw [List.forall₂_map_left_iff, List.forall₂_map_right_iff]
      exact h.imp (fun f f' hf => (hg.adapt f f' hf).1)
  · dsimp only
    rw [List.forall₂_map_left_iff, List.forall₂_map_right_iff]
    exact h.imp (fun f f' hf => (hg.adapt f f' hf).2)

theorem produce_rel {RF RR : F → F' → Prop} {RO : O → O' → Prop} {RI : I → I' → Prop} {g : Gen F O I} {g' : Gen F' O' I'} (hg : GenRel RF RR RO RI g g')
    (cfg : Cfg) {l : List F} {l' : List F'} (h : List.Forall₂ RR l l' ∨ (l.length = l'.length ∧ l.length % cfg.ndevices ≠ 0))
    {s : St S F O} {s' : St S F' O'} (hs : StRel RR RO cfg s s') :
    ((∃ e, (produce g cfg l s).1 = .error e ∧ (produce g' cfg l' s').1 = .error e) ∨
      ∃ b b', (produce g cfg l s).1 = .ok b ∧ (produce g' cfg l' s').1 = .ok b' ∧ BatchRel RO RI b b') ∧
    StRel RR RO cfg (produce g cfg l s).2 (produce g' cfg l' s').2 := by
  have hlen : l.length = l'.length := by rcases h with h | h; exact h.length_eq; exact h.1
  unfold produce
  dsimp only
  rw [← hlen]
  by_cases hd : l.length % cfg.ndevices ≠ 0
  · rw [if_pos hd, if_pos hd]
    exact ⟨.inl ⟨_, rfl, rfl⟩, { hs with rng := by dsimp only; rw [hs.rng] }⟩
  · rw [if_neg hd, if_neg hd]
    have hl : List.Forall₂ RR l l' := by rcases h with h | h; exact h; exact absurd h.2 hd
    refine ⟨.inr ⟨_, _, rfl, rfl, ?_, hs.out, hs.mask, hs.files, rfl⟩, { hs with rng := by dsimp only; rw [hs.rng], generated := by dsimp only; rw [hs.generated] }⟩
    rw [hs.rng]
    exact images_rel hg cfg _ hl

theorem next_rel {RF RR : F → F' → Prop} {RO : O → O' → Prop} {RI : I → I' → Prop} {g : Gen F O I} {g' : Gen F' O' I'} (hg : GenRel RF RR RO RI g g')
    {sch : ISched S (FlowBatch F)} {sch' : ISched S (FlowBatch F')} (hsch : SchedRel RF sch sch') (cfg : Cfg) {s : St S F O} {s' : St S F' O'} (hs : StRel RR RO cfg s s') :
    (next sch g cfg s = none ∧ next sch' g' cfg s' = none) ∨
    ∃ r r' t t', next sch g cfg s = some (r, t) ∧ next sch' g' cfg s' = some (r', t') ∧ OutRel RO RI (batchOut r) (batchOut r') ∧ StRel RR RO cfg t t' := by
  -- a fetch
  have hfetch : (getNext.fetch sch g cfg s = none ∧ getNext.fetch sch' g' cfg s' = none) ∨
      ∃ r r' t t', getNext.fetch sch g cfg s = some (r, t) ∧ getNext.fetch sch' g' cfg s' = some (r', t') ∧
        ((∃ e, r = .error e ∧ r' = .error e) ∨ ∃ b b', r = .ok b ∧ r' = .ok b' ∧ BatchRel RO RI b b') ∧ StRel RR RO cfg t t' := by
    unfold getNext.fetch
    rw [← hs.sched]
    rcases hsch.getBatch cfg.ffpb s.sched with ⟨h1, h2⟩ | ⟨e, sc, h1, h2⟩ | ⟨b, b', sc, h1, h2, h3, h4, h5⟩
    · rw [h1, h2]; exact .inl ⟨rfl, rfl⟩
    · rw [h1, h2]
      exact .inr ⟨_, _, _, _, rfl, rfl, .inl ⟨e, rfl, rfl⟩, { hs with sched := rfl, generated := rfl }⟩
    · rw [h1, h2]
      dsimp only
      rw [← h3.length_eq]
      by_cases hd : b.flows.length % cfg.ndevices ≠ 0
      · rw [if_pos hd, if_pos hd]
        exact .inr ⟨_, _, _, _, rfl, rfl, .inl ⟨_, rfl, rfl⟩,
          { rng := hs.rng, out := hs.out, sched := rfl, generated := rfl, mask := h4, files := h5, cur := .inr ⟨_, _, rfl, rfl, .inr ⟨h3.length_eq, hd⟩⟩ }⟩
      · rw [if_neg hd, if_neg hd]
        obtain ⟨a1, a2⟩ := adaptAll_rel hg cfg h3
        obtain ⟨p1, p2⟩ := produce_rel hg cfg (.inl a2)
          (s := { s with generated := 0, sched := sc, mask := b.mask, files := b.files, outFlows := (adaptAll g cfg b.flows).1, cur := some (adaptAll g cfg b.flows).2 })
          (s' := { s' with generated := 0, sched := sc, mask := b'.mask, files := b'.files, outFlows := (adaptAll g' cfg b'.flows).1, cur := some (adaptAll g' cfg b'.flows).2 })
          { rng := hs.rng, sched := rfl, generated := rfl, mask := h4, files := h5, out := a1, cur := .inr ⟨_, _, rfl, rfl, .inl a2⟩ }
        exact .inr ⟨_, _, _, _, rfl, rfl, p1, p2⟩
  have hget : (getNext sch g cfg s = none ∧ getNext sch' g' cfg s' = none) ∨
      ∃ r r' t t', getNext sch g cfg s = some (r, t) ∧ getNext sch' g' cfg s' = some (r', t') ∧
        ((∃ e, r = .error e ∧ r' = .error e) ∨ ∃ b b', r = .ok b ∧ r' = .ok b' ∧ BatchRel RO RI b b') ∧ StRel RR RO cfg t t' := by
    unfold getNext
    rcases hs.cur with ⟨h1, h2⟩ | ⟨l, l', h1, h2, h3⟩
    · rw [h1, h2]; exact hfetch
    · rw [h1, h2]
      dsimp only
      rw [← hs.generated]
      by_cases hgn : s.generated < cfg.bpfb
      · rw [if_pos hgn, if_pos hgn]
        obtain ⟨p1, p2⟩ := produce_rel hg cfg h3 hs
        exact .inr ⟨_, _, _, _, rfl, rfl, p1, p2⟩
      · rw [if_neg hgn, if_neg hgn]; exact hfetch
  have hep : ∀ x, episodeOver sch' x = episodeOver sch x := fun x => by unfold episodeOver; rw [hsch.episodic]
  unfold next
  rw [hep, ← hs.sched]
  by_cases ho : episodeOver sch s.sched = true
  · rw [if_pos ho, if_pos ho]
    exact .inr ⟨_, _, _, _, rfl, rfl, rfl, hs⟩
  · rw [if_neg ho, if_neg ho]
    rcases hget with ⟨h1, h2⟩ | ⟨r, r', t, t', h1, h2, ⟨e, rfl, rfl⟩ | ⟨b, b', rfl, rfl, hb⟩, h4⟩
    · rw [h1, h2]; exact .inl ⟨rfl, rfl⟩
    · rw [h1, h2]; exact .inr ⟨_, _, _, _, rfl, rfl, rfl, h4⟩
    · rw [h1, h2]
      refine .inr ⟨_, _, _, _, rfl, rfl, ⟨hb.1, hb.2.1, hb.2.2.1, hb.2.2.2.1, ?_⟩, h4⟩
      show makeDone sch cfg.batchSize t.sched = makeDone sch' cfg.batchSize t'.sched
      unfold makeDone
      rw [hsch.episodic, h4.sched]

theorem step_rel {RF RR : F → F' → Prop} {RO : O → O' → Prop} {RI : I → I' → Prop} {g : Gen F O I} {g' : Gen F' O' I'} (hg : GenRel RF RR RO RI g g')
    {sch : ISched S (FlowBatch F)} {sch' : ISched S (FlowBatch F')} (hsch : SchedRel RF sch sch') (cfg : Cfg) (op : Op) {s : St S F O} {s' : St S F' O'} (hs : StRel RR RO cfg s s') :
    (step sch g cfg s op = none ∧ step sch' g' cfg s' op = none) ∨
    ∃ o o' t t', step sch g cfg s op = some (o, t) ∧ step sch' g' cfg s' op = some (o', t') ∧ OutRel RO RI o o' ∧ StRel RR RO cfg t t' := by
  cases op with
  | next =>
    unfold step
    dsimp only
    rcases next_rel hg hsch cfg hs with ⟨h1, h2⟩ | ⟨r, r', t, t', h1, h2, h3, h4⟩
    · rw [h1, h2]; exact .inl ⟨rfl, rfl⟩
    · rw [h1, h2]; exact .inr ⟨_, _, _, _, rfl, rfl, h3, h4⟩
  | reset b =>
    have h0 : StRel RR RO cfg (resetSelf cfg s) (resetSelf cfg s') := { hs with rng := rfl, cur := .inl ⟨rfl, rfl⟩, generated := rfl }
    unfold step reset
    dsimp only
    rw [hsch.reset, h0.sched]
    cases b with
    | false => exact .inr ⟨_, _, _, _, rfl, rfl, trivial, h0⟩
    | true =>
      simp only [if_true]
      cases sch'.reset (resetSelf cfg s').sched with
      | error e => exact .inr ⟨_, _, _, _, rfl, rfl, rfl, h0⟩
      | ok sc => exact .inr ⟨_, _, _, _, rfl, rfl, trivial, { h0 with sched := rfl }⟩
  | nextEpisode =>
    unfold step nextEpisode
    dsimp only
    rw [hsch.episodic, hs.sched]
    cases sch'.episodic with
    | none => exact .inr ⟨_, _, _, _, rfl, rfl, rfl, hs⟩
    | some e =>
      dsimp only
      cases e.2 s'.sched with
      | error x => exact .inr ⟨_, _, _, _, rfl, rfl, rfl, hs⟩
      | ok sc => exact .inr ⟨_, _, _, _, rfl, rfl, trivial, { hs with sched := rfl }⟩

/-- Every history of calls shows corresponding outcomes. -/
theorem run_rel {RF RR : F → F' → Prop} {RO : O → O' → Prop} {RI : I → I' → Prop} {g : Gen F O I} {g' : Gen F' O' I'} (hg : GenRel RF RR RO RI g g')
    {sch : ISched S (FlowBatch F)} {sch' : ISched S (FlowBatch F')} (hsch : SchedRel RF sch sch') (cfg : Cfg) :
    ∀ (ops : List Op) {s : St S F O} {s' : St S F' O'}, StRel RR RO cfg s s' →
    (run sch g cfg ops s = none ∧ run sch' g' cfg ops s' = none) ∨
    ∃ os os' t t', run sch g cfg ops s = some (os, t) ∧ run sch' g' cfg ops s' = some (os', t') ∧ List.Forall₂ (OutRel RO RI) os os' := by
  intro ops
  induction ops with
  | nil => intro s s' _; exact .inr ⟨_, _, _, _, rfl, rfl, .nil⟩
  | cons op ops ih =>
    intro s s' hs
    simp only [run]
    rcases step_rel hg hsch cfg op hs with ⟨h1, h2⟩ | ⟨o, o', t, t', h1, h2, h3, h4⟩
    · rw [h1, h2]; exact .inl ⟨rfl, rfl⟩
    · rw [h1, h2]
      dsimp only
      rcases ih h4 with ⟨g1, g2⟩ | ⟨os, os', u, u', g1, g2, g3⟩
      · rw [g1, g2]; exact .inl ⟨rfl, rfl⟩
      · rw [g1, g2]; exact .inr ⟨_, _, _, _, rfl, rfl, .cons h3 g3⟩

theorem init_rel (RR : F → F' → Prop) (RO : O → O' → Prop) (cfg : Cfg) (s : S) : StRel RR RO cfg (init cfg s : St S F O) (init cfg s : St S F' O') :=
  { sched := rfl, rng := rfl, cur := .inl ⟨rfl, rfl⟩, out := .nil, mask := rfl, files := rfl, generated := rfl }

end
end Verif.Sampler
