import Verif.Spec.Looks
import Verif.Proofs.Synthetic
/-!
# Lemmas about samplers that differ in their images
-/

namespace Verif.Looks
open Verif
variable {S F O I I' : Type}

theorem images_images {θ : I → I'} {g : Sampler.Gen F O I} {g' : Sampler.Gen F O I'} (h : ∀ k b i f, g'.render k b i f = θ (g.render k b i f))
    (cfg : Sampler.Cfg) (k : KeyTerm) (l : List F) : Sampler.images g' cfg k l = (Sampler.images g cfg k l).map θ := by
  unfold Sampler.images Sampler.deviceImages
  rw [List.map_flatMap]
  congr 1
  funext q
  rw [List.map_filterMap]
  refine List.filterMap_congr (fun i _ => ?_)
  rw [Option.map_map]
  congr 1
  funext f
  exact h _ _ _ _

/-- Two states that agree but for the random key. -/
structure Same (s s' : Sampler.St S F O) : Prop where
  sched : s'.sched = s.sched
  cur : s'.cur = s.cur
  outFlows : s'.outFlows = s.outFlows
  mask : s'.mask = s.mask
  files : s'.files = s.files
  generated : s'.generated = s.generated

/-- Relation between what two calls give. -/
def SameOut (θ : I → I') (R : Sampler.St S F O → Sampler.St S F O → Prop) :
    Option (Except Exc (Sampler.OutBatch O I) × Sampler.St S F O) → Option (Except Exc (Sampler.OutBatch O I') × Sampler.St S F O) → Prop
  | none, none => True
  | some (.ok b, s), some (.ok b', s') => b' = ⟨b.images.map θ, b.flows, b.mask, b.files, b.done⟩ ∧ R s s'
  | some (.error e, s), some (.error e', s') => e' = e ∧ R s s'
  | _, _ => False

/-- The relation is preserved by everything the sampler does, if images are related by `θ`; `L` is what is known of the number of flow fields. -/
structure Sim (cfg cfg' : Sampler.Cfg) (θ : I → I') (g : Sampler.Gen F O I) (g' : Sampler.Gen F O I') (R : KeyTerm → KeyTerm → Prop) (L : Nat → Prop) : Prop where
  batchSize : cfg'.batchSize = cfg.batchSize
  ndevices : ∀ n, L n → (n % cfg'.ndevices ≠ 0 ↔ n % cfg.ndevices ≠ 0)
  bpfb : cfg'.bpfb = cfg.bpfb
  ffpb : cfg'.ffpb = cfg.ffpb
  seed : R (.seed cfg.seed) (.seed cfg'.seed)
  adapt : ∀ l, L l.length → Sampler.adaptAll g' cfg' l = Sampler.adaptAll g cfg l
  split : ∀ k k', R k k' → R k.split2.1 k'.split2.1
  images : ∀ k k' l, R k k' → L l.length → Sampler.images g' cfg' k'.split2.2 l = (Sampler.images g cfg k.split2.2 l).map θ

/-- Agreement but for the key, which is related by `R`. -/
def Rel (R : KeyTerm → KeyTerm → Prop) (L : Nat → Prop) (s s' : Sampler.St S F O) : Prop := Same s s' ∧ R s.rng s'.rng ∧ ∀ l, s.cur = some l → L l.length

/-- The scheduler's answers have such a number of flow fields. -/
def Lengths (sch : Sampler.ISched S (Sampler.FlowBatch F)) (cfg : Sampler.Cfg) (L : Nat → Prop) : Prop :=
  ∀ s b s', sch.getBatch cfg.ffpb s = some (.ok b, s') → L b.flows.length

variable {cfg cfg' : Sampler.Cfg} {θ : I → I'} {g : Sampler.Gen F O I} {g' : Sampler.Gen F O I'} {R : KeyTerm → KeyTerm → Prop} {L : Nat → Prop}

theorem produce_sim (h : Sim cfg cfg' θ g g' R L) (l : List F) (hl : L l.length) {s s' : Sampler.St S F O} (hs : Rel R L s s') :
    SameOut θ (Rel R L) (some (Sampler.produce g cfg l s)) (some (Sampler.produce g' cfg' l s')) := by
  obtain ⟨⟨h1, h2, h3, h4, h5, h6⟩, hk, hc⟩ := hs
  unfold Sampler.produce
  dsimp only
  simp only [h.ndevices _ hl]
  split
  · exact ⟨rfl, ⟨h1, h2, h3, h4, h5, h6⟩, h.split _ _ hk, hc⟩
  · exact ⟨by rw [h.images _ _ l hk hl, h3, h4, h5], ⟨h1, h2, h3, h4, h5, by rw [h6]⟩, h.split _ _ hk, hc⟩

theorem getNext_sim (h : Sim cfg cfg' θ g g' R L) {sch : Sampler.ISched S (Sampler.FlowBatch F)} (hsch : Lengths sch cfg L) {s s' : Sampler.St S F O} (hs : Rel R L s s') :
    SameOut θ (Rel R L) (Sampler.getNext sch g cfg s) (Sampler.getNext sch g' cfg' s') := by
  have hf : SameOut θ (Rel R L) (Sampler.getNext.fetch sch g cfg s) (Sampler.getNext.fetch sch g' cfg' s') := by
    obtain ⟨⟨h1, h2, h3, h4, h5, h6⟩, hk, hc⟩ := hs
    unfold Sampler.getNext.fetch
    rw [h1, h.ffpb]
    rcases hb : sch.getBatch cfg.ffpb s.sched with _ | ⟨e | b, sc⟩
    · trivial
    · exact ⟨rfl, ⟨rfl, h2, h3, h4, h5, rfl⟩, hk, hc⟩
    · have hl := hsch _ _ _ hb
      dsimp only
      simp only [h.ndevices _ hl]
      split
      · exact ⟨rfl, ⟨rfl, rfl, h3, rfl, rfl, rfl⟩, hk, fun l e => by cases e; exact hl⟩
      · rw [h.adapt _ hl]
        have hl' : L (Sampler.adaptAll g cfg b.flows).2.length := by
          unfold Sampler.adaptAll
          simpa using hl
        exact produce_sim h _ hl' ⟨⟨rfl, rfl, rfl, rfl, rfl, rfl⟩, hk, fun l e => by cases e; exact hl'⟩
  unfold Sampler.getNext
  rw [hs.1.cur, hs.1.generated, h.bpfb]
  cases hc : s.cur with
  | none => exact hf
  | some l =>
    dsimp only
    split
    · exact produce_sim h l (hs.2.2 l hc) hs
    · exact hf

theorem next_sim (h : Sim cfg cfg' θ g g' R L) {sch : Sampler.ISched S (Sampler.FlowBatch F)} (hsch : Lengths sch cfg L) {s s' : Sampler.St S F O} (hs : Rel R L s s') :
    SameOut θ (Rel R L) (Sampler.next sch g cfg s) (Sampler.next sch g' cfg' s') := by
  unfold Sampler.next
  rw [hs.1.sched]
  split
  · exact ⟨rfl, hs⟩
  · have hg := getNext_sim h hsch hs
    revert hg
    rcases Sampler.getNext sch g cfg s with _ | ⟨e | b, t1⟩ <;> rcases Sampler.getNext sch g' cfg' s' with _ | ⟨e' | b', t1'⟩ <;> intro hg
    all_goals first | exact hg.elim | skip
    · trivial
    · exact hg
    · refine ⟨?_, hg.2⟩
      rw [hg.1, hg.2.1.sched, h.batchSize]

theorem step_sim (h : Sim cfg cfg' θ g g' R L) {sch : Sampler.ISched S (Sampler.FlowBatch F)} (hsch : Lengths sch cfg L) {s s' : Sampler.St S F O} (hs : Rel R L s s') (op : Sampler.Op) :
    match Sampler.step sch g cfg s op, Sampler.step sch g' cfg' s' op with
    | none, none => True
    | some (o, t), some (o', t') => o' = images θ o ∧ Rel R L t t'
    | _, _ => False := by
  cases op with
  | next =>
    have hg := next_sim h hsch hs
    unfold Sampler.step
    dsimp only
    revert hg
    rcases Sampler.next sch g cfg s with _ | ⟨e | b, t1⟩ <;> rcases Sampler.next sch g' cfg' s' with _ | ⟨e' | b', t1'⟩ <;> intro hg
    all_goals first | exact hg.elim | skip
    · trivial
    · exact ⟨by rw [hg.1]; rfl, hg.2⟩
    · exact ⟨by rw [hg.1]; rfl, hg.2⟩
  | reset b =>
    obtain ⟨⟨h1, h2, h3, h4, h5, h6⟩, hk, hc⟩ := hs
    unfold Sampler.step Sampler.reset Sampler.resetSelf
    dsimp only
    rw [h1]
    cases b with
    | false => exact ⟨rfl, ⟨rfl, rfl, h3, h4, h5, rfl⟩, h.seed, fun _ e => by cases e⟩
    | true =>
      simp only [if_true]
      cases sch.reset s.sched with
      | ok sc => exact ⟨rfl, ⟨rfl, rfl, h3, h4, h5, rfl⟩, h.seed, fun _ e => by cases e⟩
      | error e => exact ⟨rfl, ⟨rfl, rfl, h3, h4, h5, rfl⟩, h.seed, fun _ e => by cases e⟩
  | nextEpisode =>
    obtain ⟨⟨h1, h2, h3, h4, h5, h6⟩, hk, hc⟩ := hs
    unfold Sampler.step Sampler.nextEpisode
    dsimp only
    rw [h1]
    cases sch.episodic with
    | none => exact ⟨rfl, ⟨h1, h2, h3, h4, h5, h6⟩, hk, hc⟩
    | some e =>
      dsimp only
      cases e.2 s.sched with
      | ok sc => exact ⟨rfl, ⟨rfl, h2, h3, h4, h5, h6⟩, hk, hc⟩
      | error x => exact ⟨rfl, ⟨h1, h2, h3, h4, h5, h6⟩, hk, hc⟩

/-- Every history shows the same up to the images. -/
theorem run_sim (h : Sim cfg cfg' θ g g' R L) {sch : Sampler.ISched S (Sampler.FlowBatch F)} (hsch : Lengths sch cfg L) (ops : List Sampler.Op) {s s' : Sampler.St S F O} (hs : Rel R L s s') :
    (Sampler.run sch g' cfg' ops s').map Prod.fst = (Sampler.run sch g cfg ops s).map (fun q => q.1.map (images θ)) := by
  induction ops generalizing s s' with
  | nil => rfl
  | cons op ops ih =>
    have hst := step_sim h hsch hs op
    rw [Sampler.run, Sampler.run]
    revert hst
    rcases Sampler.step sch g cfg s op with _ | ⟨o, t⟩ <;> rcases Sampler.step sch g' cfg' s' op with _ | ⟨o', t'⟩ <;> intro hst
    · rfl
    · exact hst.elim
    · exact hst.elim
    · dsimp only
      have := ih hst.2
      revert this
      rcases Sampler.run sch g cfg ops t with _ | ⟨os, t2⟩ <;> rcases Sampler.run sch g' cfg' ops t' with _ | ⟨os', t2'⟩ <;> intro this
      · rfl
      · simp at this
      · simp at this
      · simp only [Option.map_some, Option.some.injEq] at this
        simp only [Option.map_some, this, hst.1, List.map_cons]

theorem init_rel (h : Sim cfg cfg' θ g g' R L) (s : S) : Rel R L (Sampler.init cfg s : Sampler.St S F O) (Sampler.init cfg' s) :=
  ⟨⟨rfl, rfl, rfl, rfl, rfl, rfl⟩, h.seed, fun _ e => by cases e⟩

end Verif.Looks
