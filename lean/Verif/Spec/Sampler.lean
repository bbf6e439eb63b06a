import Verif.Model.Sampler
/-!
# Specification vocabulary for the samplers
-/

namespace Verif.Sampler
open Verif
variable {S B F O I A : Type}

/-- The number of the flow field that image `i` of a batch is rendered with, when `n` flow fields and a batch of `b` images
are spread over `d` devices: each device makes `b / d` images from its own `n / d` flow fields, in turn. -/
def flowOf (b d n i : Nat) : Nat := (i / (b / d)) * (n / d) + (i % (b / d)) % (n / d)

/-- `Draws sch n s bs s'`: used directly, the scheduler answers consecutive requests for `n` flow fields with the batches
`bs` and is then in state `s'`. -/
inductive Draws (sch : ISched S B) (n : Nat) : S → List B → S → Prop
  | nil (s) : Draws sch n s [] s
  | cons {s b s1 bs s'} (h : sch.getBatch n s = some (.ok b, s1)) (t : Draws sch n s1 bs s') : Draws sch n s (b :: bs) s'

/-- Two states of a scheduler that no user can tell apart: there is a relation between states that is kept by
every call and under which every call shows the same. -/
def SameBehaviour (sch : ISched S B) (s t : S) : Prop :=
  ∃ R : S → S → Prop, R s t ∧ ∀ s t, R s t →
    (∀ n, (sch.getBatch n s).map (·.1) = (sch.getBatch n t).map (·.1)) ∧
    (∀ n r r' s' t', sch.getBatch n s = some (r, s') → sch.getBatch n t = some (r', t') → R s' t') ∧
    (∀ e, sch.episodic = some e → e.1 s = e.1 t ∧
      ((∃ x, e.2 s = .error x ∧ e.2 t = .error x) ∨ ∃ s' t', e.2 s = .ok s' ∧ e.2 t = .ok t' ∧ R s' t')) ∧
    ((∃ x, sch.reset s = .error x ∧ sch.reset t = .error x) ∨ ∃ s' t', sch.reset s = .ok s' ∧ sch.reset t = .ok t' ∧ R s' t')

/-- What the done flags of a history must be for episodes of `L` steps and batches of `b`; `k` is the number of batches
returned since the episode began. A batch may only be returned while `k < L` and is flagged iff it is the `L`-th;
`EpisodeEnd` is raised only after the `L`-th. -/
def DoneOK (L b : Nat) : Nat → List (Op × Out (OutBatch O I)) → Prop
  | _, [] => True
  | k, (.next, .batch x) :: h => k < L ∧ x.done = some (List.replicate b (decide (k + 1 = L))) ∧ DoneOK L b (k + 1) h
  | k, (.next, .raised e) :: h => (e = .episodeEnd ↔ k = L) ∧ DoneOK L b k h
  | _, (.nextEpisode, .done) :: h => DoneOK L b 0 h
  | _, (.reset true, .done) :: h => DoneOK L b 0 h
  | k, (_, _) :: h => DoneOK L b k h

/-- The image batch `x` is made from the flow batch `b`, with `k` as the key of the whole batch: it has `batchSize` images
and `batchSize` flow fields; image `i` is rendered, and flow field `i` reported, from one and the same flow field of `b`,
number `flowOf ... i`; mask and files are those of `b`. The key of image `i` is that of its device. -/
def MadeFrom (g : Gen F O I) (cfg : Cfg) (k : KeyTerm) (b : FlowBatch F) (x : OutBatch O I) : Prop :=
  x.images.length = cfg.batchSize ∧ x.flows.length = cfg.batchSize ∧ x.mask = b.mask ∧ x.files = b.files ∧
  ∀ i, i < cfg.batchSize → ∃ f, b.flows[flowOf cfg.batchSize cfg.ndevices b.flows.length i]? = some f ∧
    x.flows[i]? = some (g.adapt f).1 ∧
    x.images[i]? = some (g.render (.sub k cfg.ndevices (i / (cfg.batchSize / cfg.ndevices)))
      (cfg.batchSize / cfg.ndevices) (i % (cfg.batchSize / cfg.ndevices)) (g.adapt f).2)

/-- The key of the `n`-th image batch: the sampler splits its key before each batch, keeps the first half and uses the
second. -/
def batchKey (seed n : Nat) : KeyTerm := .sub (Nat.repeat (fun k => .sub k 2 0) n (.seed seed)) 2 1

/-- The scheduler delivers as many flow fields as asked for. -/
def FullBatches (sch : ISched S (FlowBatch F)) : Prop :=
  ∀ n s b s', sch.getBatch n s = some (.ok b, s') → b.flows.length = n

/-- The keys a list of uses consumes. -/
def keysOf (us : List (Use × KeyTerm)) : List KeyTerm := us.map (·.2)

/-- `k` comes from `a` through splits and folds. -/
inductive Derived (a : KeyTerm) : KeyTerm → Prop
  | self : Derived a a
  | split {k : KeyTerm} (n i : Nat) (h : Derived a k) : Derived a (.sub k n i)
  | fold {k : KeyTerm} (i : Nat) (h : Derived a k) : Derived a (.fold k i)

/-- Whether the innermost scheduler of a nesting includes images. -/
def Innermost : Nest → Bool → Prop
  | .base inc, b => inc.getD false = b
  | .episodic n, b => Innermost n b
  | .prefetching n, b => Innermost n b

end Verif.Sampler
