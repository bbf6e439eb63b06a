import Verif.Spec.Superposition
import Verif.Proofs.Parametric
import Verif.Props.Synthetic
import Verif.Props.Interp
/-!
# Adding flow fields, and what does not depend on them (C148, C149)
-/

namespace Verif.Superposition
open Verif

/-! ## Lemmas -/

theorem sched_rel {S X F F' : Type} (φ : X → F) (φ' : X → F') (sch : Sampler.ISched S (Sampler.FlowBatch X)) :
    Sampler.SchedRel (fun f f' => ∃ x, f = φ x ∧ f' = φ' x) (Units.sched (Units.flowBatch φ) sch) (Units.sched (Units.flowBatch φ') sch) where
  getBatch n s := by
    show ((sch.getBatch n s).map _ = none ∧ (sch.getBatch n s).map _ = none) ∨ (∃ e s', (sch.getBatch n s).map _ = _ ∧ (sch.getBatch n s).map _ = _) ∨
      ∃ b b' s', (sch.getBatch n s).map _ = _ ∧ (sch.getBatch n s).map _ = _ ∧ _
    rcases sch.getBatch n s with _ | ⟨e | b, s'⟩
    · exact .inl ⟨rfl, rfl⟩
    · exact .inr (.inl ⟨e, s', rfl, rfl⟩)
    · refine .inr (.inr ⟨_, _, s', rfl, rfl, ?_, rfl, rfl⟩)
      show List.Forall₂ _ (b.flows.map φ) (b.flows.map φ')
      rw [List.forall₂_map_left_iff, List.forall₂_map_right_iff]
      exact List.forall₂_same.2 (fun x _ => ⟨x, rfl, rfl⟩)
  reset := rfl
  episodic := rfl

theorem sched_rel_left {S X F' : Type} (φ' : X → F') (sch : Sampler.ISched S (Sampler.FlowBatch X)) :
    Sampler.SchedRel (fun x f' => f' = φ' x) sch (Units.sched (Units.flowBatch φ') sch) where
  getBatch n s := by
    show (sch.getBatch n s = none ∧ (sch.getBatch n s).map _ = none) ∨ (∃ e s', sch.getBatch n s = _ ∧ (sch.getBatch n s).map _ = _) ∨
      ∃ b b' s', sch.getBatch n s = _ ∧ (sch.getBatch n s).map _ = _ ∧ _
    rcases sch.getBatch n s with _ | ⟨e | b, s'⟩
    · exact .inl ⟨rfl, rfl⟩
    · exact .inr (.inl ⟨e, s', rfl, rfl⟩)
    · refine .inr (.inr ⟨_, _, s', rfl, rfl, ?_, rfl, rfl⟩)
      show List.Forall₂ _ b.flows (b.flows.map φ')
      rw [List.forall₂_map_right_iff]
      exact List.forall₂_same.2 (fun x _ => rfl)
  reset := rfl
  episodic := rfl

/-- The reported flow of a combination. -/
theorem adapt_combined (fl : ℚ → ℚ) (A : Adapter.Args ℚ) (α β : ℚ) (t : Two) :
    (Adapter.processSingle fl A (t.combined α β)).1 =
      Two.combined α β ⟨A.newShape.1, A.newShape.2, (Adapter.processSingle fl A t.fst).1.at_, (Adapter.processSingle fl A t.snd).1.at_⟩ := by
  have hl : ∀ (u v : Nat → Nat → ℚ) (H W : Nat) (x y : ℚ),
      Interp.bilinear (fun j i => α * u j i + β * v j i) H W x y = α * Interp.bilinear u H W x y + β * Interp.bilinear v H W x y :=
    fun u v H W x y => Interp.C51_linear u v α β H W x y
  unfold Adapter.processSingle Adapter.units
  dsimp only
  split
  · unfold Two.combined Adapter.resized Adapter.sample Adapter.padEdge
    dsimp only
    congr 1
    funext j i
    rw [hl, hl]
    refine Prod.ext ?_ ?_ <;> dsimp only [Two.fst, Two.snd] <;> ring
  · unfold Two.combined Adapter.resized Adapter.sample Adapter.padEdge
    dsimp only
    congr 1
    funext j i
    rw [hl, hl]
    rfl

/-- A sampler of two flow fields at once. -/
def twoGen (fl : ℚ → ℚ) (A : Adapter.Args ℚ) : Sampler.Gen Two Two Unit where
  adapt t := (⟨A.newShape.1, A.newShape.2, (Adapter.processSingle fl A t.fst).1.at_, (Adapter.processSingle fl A t.snd).1.at_⟩, t)
  render _ _ _ _ := ()

theorem processSingle_shape (fl : ℚ → ℚ) (A : Adapter.Args ℚ) (f : Adapter.Field2 ℚ) :
    (Adapter.processSingle fl A f).1.H = A.newShape.1 ∧ (Adapter.processSingle fl A f).1.W = A.newShape.2 := by
  unfold Adapter.processSingle Adapter.units
  dsimp only
  split <;> exact ⟨rfl, rfl⟩

theorem gen_rel (fl fl32 : ℚ → ℚ) (R : Generate.Rand ℚ) (a : Synthetic.Args) (m : Synthetic.Made) (φ : Two → Adapter.Field2 ℚ)
    (hφ : ∀ (A : Adapter.Args ℚ) t, (Adapter.processSingle fl A (φ t)).1 = φ ((twoGen fl A).adapt t).1) :
    Sampler.GenRel (fun t f => f = φ t) (fun _ _ => True) (fun t f => f = φ t) (fun _ _ => True)
      (twoGen fl (Adapter.ofGeo a.geometry m.geo m.outShape (m.cfg.batchSize / m.cfg.ndevices) m.pixels)) (Synthetic.gen fl fl32 R a m) where
  adapt t f h := by
    subst h
    exact ⟨hφ _ t, trivial⟩
  render _ _ _ _ _ _ := trivial

theorem forall₂_get {α β : Type} {R : α → β → Prop} {l : List α} {l' : List β} (h : List.Forall₂ R l l') {n : Nat} {b : β} (hb : l'[n]? = some b) :
    ∃ a, l[n]? = some a ∧ R a b := by
  rcases Sampler.forall₂_getElem? h n with ⟨_, h2⟩ | ⟨x, y, h1, h2, h3⟩
  · rw [h2] at hb; cases hb
  · rw [h2] at hb; cases hb; exact ⟨x, h1, h3⟩

/-! ## C148 -/

/-- **C148.** For every synthetic sampler that can be built, every scheduler of pairs of flow fields, all factors and all histories of calls: fed with
the combinations of the two flow fields, the sampler reports the combinations of the flow fields it reports when fed with either of them, and it fails,
ends and marks its batches in the same way. -/
theorem C148_superposition (fl fl32 : ℚ → ℚ) (R : Generate.Rand ℚ) (a : Synthetic.Args) (m : Synthetic.Made) (_ : Synthetic.make fl fl32 a = .ok m)
    (α β : ℚ) (S : Type) (sch : Sampler.ISched S (Sampler.FlowBatch Two)) (s : S) (ops : List Sampler.Op) :
    let run := fun φ => (Sampler.run (Units.sched (Units.flowBatch φ) sch) (Synthetic.gen fl fl32 R a m) m.cfg ops (Sampler.init m.cfg s)).map Prod.fst
    (run Two.fst = none ∧ run Two.snd = none ∧ run (Two.combined α β) = none) ∨
    ∃ os os' cs, run Two.fst = some os ∧ run Two.snd = some os' ∧ run (Two.combined α β) = some cs ∧
      os.length = cs.length ∧ os'.length = cs.length ∧
      ∀ (n : Nat) o o' c, os[n]? = some o → os'[n]? = some o' → cs[n]? = some c → Combined α β o o' c := by
  intro run
  have key : ∀ φ : Two → Adapter.Field2 ℚ, (∀ (A : Adapter.Args ℚ) t, (Adapter.processSingle fl A (φ t)).1 = φ ((twoGen fl A).adapt t).1) → _ :=
    fun φ hφ => Sampler.run_rel (gen_rel fl fl32 R a m φ hφ) (sched_rel_left φ sch) m.cfg ops (Sampler.init_rel _ _ m.cfg s)
  have hfst : ∀ (A : Adapter.Args ℚ) t, (Adapter.processSingle fl A (Two.fst t)).1 = Two.fst ((twoGen fl A).adapt t).1 := by
    intro A t
    obtain ⟨h1, h2⟩ := processSingle_shape fl A t.fst
    unfold Two.fst twoGen
    dsimp only
    rw [← h1, ← h2]
    rfl
  have hsnd : ∀ (A : Adapter.Args ℚ) t, (Adapter.processSingle fl A (Two.snd t)).1 = Two.snd ((twoGen fl A).adapt t).1 := by
    intro A t
    obtain ⟨h1, h2⟩ := processSingle_shape fl A t.snd
    unfold Two.snd twoGen
    dsimp only
    rw [← h1, ← h2]
    rfl
  have k1 := key Two.fst hfst
  have k2 := key Two.snd hsnd
  have k3 := key (Two.combined α β) (fun A t => adapt_combined fl A α β t)
  rcases k1 with ⟨a1, b1⟩ | ⟨ts, os, t1, t2, a1, b1, c1⟩
  · left
    rcases k2 with ⟨_, b2⟩ | ⟨_, _, _, _, a2, _, _⟩
    · rcases k3 with ⟨_, b3⟩ | ⟨_, _, _, _, a3, _, _⟩
      · refine ⟨?_, ?_, ?_⟩
        · show Option.map _ _ = none; rw [b1]; rfl
        · show Option.map _ _ = none; rw [b2]; rfl
        · show Option.map _ _ = none; rw [b3]; rfl
      · rw [a1] at a3; cases a3
    · rw [a1] at a2; cases a2
  · right
    rcases k2 with ⟨a2, _⟩ | ⟨ts2, os', _, t2', a2, b2, c2⟩
    · rw [a1] at a2; cases a2
    rcases k3 with ⟨a3, _⟩ | ⟨ts3, cs, _, t3', a3, b3, c3⟩
    · rw [a1] at a3; cases a3
    rw [a1] at a2 a3
    cases a2
    cases a3
    refine ⟨os, os', cs, ?_, ?_, ?_, ?_, ?_, ?_⟩
    · show Option.map _ _ = _; rw [b1]; rfl
    · show Option.map _ _ = _; rw [b2]; rfl
    · show Option.map _ _ = _; rw [b3]; rfl
    · rw [← c1.length_eq, c3.length_eq]
    · rw [← c2.length_eq, c3.length_eq]
    · intro n o o' c ho ho' hc
      obtain ⟨x, hx, r1⟩ := forall₂_get c1 ho
      obtain ⟨x2, hx2, r2⟩ := forall₂_get c2 ho'
      obtain ⟨x3, hx3, r3⟩ := forall₂_get c3 hc
      rw [hx] at hx2 hx3
      cases hx2
      cases hx3
      cases x with
      | raised e =>
        cases o with
        | raised e1 =>
          cases o' with
          | raised e2 =>
            cases c with
            | raised e3 =>
              have q1 : e = e1 := r1
              have q2 : e = e2 := r2
              have q3 : e = e3 := r3
              exact ⟨q1.symm.trans q3, q2.symm.trans q3⟩
            | _ => exact r3.elim
          | _ => exact r2.elim
        | _ => exact r1.elim
      | done =>
        cases o with
        | done =>
          cases o' with
          | done =>
            cases c with
            | done => trivial
            | _ => exact r3.elim
          | _ => exact r2.elim
        | _ => exact r1.elim
      | batch x =>
        cases o with
        | batch b =>
          cases o' with
          | batch b' =>
            cases c with
            | batch d =>
              obtain ⟨i1, f1, m1, l1, d1⟩ := r1
              obtain ⟨i2, f2, m2, l2, d2⟩ := r2
              obtain ⟨i3, f3, m3, l3, d3⟩ := r3
              refine ⟨⟨m1.symm.trans m3, l1.symm.trans l3, d1.symm.trans d3, i1.length_eq.symm.trans i3.length_eq⟩,
                ⟨m2.symm.trans m3, l2.symm.trans l3, d2.symm.trans d3, i2.length_eq.symm.trans i3.length_eq⟩,
                f1.length_eq.symm.trans f3.length_eq, f2.length_eq.symm.trans f3.length_eq, ?_⟩
              intro n f f' g hf hf' hg
              obtain ⟨t, ht, e1⟩ := forall₂_get f1 hf
              obtain ⟨t2, ht2, e2⟩ := forall₂_get f2 hf'
              obtain ⟨t3, ht3, e3⟩ := forall₂_get f3 hg
              rw [ht] at ht2 ht3
              cases ht2
              cases ht3
              subst e1 e2 e3
              exact ⟨rfl, rfl, rfl, rfl, fun _ _ => rfl⟩
            | _ => exact r3.elim
          | _ => exact r2.elim
        | _ => exact r1.elim

/-! ## C149 -/

/-- **C149.** For every synthetic sampler that can be built, with any rounding, every scheduler, any two ways of turning what it delivers into flow fields and
all histories of calls: the first images, the drawn parameters, the shapes of the reported flow fields, the masks, file names, flags and failures are the
same. Only the second images and the reported velocities depend on the flow. -/
theorem C149_first_images (fl fl32 : ℚ → ℚ) (R : Generate.Rand ℚ) (a : Synthetic.Args) (m : Synthetic.Made) (_ : Synthetic.make fl fl32 a = .ok m)
    (S X : Type) (sch : Sampler.ISched S (Sampler.FlowBatch X)) (φ φ' : X → Adapter.Field2 ℚ) (s : S) (ops : List Sampler.Op) :
    (Sampler.run (Units.sched (Units.flowBatch φ) sch) (Synthetic.gen fl fl32 R a m) m.cfg ops (Sampler.init m.cfg s)).map (fun q => q.1.map unmoved) =
      (Sampler.run (Units.sched (Units.flowBatch φ') sch) (Synthetic.gen fl fl32 R a m) m.cfg ops (Sampler.init m.cfg s)).map (fun q => q.1.map unmoved) := by
  have hg : Sampler.GenRel (fun f f' => ∃ x, f = φ x ∧ f' = φ' x) (fun _ _ => True) (fun f f' => (f.H, f.W) = (f'.H, f'.W))
      (fun p p' => (p.first, (p.second.H, p.second.W), p.density, p.diameterRange, p.intensityRange, p.rhoRange) =
        (p'.first, (p'.second.H, p'.second.W), p'.density, p'.diameterRange, p'.intensityRange, p'.rhoRange))
      (Synthetic.gen fl fl32 R a m) (Synthetic.gen fl fl32 R a m) := by
    refine ⟨fun f f' _ => ⟨?_, trivial⟩, fun k b i f f' _ => ?_⟩
    · obtain ⟨h1, h2⟩ := processSingle_shape fl (Adapter.ofGeo a.geometry m.geo m.outShape (m.cfg.batchSize / m.cfg.ndevices) m.pixels) f
      obtain ⟨h3, h4⟩ := processSingle_shape fl (Adapter.ofGeo a.geometry m.geo m.outShape (m.cfg.batchSize / m.cfg.ndevices) m.pixels) f'
      exact Prod.ext (h1.trans h3.symm) (h2.trans h4.symm)
    · have hs : ∀ g : Adapter.Field2 ℚ, (Synthetic.render fl fl32 R a m k b i g).second.H = (Synthetic.render fl fl32 R a m k b i g).first.H ∧
          (Synthetic.render fl fl32 R a m k b i g).second.W = (Synthetic.render fl fl32 R a m k b i g).first.W := by
        intro g
        unfold Synthetic.render Generate.pair Generate.finish Generate.matched Generate.masked Generate.noisy Generate.crop
        dsimp only
        cases histogram : Synthetic.histogramOf a <;> cases a.mask <;> exact ⟨by simp only [Option.map], by simp only [Option.map]⟩
      have hf : (Synthetic.render fl fl32 R a m k b i f).first = (Synthetic.render fl fl32 R a m k b i f').first := rfl
      show (_, (_, _), _) = (_, (_, _), _)
      refine Prod.ext hf (Prod.ext (Prod.ext ?_ ?_) rfl)
      · exact (hs f).1.trans ((congrArg Generate.Img.H hf).trans (hs f').1.symm)
      · exact (hs f).2.trans ((congrArg Generate.Img.W hf).trans (hs f').2.symm)
  rcases Sampler.run_rel hg (sched_rel φ φ' sch) m.cfg ops (Sampler.init_rel _ _ m.cfg s) with ⟨h1, h2⟩ | ⟨os, os', t, t', h1, h2, h3⟩
  · rw [h1, h2]
  · rw [h1, h2]
    refine congrArg some ?_
    show os.map unmoved = os'.map unmoved
    rw [← List.forall₂_eq_eq_eq, List.forall₂_map_left_iff, List.forall₂_map_right_iff]
    refine h3.imp (fun o o' h => ?_)
    cases o <;> cases o' <;> first | exact h.elim | skip
    · obtain ⟨q1, q2, q3, q4, q5⟩ := h
      refine congrArg Sampler.Out.batch ?_
      have e1 := List.forall₂_eq_eq_eq (α := Generate.Img ℚ × (Nat × Nat) × ℚ × (ℚ × ℚ) × (ℚ × ℚ) × (ℚ × ℚ)) ▸ List.forall₂_map_left_iff.2 (List.forall₂_map_right_iff.2 q1)
      have e2 := List.forall₂_eq_eq_eq (α := Nat × Nat) ▸ List.forall₂_map_left_iff.2 (List.forall₂_map_right_iff.2 q2)
      rw [e1, e2, q3, q4, q5]
    · exact congrArg Sampler.Out.raised h
    · rfl

/-! ## An example -/

/-- A scheduler of two flow fields: one grows downwards, the other to the right. -/
def demoSched : Sampler.ISched Unit (Sampler.FlowBatch Two) where
  getBatch n s := some (.ok ⟨List.replicate n ⟨20, 20, fun j _ => (j / 8, 0), fun _ i => (1, i / 8)⟩, none, none⟩, s)
  reset s := .ok s
  episodic := none

/-- At one pixel: the reported flow, the first image, and whether the second image is the same. -/
def looks : Sampler.Out (Sampler.OutBatch (Adapter.Field2 ℚ) Synthetic.Pair) → List (ℚ × ℚ) × List (ℚ × Bool)
  | .batch x => (x.flows.map (fun f => f.at_ 2 1), x.images.map (fun p => (p.first.at_ 2 1, decide (p.second.at_ 2 1 = p.first.at_ 2 1))))
  | _ => ([], [])

/-- What one call shows of it. -/
def shown (φ : Two → Adapter.Field2 ℚ) : Option (List (List (ℚ × ℚ) × List (ℚ × Bool))) :=
  (Sampler.run (Units.sched (Units.flowBatch φ) demoSched) (Synthetic.gen id id Synthetic.demoDraws Synthetic.demoShift Synthetic.demoShiftMade)
    Synthetic.demoShiftMade.cfg [.next] (Sampler.init Synthetic.demoShiftMade.cfg ())).map (fun q => q.1.map looks)

example : Synthetic.make id id Synthetic.demoShift = .ok Synthetic.demoShiftMade ∧
    shown Two.fst = some [([(5 / 4, 0), (5 / 4, 0)], [(170469775 / 836772, false), (66696175 / 418386, false)])] ∧
    shown Two.snd = some [([(1, 1), (1, 1)], [(170469775 / 836772, false), (66696175 / 418386, false)])] ∧
    shown (Two.combined 2 (-3)) = some [([(-1 / 2, -3), (-1 / 2, -3)], [(170469775 / 836772, false), (66696175 / 418386, false)])] :=
  ⟨by decide +kernel, by decide +kernel, by decide +kernel, by decide +kernel⟩

end Verif.Superposition
