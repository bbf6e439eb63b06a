import Verif.Spec.Isolation
import Verif.Proofs.Parametric
import Verif.Props.Sampler
import Verif.Props.Synthetic
/-!
# A pair depends on its own flow field only (C190)
-/

namespace Verif.Isolation
open Verif Sampler
variable {S F O I : Type}

/-- The scheduler with every flow field accompanied by the number of its row. -/
def tagged (sch : ISched S (FlowBatch F)) : ISched S (FlowBatch (F × Nat)) where
  getBatch n s := (sch.getBatch n s).map (fun q => (q.1.map (fun b => ⟨b.flows.zipIdx, b.mask, b.files⟩), q.2))
  reset := sch.reset
  episodic := sch.episodic

/-- The functions that hand the number on. -/
def tagGen (g : Gen F O I) : Gen (F × Nat) (O × Nat) (I × Nat) where
  adapt f := (((g.adapt f.1).1, f.2), ((g.adapt f.1).2, f.2))
  render k b i f := (g.render k b i f.1, f.2)

/-- The same number, and the same thing if it is `j`. -/
def Agree (j : Nat) {α : Type} (x y : α × Nat) : Prop := x.2 = y.2 ∧ (x.2 = j → x.1 = y.1)

theorem tagGen_agree (j : Nat) (g : Gen F O I) : GenRel (Agree j) (Agree j) (Agree j) (Agree j) (tagGen g) (tagGen g) where
  adapt f f' h := ⟨⟨h.1, fun e => by simp only [tagGen]; rw [h.2 e]⟩, ⟨h.1, fun e => by simp only [tagGen]; rw [h.2 e]⟩⟩
  render k b i f f' h := ⟨h.1, fun e => by simp only [tagGen]; rw [h.2 e]⟩

theorem zipIdx_agree (j : Nat) (l l' : List F) (hl : l.length = l'.length) (hj : l[j]? = l'[j]?) : List.Forall₂ (Agree j) l.zipIdx l'.zipIdx := by
  rw [List.forall₂_iff_get]
  refine ⟨by simpa using hl, fun i h1 h2 => ?_⟩
  simp only [List.get_eq_getElem, List.getElem_zipIdx, Nat.zero_add]
  refine ⟨rfl, fun e => ?_⟩
  dsimp only at e ⊢
  subst e
  rw [List.length_zipIdx] at h1 h2
  rw [List.getElem?_eq_getElem h1, List.getElem?_eq_getElem h2] at hj
  exact Option.some.inj hj

theorem tagged_agree {j : Nat} {sch sch' : ISched S (FlowBatch F)} (h : SameRow j sch sch') : SchedRel (Agree j) (tagged sch) (tagged sch') where
  getBatch n s := by
    unfold tagged
    dsimp only
    rcases h.getBatch n s with ⟨h1, h2⟩ | ⟨e, s', h1, h2⟩ | ⟨b, b', s', h1, h2, h3, h4, h5, h6⟩
    · exact .inl ⟨by rw [h1]; rfl, by rw [h2]; rfl⟩
    · exact .inr (.inl ⟨e, s', by rw [h1]; rfl, by rw [h2]; rfl⟩)
    · exact .inr (.inr ⟨_, _, s', by rw [h1]; rfl, by rw [h2]; rfl, zipIdx_agree j _ _ h3 h4, h5, h6⟩)
  reset := h.reset
  episodic := h.episodic

/-- Without its number. -/
def Plain {α : Type} (x : α) (y : α × Nat) : Prop := x = y.1

theorem tagGen_plain (g : Gen F O I) : GenRel Plain Plain Plain Plain g (tagGen g) where
  adapt f f' h := by obtain rfl := h; exact ⟨rfl, rfl⟩
  render k b i f f' h := by obtain rfl := h; rfl

theorem tagged_plain (sch : ISched S (FlowBatch F)) : SchedRel Plain sch (tagged sch) where
  getBatch n s := by
    unfold tagged
    dsimp only
    cases h : sch.getBatch n s with
    | none => exact .inl ⟨rfl, rfl⟩
    | some q =>
      obtain ⟨r, s'⟩ := q
      cases r with
      | error e => exact .inr (.inl ⟨e, s', rfl, rfl⟩)
      | ok b =>
        refine .inr (.inr ⟨b, _, s', rfl, rfl, ?_, rfl, rfl⟩)
        rw [List.forall₂_iff_get]
        refine ⟨by simp, fun i h1 h2 => ?_⟩
        simp [Plain]
  reset := rfl
  episodic := rfl

theorem forall₂_at {α β : Type} {R : α → β → Prop} {l : List α} {l' : List β} (h : List.Forall₂ R l l') (i : Nat) {x : α} (hx : l[i]? = some x) : ∃ y, l'[i]? = some y ∧ R x y := by
  rcases forall₂_getElem? h i with ⟨h1, _⟩ | ⟨a, b, h1, h2, h3⟩
  · rw [h1] at hx; cases hx
  · rw [h1] at hx; exact ⟨b, h2, Option.some.inj hx ▸ h3⟩

theorem tagged_delivers {sch : ISched S (FlowBatch F)} {n : Nat} {s s' : S} {b : FlowBatch (F × Nat)} (h : (tagged sch).getBatch n s = some (.ok b, s')) :
    ∃ b0, sch.getBatch n s = some (.ok b0, s') ∧ b.flows = b0.flows.zipIdx := by
  unfold tagged at h
  dsimp only at h
  obtain ⟨⟨r, s1⟩, h1, h2⟩ := Option.map_eq_some_iff.1 h
  cases r with
  | error e => cases h2
  | ok b0 =>
    cases h2
    exact ⟨b0, h1, rfl⟩

theorem forall₂_of_getElem? {α β : Type} {R : α → β → Prop} {l : List α} {l' : List β} (hl : l.length = l'.length) (h : ∀ (i : Nat) x y, l[i]? = some x → l'[i]? = some y → R x y) :
    List.Forall₂ R l l' := by
  rw [List.forall₂_iff_get]
  exact ⟨hl, fun i h1 h2 => h i _ _ (List.getElem?_eq_getElem h1) (List.getElem?_eq_getElem h2)⟩

/-- **C190.** For every scheduler that delivers full batches, any functions that adapt and render, every configuration the sampler accepts, every row `j` and all histories of calls: if the flow
fields in the other rows of every delivered batch are replaced by any others, the same calls return or fail with the same exceptions, and nothing changes in the pairs that belong to row `j`:
neither their images and parameters nor their reported flow. Masks, file names and flags do not change at all. -/
theorem C190_own_flow_only (sch sch' : ISched S (FlowBatch F)) (hfull : FullBatches sch) (j : Nat) (hsame : SameRow j sch sch') (g : Gen F O I)
    (b : Int) (nd : Nat) (ep : Bool) (bpfb ffpb seed : Int) (cfg : Cfg) (hc : Cfg.make b nd ep bpfb ffpb seed = .ok cfg) (s : S) (ops : List Op) :
    (run sch g cfg ops (init cfg s) = none ∧ run sch' g cfg ops (init cfg s) = none) ∨
    ∃ outs outs' t t', run sch g cfg ops (init cfg s) = some (outs, t) ∧ run sch' g cfg ops (init cfg s) = some (outs', t') ∧
      List.Forall₂ (SameOut (fun i => i < cfg.batchSize ∧ flowOf cfg.batchSize cfg.ndevices cfg.ffpb i = j)) outs outs' := by
  have hA := run_rel (tagGen_agree j g) (tagged_agree hsame) cfg ops (init_rel _ _ cfg s)
  have hB := run_rel (tagGen_plain g) (tagged_plain sch) cfg ops (init_rel _ _ cfg s)
  have hC := run_rel (tagGen_plain g) (tagged_plain sch') cfg ops (init_rel _ _ cfg s)
  have hok := Cfg.ok_of_make hc
  rcases hA with ⟨a1, a2⟩ | ⟨os, os', t, t', a1, a2, a3⟩
  · left
    refine ⟨?_, ?_⟩
    · rcases hB with ⟨h, _⟩ | ⟨_, _, _, _, _, h, _⟩
      · exact h
      · rw [a1] at h; cases h
    · rcases hC with ⟨h, _⟩ | ⟨_, _, _, _, _, h, _⟩
      · exact h
      · rw [a2] at h; cases h
  · right
    rcases hB with ⟨_, h⟩ | ⟨p, q, u, u', b1, b2, b3⟩
    · rw [a1] at h; cases h
    rcases hC with ⟨_, h⟩ | ⟨p', q', v, v', c1, c2, c3⟩
    · rw [a2] at h; cases h
    rw [a1] at b2
    rw [a2] at c2
    obtain ⟨rfl, _⟩ := Prod.mk.inj (Option.some.inj b2)
    obtain ⟨rfl, _⟩ := Prod.mk.inj (Option.some.inj c2)
    refine ⟨p, p', u, v, b1, c1, ?_⟩
    have hfull' : FullBatches (tagged sch) := by
      intro n s b s' h
      obtain ⟨b0, h1, h2⟩ := tagged_delivers h
      rw [h2, List.length_zipIdx]
      exact hfull n s b0 s' h1
    have hmade := run_made hfull' hok ops _ _ _ (.inl rfl) a1
    refine forall₂_of_getElem? (by rw [b3.length_eq, a3.length_eq, c3.length_eq]) fun i x x' hx hx' => ?_
    obtain ⟨y, hy, hxy⟩ := forall₂_at b3 i hx
    obtain ⟨y', hy', hyy⟩ := forall₂_at a3 i hy
    obtain ⟨z, hz, hxz⟩ := forall₂_at c3 i hx'
    rw [hy'] at hz
    obtain rfl := Option.some.inj hz
    cases y <;> cases x <;> (try exact hxy.elim) <;> cases y' <;> (try exact hyy.elim) <;> cases x' <;> (try exact hxz.elim)
    case raised.raised.raised.raised => exact Eq.trans hxy (Eq.trans hyy (Eq.symm hxz))
    case done.done.done.done => trivial
    case batch.batch.batch.batch y x y' x' =>
      obtain ⟨p1, p2, p3, p4, p5⟩ := hxy
      obtain ⟨q1, q2, q3, q4, q5⟩ := hyy
      obtain ⟨r1, r2, r3, r4, r5⟩ := hxz
      refine ⟨by rw [p1.length_eq, q1.length_eq, r1.length_eq], by rw [p2.length_eq, q2.length_eq, r2.length_eq], by rw [p3, q3, r3], by rw [p4, q4, r4], by rw [p5, q5, r5],
        fun i ⟨hi, hj⟩ => ?_⟩
      obtain ⟨⟨fb, k, ⟨σ, σ', hd⟩, hl, _, _, _, _, _, hm⟩, _⟩ := hmade y (List.mem_of_getElem? hy)
      obtain ⟨f, f1, f2, f3⟩ := hm i hi
      obtain ⟨b0, _, e⟩ := tagged_delivers hd
      have hf : f.2 = j := by
        rw [hl, hj, e, List.getElem?_zipIdx] at f1
        cases hb0 : b0.flows[j]? with
        | none => rw [hb0] at f1; cases f1
        | some f0 =>
          rw [hb0] at f1
          simp only [Option.map_some, Option.some.injEq] at f1
          rw [← f1]
          simp
      constructor
      · obtain ⟨z, z1, z2⟩ := forall₂_at q1 i f3
        have hz := z2.2 hf
        rcases forall₂_getElem? p1 i with ⟨_, n2⟩ | ⟨m1, m2, m3, m4, m5⟩
        · rw [f3] at n2; cases n2
        rcases forall₂_getElem? r1 i with ⟨_, n2⟩ | ⟨w1, w2, w3, w4, w5⟩
        · rw [z1] at n2; cases n2
        rw [f3] at m4
        rw [z1] at w4
        rw [m3, w3, show m1 = m2.1 from m5, show w1 = w2.1 from w5, ← Option.some.inj m4, ← Option.some.inj w4, hz]
      · obtain ⟨z, z1, z2⟩ := forall₂_at q2 i f2
        have hz := z2.2 hf
        rcases forall₂_getElem? p2 i with ⟨_, n2⟩ | ⟨m1, m2, m3, m4, m5⟩
        · rw [f2] at n2; cases n2
        rcases forall₂_getElem? r2 i with ⟨_, n2⟩ | ⟨w1, w2, w3, w4, w5⟩
        · rw [z1] at n2; cases n2
        rw [f2] at m4
        rw [z1] at w4
        rw [m3, w3, show m1 = m2.1 from m5, show w1 = w2.1 from w5, ← Option.some.inj m4, ← Option.some.inj w4, hz]

/-- **C190** for the synthetic sampler as it is built, with any rounding. -/
theorem C190_synthetic (fl fl32 : ℚ → ℚ) (R : Generate.Rand ℚ) (a : Synthetic.Args) (m : Synthetic.Made) (hm : Synthetic.make fl fl32 a = .ok m)
    (sch sch' : ISched S (FlowBatch (Adapter.Field2 ℚ))) (hfull : FullBatches sch) (j : Nat) (hsame : SameRow j sch sch') (s : S) (ops : List Op) :
    (run sch (Synthetic.gen fl fl32 R a m) m.cfg ops (init m.cfg s) = none ∧ run sch' (Synthetic.gen fl fl32 R a m) m.cfg ops (init m.cfg s) = none) ∨
    ∃ outs outs' t t', run sch (Synthetic.gen fl fl32 R a m) m.cfg ops (init m.cfg s) = some (outs, t) ∧
      run sch' (Synthetic.gen fl fl32 R a m) m.cfg ops (init m.cfg s) = some (outs', t') ∧
      List.Forall₂ (SameOut (fun i => i < m.cfg.batchSize ∧ flowOf m.cfg.batchSize m.cfg.ndevices m.cfg.ffpb i = j)) outs outs' := by
  obtain ⟨_, _, _, h4, _⟩ := Synthetic.make_ok hm
  exact C190_own_flow_only sch sch' hfull j hsame _ _ _ _ _ _ _ _ h4 s ops

/-- A scheduler for the example: the rows of batch `s` are `10 s + 1, 10 s + 2, ...`; `odd` replaces the rows other than the first. -/
def demoSched (odd : Nat → Nat) : ISched Nat (FlowBatch Nat) where
  getBatch n s := some (.ok ⟨(List.range n).map (fun r => if r = 0 then 10 * s else odd (10 * s + r)), some (List.replicate n true), none⟩, s + 1)
  reset _ := .ok 0
  episodic := none

/-- The functions for the example: an image is its flow field with its place on its device. -/
def demoGen : Gen Nat Nat (Nat × Nat) where
  adapt f := (2 * f, f + 1)
  render _ _ i f := (i, f)

example : SameRow 0 (demoSched id) (demoSched (fun _ => 99)) ∧ FullBatches (demoSched id) := by
  refine ⟨⟨fun n s => .inr (.inr ⟨_, _, _, rfl, rfl, by simp, ?_, rfl, rfl⟩), rfl, rfl⟩, ?_⟩
  · cases n with
    | zero => rfl
    | succ n => simp [List.range_succ_eq_map]
  · intro n s b s' h
    simp only [demoSched, Option.some.injEq, Prod.mk.injEq, Except.ok.injEq] at h
    rw [← h.1]
    simp

/-- Two flow fields for three pairs: pairs 0 and 2 belong to the first. -/
example : Cfg.make 3 1 false 1 2 0 = .ok ⟨3, 1, 1, 2, 0⟩ ∧
    (run (demoSched id) demoGen ⟨3, 1, 1, 2, 0⟩ [.next, .next] (init ⟨3, 1, 1, 2, 0⟩ 1)).map (fun q => q.1.map (fun | .batch b => (b.images, b.flows) | _ => ([], []))) =
      some [([(0, 11), (1, 12), (2, 11)], [20, 22, 20]), ([(0, 21), (1, 22), (2, 21)], [40, 42, 40])] ∧
    (run (demoSched (fun _ => 99)) demoGen ⟨3, 1, 1, 2, 0⟩ [.next, .next] (init ⟨3, 1, 1, 2, 0⟩ 1)).map (fun q => q.1.map (fun | .batch b => (b.images, b.flows) | _ => ([], []))) =
      some [([(0, 11), (1, 100), (2, 11)], [20, 198, 20]), ([(0, 21), (1, 100), (2, 21)], [40, 198, 40])] ∧
    (List.range 3).map (flowOf 3 1 2) = [0, 1, 0] := by
  refine ⟨rfl, rfl, rfl, rfl⟩

end Verif.Isolation
