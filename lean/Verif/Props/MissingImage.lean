import Verif.Spec.MissingImage
import Verif.Props.Missing
import Verif.Proofs.Render
/-!
# C169: images from flow fields with missing vectors
-/

set_option linter.unusedSectionVars false

namespace Verif.Missing
open Verif Interp Adapter Render Generate
open scoped Classical

variable {K : Type*} [Field K] [LinearOrder K] [IsStrictOrderedRing K] [FloorRing K]

theorem normIndex_iff (n : Nat) (k : Int) (j : Nat) : normIndex n k = some j ↔ j < n ∧ ((j : Int) = k ∨ (k < 0 ∧ (j : Int) = k + n)) := by
  unfold normIndex
  dsimp only
  split <;> split <;> simp only [Option.some.injEq, reduceCtorEq, false_iff, not_and, not_or] <;> omega

/-- What an update adds to a pixel. -/
def effectN (H W : Nat) (j i : Nat) (u : Int × Int × Option K) : Option K :=
  if normIndex H u.1 = some j ∧ normIndex W u.2.1 = some i then u.2.2 else some 0

theorem plus_zero (v : Option K) : plus v (some 0) = v := by cases v <;> simp [plus]

theorem scatterN_eq (H W : Nat) (img : Nat → Nat → Option K) (u : Int × Int × Option K) (j i : Nat) :
    scatterN H W img u j i = plus (img j i) (effectN H W j i u) := by
  unfold scatterN effectN
  cases h1 : normIndex H u.1 with
  | none => simp [plus_zero]
  | some j0 =>
    cases h2 : normIndex W u.2.1 with
    | none => simp [plus_zero]
    | some i0 =>
      simp only [Option.some.injEq]
      by_cases h : j = j0 ∧ i = i0
      · rw [if_pos h, if_pos ⟨h.1.symm, h.2.symm⟩]
      · rw [if_neg h, if_neg (fun h' => h ⟨h'.1.symm, h'.2.symm⟩), plus_zero]

/-- NaN if one of the values is, their sum otherwise. -/
def total (l : List (Option K)) : Option K := if none ∈ l then none else some (l.map (fun v => v.getD 0)).sum

theorem total_cons (v : Option K) (l : List (Option K)) : total (v :: l) = plus v (total l) := by
  unfold total
  cases v with
  | none => simp [plus]
  | some a => by_cases h : none ∈ l <;> simp [h, plus]

theorem plus_assoc (a b c : Option K) : plus (plus a b) c = plus a (plus b c) := by
  cases a <;> cases b <;> cases c <;> simp [plus, add_assoc]

theorem total_append (l m : List (Option K)) : total (l ++ m) = plus (total l) (total m) := by
  induction l with
  | nil =>
    have : total ([] : List (Option K)) = some 0 := by simp [total]
    rw [this, List.nil_append]
    cases total m <;> simp [plus]
  | cons v l ih => rw [List.cons_append, total_cons, ih, total_cons, plus_assoc]

theorem foldl_scatterN (H W : Nat) (us : List (Int × Int × Option K)) (img : Nat → Nat → Option K) (j i : Nat) :
    us.foldl (scatterN H W) img j i = plus (img j i) (total (us.map (effectN H W j i))) := by
  induction us generalizing img with
  | nil => simp [total, plus_zero]
  | cons u us ih => rw [List.foldl_cons, ih, scatterN_eq, List.map_cons, total_cons, plus_assoc]

/-- What a particle adds to a pixel. -/
def shareN (exp fl : K → K) (junk : Int) (r H W : Nat) (j i : Nat) (p : ParticleN K) : Option K :=
  total ((patchN exp fl junk r H W p).map (effectN H W j i))

theorem renderN_eq (exp fl : K → K) (junk : Int) (r H W : Nat) (ps : List (ParticleN K)) (j i : Nat) :
    renderN exp fl junk r H W ps j i = total (ps.map (shareN exp fl junk r H W j i)) := by
  unfold renderN
  rw [foldl_scatterN]
  have z : ∀ v : Option K, plus (some 0) v = v := by intro v; cases v <;> simp [plus]
  rw [z]
  induction ps with
  | nil => rfl
  | cons p ps ih => rw [List.flatMap_cons, List.map_append, total_append, ih, List.map_cons, total_cons]; rfl

theorem ite_some (c : Prop) [Decidable c] (a b : K) : (if c then some a else some b) = some (if c then a else b) := by split <;> rfl

theorem gaussianN_none (exp : K → K) (x y : Option K) (a b c d : K) (h : x = none ∨ y = none) : gaussianN exp x y a b c d = none := by
  rcases h with rfl | rfl
  · rfl
  · cases x <;> rfl

/-- A particle with a place adds what it adds in `Model/Render.lean`. -/
theorem shareN_some (exp fl : K → K) (junk : Int) (r H W : Nat) (j i : Nat) (p : Particle K) :
    shareN exp fl junk r H W j i ⟨some p.y, some p.x, p.dx, p.dy, p.rho, p.amp⟩ = some (share exp fl r H W j i p) := by
  have h : (patchN exp fl junk r H W ⟨some p.y, some p.x, p.dx, p.dy, p.rho, p.amp⟩).map (effectN H W j i) =
      ((patch exp fl r H W p).map (effect H W j i)).map some := by
    unfold patchN patch
    simp only [List.map_flatMap, List.map_map]
    congr 1
    funext a
    refine List.map_congr_left (fun b _ => ?_)
    exact ite_some _ _ _
  unfold shareN
  rw [h]
  unfold total
  rw [if_neg (by simp)]
  rw [List.map_map]
  have : ((fun v : Option K => v.getD 0) ∘ some) = id := by funext v; rfl
  rw [this, List.map_id]
  rfl

/-- A particle without a place makes the pixels of its patch NaN and adds nothing elsewhere. -/
theorem shareN_none (exp fl : K → K) (junk : Int) (r H W : Nat) (j i : Nat) (p : ParticleN K) (h : p.y = none ∨ p.x = none) :
    shareN exp fl junk r H W j i p = if Covers r H W (cornerN fl junk r H p.y) (cornerN fl junk r W p.x) j i then none else some 0 := by
  have hv : ∀ u ∈ patchN exp fl junk r H W p, u.2.2 = none := by
    intro u hu
    unfold patchN at hu
    simp only [List.mem_flatMap, List.mem_map, List.mem_range] at hu
    obtain ⟨a, _, b, _, rfl⟩ := hu
    refine gaussianN_none _ _ _ _ _ _ _ ?_
    rcases h with h | h <;> rw [h]
    · right; rfl
    · left; rfl
  have hc : (∃ u ∈ patchN exp fl junk r H W p, normIndex H u.1 = some j ∧ normIndex W u.2.1 = some i) ↔
      Covers r H W (cornerN fl junk r H p.y) (cornerN fl junk r W p.x) j i := by
    unfold patchN Covers
    simp only [List.mem_flatMap, List.mem_map, List.mem_range]
    constructor
    · rintro ⟨_, ⟨a, ha, b, hb, rfl⟩, h1, h2⟩
      rw [normIndex_iff] at h1 h2
      exact ⟨a, b, by omega, by omega, h1.1, h2.1, h1.2, h2.2⟩
    · rintro ⟨a, b, ha, hb, hj, hi, h1, h2⟩
      exact ⟨_, ⟨a, by omega, b, by omega, rfl⟩, (normIndex_iff _ _ _).2 ⟨hj, h1⟩, (normIndex_iff _ _ _).2 ⟨hi, h2⟩⟩
  unfold shareN total
  by_cases c : Covers r H W (cornerN fl junk r H p.y) (cornerN fl junk r W p.x) j i
  · rw [if_pos c, if_pos]
    obtain ⟨u, hu, h1⟩ := hc.2 c
    exact List.mem_map.2 ⟨u, hu, by unfold effectN; rw [if_pos h1]; exact hv u hu⟩
  · rw [if_neg c]
    have he : ∀ u ∈ patchN exp fl junk r H W p, effectN H W j i u = some 0 := by
      intro u hu
      unfold effectN
      rw [if_neg (fun h1 => c (hc.1 ⟨u, hu, h1⟩))]
    rw [List.map_congr_left he, if_neg (by simp)]
    simp

theorem over_none (a : K) (v : Option K) : over a v = none ↔ v = none := by cases v <;> simp [over]

theorem plus_some_none (a : K) (v : Option K) : plus (some a) v = none ↔ v = none := by cases v <;> simp [plus]

/-- When the new place of a particle has a coordinate that is NaN, and what it is otherwise. -/
theorem moveN_spec (bounds : Nat × Nat) (flow : FieldN K) (hH : 0 < flow.H) (hW : 0 < flow.W) (g : Nat → Nat → K × K) (dt resX resY y x : K) :
    (moveN bounds flow dt resX resY y x).1 = (if MissingNear bounds flow true y x then none else some (move bounds (filled g flow) dt resX resY y x).1) ∧
    (moveN bounds flow dt resX resY y x).2 = (if MissingNear bounds flow false y x then none else some (move bounds (filled g flow) dt resX resY y x).2) := by
  have h := fun image : Nat → Nat → Option K => bilinear_missing hH hW image (x * ((flow.W : K) / bounds.2)) (y * ((flow.H : K) / bounds.1))
  have h1 := h (fun j i => (flow.at_ j i).1)
  have h2 := h (fun j i => (flow.at_ j i).2)
  constructor
  · by_cases c : MissingNear bounds flow true y x
    · rw [if_pos c]
      simp only [moveN, over_none, plus_some_none, times_none]
      exact h2.1.2 c
    · rw [if_neg c]
      have e := h2.2 (fun t => c (h2.1.1 t)) (fun j i => (g j i).2)
      simp only [moveN]
      rw [e]
      simp only [times, plus, over, move, Apply.step2, filled]
      congr 2
      simp only [one_ne_zero, if_false]
      ring
  · by_cases c : MissingNear bounds flow false y x
    · rw [if_pos c]
      simp only [moveN, over_none, plus_some_none, times_none]
      exact h1.1.2 c
    · rw [if_neg c]
      have e := h1.2 (fun t => c (h1.1.1 t)) (fun j i => (g j i).1)
      simp only [moveN]
      rw [e]
      simp only [times, plus, over, move, Apply.step2, filled]
      congr 2
      simp only [if_true]
      ring

/-- Where the upper left pixel of the patch of a particle is put, on one axis: at the device's conversion of NaN if the component that moves it along the axis is
missing near it. -/
noncomputable def corner (fl32 : K → K) (junk : Int) (r side : Nat) (missing : Prop) (coordinate : K) : Int :=
  if missing then junk else topLeft fl32 r side coordinate

theorem total_filter (l : List Nat) (lost : Nat → Prop) (covered : Nat → Prop) (f : Nat → Option K) (s : Nat → K)
    (h1 : ∀ k ∈ l, lost k → f k = if covered k then none else some 0) (h2 : ∀ k ∈ l, ¬ lost k → f k = some (s k)) :
    total (l.map f) = if ∃ k ∈ l, lost k ∧ covered k then none else some ((l.filter (fun k => ¬ lost k)).map s).sum := by
  induction l with
  | nil => simp [total]
  | cons k l ih =>
    have ih := ih (fun k hk => h1 k (List.mem_cons_of_mem _ hk)) (fun k hk => h2 k (List.mem_cons_of_mem _ hk))
    rw [List.map_cons, total_cons, ih]
    by_cases hl : lost k
    · rw [h1 k (List.mem_cons_self ..) hl, List.filter_cons_of_neg (by simpa using hl)]
      by_cases hc : covered k
      · rw [if_pos hc, if_pos (⟨k, List.mem_cons_self .., hl, hc⟩ : ∃ q ∈ k :: l, lost q ∧ covered q)]; rfl
      · rw [if_neg hc]
        by_cases he : ∃ k ∈ l, lost k ∧ covered k
        · rw [if_pos he, if_pos (by obtain ⟨q, a, b⟩ := he; exact ⟨q, List.mem_cons_of_mem _ a, b⟩)]; rfl
        · rw [if_neg he, if_neg (by
            rintro ⟨q, a, b⟩
            rcases List.mem_cons.1 a with rfl | a
            · exact hc b.2
            · exact he ⟨q, a, b⟩)]
          simp [plus]
    · rw [h2 k (List.mem_cons_self ..) hl, List.filter_cons_of_pos (by simpa using hl), List.map_cons, List.sum_cons]
      by_cases he : ∃ k ∈ l, lost k ∧ covered k
      · rw [if_pos he, if_pos (by obtain ⟨q, a, b⟩ := he; exact ⟨q, List.mem_cons_of_mem _ a, b⟩)]; rfl
      · rw [if_neg he, if_neg (by
          rintro ⟨q, a, b⟩
          rcases List.mem_cons.1 a with rfl | a
          · exact hl b.1
          · exact he ⟨q, a, b⟩)]
        simp [plus]

theorem far {junk big : Int} {r side a j : Nat} (hj : big ≤ junk ∨ junk + 2 * (r : Int) + big < 0) (hs : (side : Int) ≤ big) (ha : a ≤ 2 * r) (h : j < side)
    (e : (j : Int) = a + junk ∨ ((a : Int) + junk < 0 ∧ (j : Int) = a + junk + side)) : False := by omega

section Pair

variable (fl64 fl32 : K → K) (junk : Int) (R : Rand K) (p : Params K) (bounds : Nat × Nat) (flows : List (FieldN K)) (resX resY : K)
  (mask : Option (Nat → Nat → K)) (key : KeyTerm) (i : Nat)

/-- **C169**, first image: it is the one of the flow field with any values filled in. -/
theorem C169_first (g : Nat → Nat → K × K) :
    (pairN fl64 fl32 junk R p bounds flows resX resY mask key i).1 = (pair fl64 fl32 R p bounds (flows.map (filled g)) resX resY mask none key i).1 := rfl

/-- **C169** (partial), second image: the particles next to a missing vector are absent, and every pixel is the one that the other particles give, with any values filled
in for the missing ones, or NaN. It is NaN exactly in the patches of the absent particles, shown or hidden, wherever the device puts them, also under the mask. Missing from the
full claim: no pixel should be NaN (`C169_refuted`). -/
theorem C169_second_partial (flow : FieldN K) (hf : flows[i % flows.length]? = some flow) (hH : 0 < flow.H) (hW : 0 < flow.W) (g : Nat → Nat → K × K) :
    let n := numParticles fl64 bounds p
    let r := patchRadius (maxDiameter p)
    let start := fun k => position1 R bounds key i k
    let lost := fun k => Lost bounds flow (start k).1 (start k).2
    let stop := fun k => move bounds (filled g flow) p.dt resX resY (start k).1 (start k).2
    let top := fun k => corner fl32 junk r bounds.1 (MissingNear bounds flow true (start k).1 (start k).2) (stop k).1
    let left := fun k => corner fl32 junk r bounds.2 (MissingNear bounds flow false (start k).1 (start k).2) (stop k).2
    let rest := finish fl32 R p bounds mask none (subkey key i 5)
      (((List.range n).filter (fun k => ¬ lost k)).map (particle2 fl32 R p bounds (filled g flow) resX resY key i))
    let second := (pairN fl64 fl32 junk R p bounds flows resX resY mask key i).2
    second.H = rest.H ∧ second.W = rest.W ∧ ∀ row col : Nat,
      (second.at_ row col = none ↔ ∃ k < n, lost k ∧ Covers r bounds.1 bounds.2 (top k) (left k) (row + p.imgOffset.1) (col + p.imgOffset.2)) ∧
      ∀ v, second.at_ row col = some v → v = rest.at_ row col := by
  intro n r start lost stop top left rest second
  have hflow : flows.getD (i % flows.length) ⟨1, 1, fun _ _ => (some 0, some 0)⟩ = flow := by rw [List.getD_eq_getElem?_getD, hf]; rfl
  have key1 : ∀ row col : Nat, renderN R.exp fl32 junk r bounds.1 bounds.2 ((List.range n).map (particle2N fl32 R p bounds flow resX resY key i)) row col =
      if ∃ k ∈ List.range n, lost k ∧ Covers r bounds.1 bounds.2 (top k) (left k) row col then none
      else some (render R.exp fl32 r bounds.1 bounds.2 (((List.range n).filter (fun k => ¬ lost k)).map (particle2 fl32 R p bounds (filled g flow) resX resY key i)) row col) := by
    intro row col
    rw [renderN_eq, render_eq, List.map_map, List.map_map]
    refine total_filter (List.range n) lost (fun k => Covers r bounds.1 bounds.2 (top k) (left k) row col) _ _ ?_ ?_
    · intro k _ hl
      obtain ⟨m1, m2⟩ := moveN_spec bounds flow hH hW g p.dt resX resY (start k).1 (start k).2
      have e := shareN_none R.exp fl32 junk r bounds.1 bounds.2 row col (particle2N fl32 R p bounds flow resX resY key i k) (by
        rcases hl with h | h
        · right; exact m2.trans (if_pos h)
        · left; exact m1.trans (if_pos h))
      have t1 : cornerN fl32 junk r bounds.1 (particle2N fl32 R p bounds flow resX resY key i k).y = top k := by
        show cornerN fl32 junk r bounds.1 (moveN bounds flow p.dt resX resY (start k).1 (start k).2).1 = corner _ _ _ _ _ _
        rw [m1]; unfold corner; split <;> rfl
      have t2 : cornerN fl32 junk r bounds.2 (particle2N fl32 R p bounds flow resX resY key i k).x = left k := by
        show cornerN fl32 junk r bounds.2 (moveN bounds flow p.dt resX resY (start k).1 (start k).2).2 = corner _ _ _ _ _ _
        rw [m2]; unfold corner; split <;> rfl
      rw [t1, t2] at e
      exact e
    · intro k _ hl
      obtain ⟨m1, m2⟩ := moveN_spec bounds flow hH hW g p.dt resX resY (start k).1 (start k).2
      rw [if_neg (fun h => hl (Or.inr h))] at m1
      rw [if_neg (fun h => hl (Or.inl h))] at m2
      have e : particle2N fl32 R p bounds flow resX resY key i k =
          ⟨some (particle2 fl32 R p bounds (filled g flow) resX resY key i k).y, some (particle2 fl32 R p bounds (filled g flow) resX resY key i k).x,
            (particle2 fl32 R p bounds (filled g flow) resX resY key i k).dx, (particle2 fl32 R p bounds (filled g flow) resX resY key i k).dy,
            (particle2 fl32 R p bounds (filled g flow) resX resY key i k).rho, (particle2 fl32 R p bounds (filled g flow) resX resY key i k).amp⟩ := by
        unfold particle2N
        dsimp only
        have m1' : (moveN bounds flow p.dt resX resY (particle1 fl32 R p bounds key i k).y (particle1 fl32 R p bounds key i k).x).1 =
          some (particle2 fl32 R p bounds (filled g flow) resX resY key i k).y := m1
        have m2' : (moveN bounds flow p.dt resX resY (particle1 fl32 R p bounds key i k).y (particle1 fl32 R p bounds key i k).x).2 =
          some (particle2 fl32 R p bounds (filled g flow) resX resY key i k).x := m2
        rw [m1', m2']
        rfl
      show shareN _ _ _ _ _ _ _ _ (particle2N fl32 R p bounds flow resX resY key i k) = _
      rw [e]
      exact shareN_some R.exp fl32 junk r bounds.1 bounds.2 row col _
  refine ⟨?_, ?_, ?_⟩
  · show sliceLen _ _ _ = _
    cases mask <;> rfl
  · show sliceLen _ _ _ = _
    cases mask <;> rfl
  · intro row col
    have hs : second.at_ row col = maskedN mask row col (addNoiseN (R.uniform (.sub (subkey key i 5) 2 0) (row * sliceLen bounds.2 p.imgOffset.2 p.imageShape.2 + col))
        (R.normal (.sub (subkey key i 5) 2 1) (row * sliceLen bounds.2 p.imgOffset.2 p.imageShape.2 + col)) p.noiseUniform p.noiseMean p.noiseStd
        (renderN R.exp fl32 junk r bounds.1 bounds.2 ((List.range n).map (particle2N fl32 R p bounds flow resX resY key i)) (row + p.imgOffset.1) (col + p.imgOffset.2))) := by
      show (finishN fl32 junk R p bounds mask (subkey key i 5) ((List.range n).map (particle2N fl32 R p bounds
        (flows.getD (i % flows.length) ⟨1, 1, fun _ _ => (some 0, some 0)⟩) resX resY key i))).at_ row col = _
      rw [hflow]
      rfl
    rw [hs, key1]
    have hm : ∀ v : Option K, maskedN mask row col v = none ↔ v = none := by
      intro v; unfold maskedN; cases mask with
      | none => exact Iff.rfl
      | some m => exact times_none _ _
    have hn : ∀ (a b c d e : K) (v : Option K), addNoiseN a b c d e v = none ↔ v = none := by
      intro a b c d e v; cases v <;> simp [addNoiseN]
    by_cases c : ∃ k ∈ List.range n, lost k ∧ Covers r bounds.1 bounds.2 (top k) (left k) (row + p.imgOffset.1) (col + p.imgOffset.2)
    · rw [if_pos c]
      constructor
      · rw [hm, hn]
        refine ⟨fun _ => ?_, fun _ => rfl⟩
        obtain ⟨k, a, b⟩ := c
        exact ⟨k, List.mem_range.1 a, b⟩
      · intro v hv
        rw [(hm _).2 ((hn _ _ _ _ _ _).2 rfl)] at hv
        cases hv
    · rw [if_neg c]
      constructor
      · rw [hm, hn]
        refine ⟨fun h => absurd h (Option.some_ne_none _), fun h => absurd ?_ c⟩
        obtain ⟨k, a, b⟩ := h
        exact ⟨k, List.mem_range.2 a, b⟩
      · intro v hv
        rw [← Option.some_inj, ← hv]
        cases mask with
        | none => rfl
        | some m =>
          show times _ (some _) = some (_ * _)
          rw [times, mul_comm]
          rfl

/-- **C169** on devices that turn NaN into an integer far outside the image, as the smallest one: no pixel is NaN, and the second image is that of the particles that are not next to a
missing vector. -/
theorem C169_dropped (flow : FieldN K) (hf : flows[i % flows.length]? = some flow) (hH : 0 < flow.H) (hW : 0 < flow.W) (g : Nat → Nat → K × K)
    (hj : max (bounds.1 : Int) bounds.2 ≤ junk ∨ junk + 2 * patchRadius (maxDiameter p) + max (bounds.1 : Int) bounds.2 < 0) (row col : Nat) :
    (pairN fl64 fl32 junk R p bounds flows resX resY mask key i).2.at_ row col =
      some ((finish fl32 R p bounds mask none (subkey key i 5) (((List.range (numParticles fl64 bounds p)).filter
        (fun k => ¬ Lost bounds flow (position1 R bounds key i k).1 (position1 R bounds key i k).2)).map
          (particle2 fl32 R p bounds (filled g flow) resX resY key i))).at_ row col) := by
  obtain ⟨_, _, h⟩ := C169_second_partial fl64 fl32 junk R p bounds flows resX resY mask key i flow hf hH hW g
  obtain ⟨h1, h2⟩ := h row col
  cases hv : (pairN fl64 fl32 junk R p bounds flows resX resY mask key i).2.at_ row col with
  | some v => rw [h2 v hv]
  | none =>
    exfalso
    obtain ⟨k, _, hl, a, b, ha, hb, hr, hc, e1, e2⟩ := h1.1 hv
    have m1 : (bounds.1 : Int) ≤ max (bounds.1 : Int) bounds.2 := le_max_left _ _
    have m2 : (bounds.2 : Int) ≤ max (bounds.1 : Int) bounds.2 := le_max_right _ _
    rcases hl with hl | hl
    · have e : corner fl32 junk (patchRadius (maxDiameter p)) bounds.2 (MissingNear bounds flow false (position1 R bounds key i k).1 (position1 R bounds key i k).2)
          (move bounds (filled g flow) p.dt resX resY (position1 R bounds key i k).1 (position1 R bounds key i k).2).2 = junk := if_pos hl
      beta_reduce at e2
      rw [e] at e2
      exact far hj m2 hb hc e2
    · have e : corner fl32 junk (patchRadius (maxDiameter p)) bounds.1 (MissingNear bounds flow true (position1 R bounds key i k).1 (position1 R bounds key i k).2)
          (move bounds (filled g flow) p.dt resX resY (position1 R bounds key i k).1 (position1 R bounds key i k).2).1 = junk := if_pos hl
      beta_reduce at e1
      rw [e] at e1
      exact far hj m1 ha hr e1

end Pair

/-- A flow field of which nothing is known. -/
def unknown : FieldN ℚ := ⟨2, 2, fun _ _ => (none, none)⟩

/-- A single particle, which is hidden in the second image. -/
def hiddenParams : Params ℚ :=
  { batchSize := 1, imageShape := (4, 4), imgOffset := (0, 0), densityRange := (1 / 16, 1 / 16), pHide1 := 0, pHide2 := 1, diameterRanges := [(1, 1)], diameterVar := 0
    intensityRanges := [(100, 100)], intensityVar := 0, rhoRanges := [(0, 0)], rhoVar := 0, dt := 1, noiseUniform := 0, noiseMean := 0, noiseStd := 0 }

/-- Draws that are all one half. -/
def halves : Rand ℚ := { uniform := fun _ _ => 1 / 2, normal := fun _ _ => 0, randint := fun _ _ => 0, exp := fun _ => 1, sqrt := id }

/-- **C169** refuted: on a device that turns NaN into 0, a particle that is not even shown in the second image makes pixels of it NaN, although the mask blanks the whole image. -/
theorem C169_refuted :
    (particle2 id halves hiddenParams (4, 4) ⟨2, 2, fun _ _ => (0, 0)⟩ 1 1 (.seed 0) 0 0).amp = 0 ∧
    (pairN id id 0 halves hiddenParams (4, 4) [unknown] 1 1 (some fun _ _ => 0) (.seed 0) 0).2.at_ 0 0 = none := by
  decide +kernel

/-- A flow field of which one vector is missing. -/
def gap : FieldN ℚ := ⟨4, 4, fun j i => if j = 3 ∧ i = 3 then (none, none) else (some 1, some 0)⟩

/-- Of two particles one is next to the missing vector and the other is not. -/
example : (moveN (8, 8) gap 1 1 1 (13 / 2) 7) = (none, none) ∧ (moveN (8, 8) gap 1 1 1 1 2) = (some 1, some 4) := by decide +kernel

/-- The hypotheses of `C169_second_partial` and `C169_dropped` are met. -/
example : ([gap] : List (FieldN ℚ))[7 % 1]? = some gap ∧ 0 < gap.H ∧ 0 < gap.W ∧
    (-2147483648 : Int) + 2 * patchRadius (maxDiameter hiddenParams) + max (4 : Int) 4 < 0 := ⟨rfl, by decide, by decide, by decide +kernel⟩

end Verif.Missing
