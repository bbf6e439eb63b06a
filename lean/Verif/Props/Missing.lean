import Verif.Spec.Missing
import Verif.Proofs.Interp
import Verif.Proofs.Adapter
import Mathlib.Tactic.Linarith
/-!
# C164: vectors missing from a flow file
-/

namespace Verif.Missing
open Verif Interp Adapter

variable {K : Type*} [Field K] [LinearOrder K] [IsStrictOrderedRing K] [FloorRing K]

theorem plus_times4 (a b c d : K) (p q r s : Option K) :
    plus (plus (plus (times a p) (times b q)) (times c r)) (times d s) =
      if p = none ∨ q = none ∨ r = none ∨ s = none then none
      else some (a * p.getD 0 + b * q.getD 0 + c * r.getD 0 + d * s.getD 0) := by
  cases p <;> cases q <;> cases r <;> cases s <;> simp [plus, times]

/-- The two grid points of one axis are those in `(X - 1, X + 1]`. -/
theorem cell_iff {n : Nat} (hn : 0 < n) (x : K) (c : Nat) :
    c = (clipIx n ⌊x⌋).toNat ∨ c = (clipIx n (clipIx n ⌊x⌋ + 1)).toNat ↔ c < n ∧ clipCo n x - 1 < c ∧ (c : K) ≤ clipCo n x + 1 := by
  obtain ⟨m0, m1⟩ := clipCo_mem hn x
  rw [floor_clip hn]
  set X := clipCo n x with hX
  have f0 : 0 ≤ ⌊X⌋ := Int.floor_nonneg.mpr m0
  have f1 : ⌊X⌋ ≤ (n : Int) - 1 := by
    have : ⌊X⌋ ≤ ⌊((n : K) - 1)⌋ := Int.floor_le_floor m1
    rw [show ((n : K) - 1) = (((n : Int) - 1 : Int) : K) by push_cast; rfl, Int.floor_intCast] at this
    exact this
  have l := Int.floor_le X
  have u := Int.lt_floor_add_one X
  have cast : ((⌊X⌋.toNat : Nat) : K) = ((⌊X⌋ : Int) : K) := by
    have : ((⌊X⌋.toNat : Nat) : Int) = ⌊X⌋ := Int.toNat_of_nonneg f0
    exact_mod_cast congrArg (Int.cast (R := K)) this
  have key : c < n ∧ X - 1 < c ∧ (c : K) ≤ X + 1 ↔ c < n ∧ (c = ⌊X⌋.toNat ∨ c = ⌊X⌋.toNat + 1) := by
    constructor
    · rintro ⟨h1, h2, h3⟩
      refine ⟨h1, ?_⟩
      have a1 : ⌊X⌋ < (c : Int) + 1 := by
        have : ((⌊X⌋ : Int) : K) < (((c : Int) + 1 : Int) : K) := by push_cast; linarith
        exact_mod_cast this
      have a2 : (c : Int) ≤ ⌊X⌋ + 1 := by
        have : (((c : Int) - 1 : Int) : K) ≤ X := by push_cast; linarith
        have := Int.le_floor.mpr this
        omega
      omega
    · rintro ⟨h1, rfl | rfl⟩
      · exact ⟨h1, by rw [cast]; linarith, by rw [cast]; linarith⟩
      · refine ⟨h1, ?_, ?_⟩ <;> push_cast <;> rw [cast] <;> linarith
  rw [key]
  have e : (clipIx n (⌊X⌋ + 1)).toNat = min (⌊X⌋.toNat + 1) (n - 1) := by unfold clipIx; omega
  rw [e]
  omega

/-- The values of `bilinear`, as those of the interpolation of a field without gaps. -/
theorem bilinear_missing {H W : Nat} (hH : 0 < H) (hW : 0 < W) (image : Nat → Nat → Option K) (x y : K) :
    (Missing.bilinear image H W x y = none ↔ ∃ r c, r < H ∧ c < W ∧ image r c = none ∧ clipCo H y - 1 < r ∧ (r : K) ≤ clipCo H y + 1 ∧
      clipCo W x - 1 < c ∧ (c : K) ≤ clipCo W x + 1) ∧
    (Missing.bilinear image H W x y ≠ none → ∀ g : Nat → Nat → K,
      Missing.bilinear image H W x y = some (Interp.bilinear (fun j i => (image j i).getD (g j i)) H W x y)) := by
  constructor
  · unfold Missing.bilinear
    simp only [plus_times4]
    rw [ite_eq_left_iff]
    constructor
    · intro h
      have h : _ := by_contra fun hn => absurd (h hn) (by simp)
      have mem : ∀ r c, (r = (clipIx H ⌊y⌋).toNat ∨ r = (clipIx H (clipIx H ⌊y⌋ + 1)).toNat) →
          (c = (clipIx W ⌊x⌋).toNat ∨ c = (clipIx W (clipIx W ⌊x⌋ + 1)).toNat) → image r c = none →
          ∃ r c, r < H ∧ c < W ∧ image r c = none ∧ clipCo H y - 1 < r ∧ (r : K) ≤ clipCo H y + 1 ∧ clipCo W x - 1 < c ∧ (c : K) ≤ clipCo W x + 1 := by
        intro r c hr hc hn
        obtain ⟨r1, r2, r3⟩ := (cell_iff hH y r).mp hr
        obtain ⟨c1, c2, c3⟩ := (cell_iff hW x c).mp hc
        exact ⟨r, c, r1, c1, hn, r2, r3, c2, c3⟩
      rcases h with h | h | h | h
      · exact mem _ _ (.inl rfl) (.inl rfl) h
      · exact mem _ _ (.inl rfl) (.inr rfl) h
      · exact mem _ _ (.inr rfl) (.inl rfl) h
      · exact mem _ _ (.inr rfl) (.inr rfl) h
    · rintro ⟨r, c, r1, c1, hn, r2, r3, c2, c3⟩ hno
      exfalso; apply hno
      rcases (cell_iff hH y r).mpr ⟨r1, r2, r3⟩ with rfl | rfl <;> rcases (cell_iff hW x c).mpr ⟨c1, c2, c3⟩ with rfl | rfl
      · exact .inl hn
      · exact .inr (.inl hn)
      · exact .inr (.inr (.inl hn))
      · exact .inr (.inr (.inr hn))
  · unfold Missing.bilinear Interp.bilinear
    simp only [plus_times4]
    intro h g
    split at h
    · exact (h rfl).elim
    · rename_i hno
      rw [if_neg hno]
      simp only [not_or] at hno
      obtain ⟨h1, h2, h3, h4⟩ := hno
      have e : ∀ (p : Option K) (v w : K), p ≠ none → p.getD v = p.getD w := by intro p v w hp; cases p <;> simp_all
      rw [e _ 0 _ h1, e _ 0 _ h2, e _ 0 _ h3, e _ 0 _ h4]

theorem times_none (w : K) (v : Option K) : times w v = none ↔ v = none := by cases v <;> simp [times]

/-- **C164** (partial): a component of the reported flow, which belongs to the place `(y, x)`, is NaN exactly if it is missing at a grid point of the (padded)
flow field with row in `(y - 1, y + 1]` and column in `(x - 1, x + 1]`. Missing from the full claim: the grid points that are exactly one
step below or to the right have no weight (`C164_refuted`). -/
theorem C164_reported_partial (fl : K → K) (a : Args K) (f : FieldN K) (hH : 0 < f.H) (hW : 0 < f.W) (second : Bool) (j i : Nat) :
    comp second ((processSingle fl a f).1.at_ j i) = none ↔
      ∃ r c : Nat, MissingAt a f second r c ∧ rowOf a f j - 1 < r ∧ (r : K) ≤ rowOf a f j + 1 ∧ colOf a f i - 1 < c ∧ (c : K) ≤ colOf a f i + 1 := by
  have h := fun image : Nat → Nat → Option K => (bilinear_missing (K := K) (H := f.H + a.padding.1) (W := f.W + a.padding.2) (by omega) (by omega) image
    (linspace (imageStart a.boundsOffset.2 a.resX a.imgOffset.2 a.resolution)
      (imageStart a.boundsOffset.2 a.resX a.imgOffset.2 a.resolution + (a.imageShape.2 : K) / a.resolution * a.resX - 1) a.newShape.2 i)
    (linspace (imageStart a.boundsOffset.1 a.resY a.imgOffset.1 a.resolution)
      (imageStart a.boundsOffset.1 a.resY a.imgOffset.1 a.resolution + (a.imageShape.1 : K) / a.resolution * a.resY - 1) a.newShape.1 j)).1
  have e : comp second ((processSingle fl a f).1.at_ j i) = none ↔ comp second ((resized a (padEdge a.padding f)).at_ j i) = none := by
    unfold processSingle units
    simp only
    cases a.pixels <;> cases second <;> simp [comp, times_none]
  rw [e]
  cases second
  · refine (h (fun j i => (f.at_ (j - a.padding.1) (i - a.padding.2)).1)).trans ?_
    exact ⟨fun ⟨r, c, h1, h2, h3, h4⟩ => ⟨r, c, ⟨h1, h2, h3⟩, h4⟩, fun ⟨r, c, ⟨h1, h2, h3⟩, h4⟩ => ⟨r, c, h1, h2, h3, h4⟩⟩
  · refine (h (fun j i => (f.at_ (j - a.padding.1) (i - a.padding.2)).2)).trans ?_
    exact ⟨fun ⟨r, c, h1, h2, h3, h4⟩ => ⟨r, c, ⟨h1, h2, h3⟩, h4⟩, fun ⟨r, c, ⟨h1, h2, h3⟩, h4⟩ => ⟨r, c, h1, h2, h3, h4⟩⟩

/-- **C164**: a reported value that is a number does not depend on what is missing: it is the one reported for the flow field with the gaps filled by
any numbers. So is what moves the particles. -/
theorem C164_unaffected (fl : K → K) (a : Args K) (f : FieldN K) (hH : 0 < f.H) (hW : 0 < f.W) (g : Nat → Nat → K × K) (second : Bool) (j i : Nat) (v : K) :
    (comp second ((processSingle fl a f).1.at_ j i) = some v → comp second ((Adapter.processSingle fl a (filled g f)).1.at_ j i) = v) ∧
    (comp second ((processSingle fl a f).2.at_ j i) = some v → comp second ((Adapter.processSingle fl a (filled g f)).2.at_ j i) = v) := by
  have h := fun (image : Nat → Nat → Option K) (x y : K) => (bilinear_missing (K := K) (H := f.H + a.padding.1) (W := f.W + a.padding.2) (by omega) (by omega) image x y).2
  have both : ∀ (w : Nat × Nat) (xs ys : Nat → K), ∀ v, comp second ((sample (padEdge a.padding f) w.1 w.2 ys xs).at_ j i) = some v →
      comp second ((Adapter.sample (Adapter.padEdge a.padding (filled g f)) w.1 w.2 ys xs).at_ j i) = v := by
    intro w xs ys v hv
    cases second
    · have := h (fun j i => (f.at_ (j - a.padding.1) (i - a.padding.2)).1) (xs i) (ys j) (by
        intro hc; simp only [comp, sample, padEdge] at hv; rw [hc] at hv; simp at hv) (fun j i => (g (j - a.padding.1) (i - a.padding.2)).1)
      exact Option.some.inj (this.symm.trans hv)
    · have := h (fun j i => (f.at_ (j - a.padding.1) (i - a.padding.2)).2) (xs i) (ys j) (by
        intro hc; simp only [comp, sample, padEdge] at hv; simp at hv; rw [hc] at hv; simp at hv) (fun j i => (g (j - a.padding.1) (i - a.padding.2)).2)
      exact Option.some.inj (this.symm.trans hv)
  constructor
  · intro hv
    unfold processSingle units at hv
    unfold Adapter.processSingle Adapter.units
    simp only at hv ⊢
    cases hp : a.pixels
    · rw [hp] at hv
      exact both _ _ _ _ hv
    · rw [hp] at hv
      simp only [if_true] at hv ⊢
      have key : ∃ u, comp second ((resized a (padEdge a.padding f)).at_ j i) = some u ∧ v = (a.resolution * a.dt) * u := by
        cases second
        · simp only [comp] at hv ⊢
          cases hu : ((resized a (padEdge a.padding f)).at_ j i).1 with
          | none => rw [hu] at hv; simp [times] at hv
          | some u => rw [hu] at hv; simp [times] at hv; exact ⟨u, by simp, hv.symm⟩
        · simp only [comp] at hv ⊢
          cases hu : ((resized a (padEdge a.padding f)).at_ j i).2 with
          | none => rw [hu] at hv; simp [times] at hv
          | some u => rw [hu] at hv; simp [times] at hv; exact ⟨u, by simp, hv.symm⟩
      obtain ⟨u, hu, rfl⟩ := key
      have := both _ _ _ _ hu
      cases second
      · exact (congrArg (· * (a.resolution * a.dt)) this).trans (mul_comm _ _)
      · exact (congrArg (· * (a.resolution * a.dt)) this).trans (mul_comm _ _)
  · intro hv
    exact both (count fl a.bounds.1 a.resolution a.resY, count fl a.bounds.2 a.resolution a.resX) _ _ _ hv

theorem le_add_one_iff {y : K} (hy : ∀ n : Int, y ≠ n) (r : Nat) : (r : K) ≤ y + 1 ↔ (r : K) < y + 1 := by
  refine ⟨fun h => lt_of_le_of_ne h fun e => hy ((r : Int) - 1) ?_, le_of_lt⟩
  push_cast
  linarith

/-- **C164** between the grid lines: if a reported component belongs to a place that is not on a grid line, it is NaN exactly if it is missing at a grid point
less than one step away in both directions, i.e. at one that has a weight. -/
theorem C164_between (fl : K → K) (a : Args K) (f : FieldN K) (hH : 0 < f.H) (hW : 0 < f.W) (second : Bool) (j i : Nat)
    (hy : ∀ n : Int, rowOf a f j ≠ n) (hx : ∀ n : Int, colOf a f i ≠ n) :
    comp second ((processSingle fl a f).1.at_ j i) = none ↔ ∃ r c : Nat, MissingAt a f second r c ∧ |(r : K) - rowOf a f j| < 1 ∧ |(c : K) - colOf a f i| < 1 := by
  rw [C164_reported_partial fl a f hH hW]
  constructor
  · rintro ⟨r, c, h, h1, h2, h3, h4⟩
    rw [le_add_one_iff hy] at h2
    rw [le_add_one_iff hx] at h4
    exact ⟨r, c, h, abs_lt.mpr ⟨by linarith, by linarith⟩, abs_lt.mpr ⟨by linarith, by linarith⟩⟩
  · rintro ⟨r, c, h, h1, h2⟩
    rw [abs_lt] at h1 h2
    exact ⟨r, c, h, by linarith, by linarith, by linarith, by linarith⟩

/-- **C164** fails on the grid: what is reported for a grid point is NaN if only its right neighbour, the one below, or the one below that is missing. -/
theorem C164_smears (fl : K → K) (a : Args K) (f : FieldN K) (hH : 0 < f.H) (hW : 0 < f.W) (second : Bool) (j i r c : Nat)
    (hr : rowOf a f j = r) (hc : colOf a f i = c) (dr dc : Nat) (hdr : dr ≤ 1) (hdc : dc ≤ 1) (hm : MissingAt a f second (r + dr) (c + dc)) :
    comp second ((processSingle fl a f).1.at_ j i) = none := by
  rw [C164_reported_partial fl a f hH hW]
  have e1 : ((dr : Nat) : K) ≤ 1 := by exact_mod_cast hdr
  have e2 : ((dc : Nat) : K) ≤ 1 := by exact_mod_cast hdc
  have e3 : (0 : K) ≤ dr := Nat.cast_nonneg _
  have e4 : (0 : K) ≤ dc := Nat.cast_nonneg _
  exact ⟨_, _, hm, by rw [hr]; push_cast; linarith, by rw [hr]; push_cast; linarith, by rw [hc]; push_cast; linarith, by rw [hc]; push_cast; linarith⟩

/-- **C164** in a batch: item `b` is NaN because of gaps in its own flow field, number `b` modulo their number, and in no other. -/
theorem C164_batch (fl : K → K) (a : Args K) (flows : List (FieldN K)) (hne : flows ≠ []) (hsize : ∀ f ∈ flows, 0 < f.H ∧ 0 < f.W) :
    ∃ outs regions, adapter fl a flows = .ok (outs, regions) ∧ outs.length = a.batchSize ∧
      ∀ b : Nat, b < a.batchSize → ∃ f out, flows[b % flows.length]? = some f ∧ outs[b]? = some out ∧ ∀ (second : Bool) (j i : Nat),
        (comp second (out.at_ j i) = none ↔ ∃ r c : Nat, MissingAt a f second r c ∧ rowOf a f j - 1 < r ∧ (r : K) ≤ rowOf a f j + 1 ∧
          colOf a f i - 1 < c ∧ (c : K) ≤ colOf a f i + 1) := by
  have hpos : 0 < flows.length := List.length_pos_iff.2 hne
  have ht := tile_take ((flows.map (processSingle fl a)).map Prod.fst) (by simpa using hne) a.batchSize
  simp only [List.length_map] at ht
  refine ⟨_, _, by unfold adapter; rw [if_neg (by omega)], ht.1, ?_⟩
  intro b hb
  have hlt : b % flows.length < flows.length := Nat.mod_lt _ hpos
  have hs := hsize _ (List.getElem_mem hlt)
  refine ⟨flows[b % flows.length], (processSingle fl a flows[b % flows.length]).1, List.getElem?_eq_getElem hlt, ?_, fun second j i =>
    C164_reported_partial fl a _ hs.1 hs.2 second j i⟩
  rw [ht.2 b hb]
  simp [List.getElem?_eq_getElem hlt]

/-- A flow field of 4 by 4 grid points, the vector at row 2 and column 2 missing. -/
def demoGap : FieldN ℚ := { H := 4, W := 4, at_ := fun r c => if r = 2 ∧ c = 2 then (none, none) else (some (r : ℚ), some (c : ℚ)) }

/-- The arguments for which the reported flow is the flow field itself. -/
def demoSame : Args ℚ :=
  { newShape := (4, 4), imageShape := (4, 4), imgOffset := (0, 0), resolution := 1, resX := 1, resY := 1, bounds := (4, 4), boundsOffset := (0, 0),
    batchSize := 1, pixels := true, dt := 1, padding := (0, 0) }

/-- The same image at twice the density of the grid, between whose lines it lies. -/
def demoFine : Args ℚ := { demoSame with newShape := (6, 6), imageShape := (5, 5), resolution := 2, bounds := (5, 5) }

/-- **C164** fails: one missing vector is reported as four, although each place has its own vector in the file. -/
theorem C164_refuted : (∀ r < 4, rowOf demoSame demoGap r = r ∧ colOf demoSame demoGap r = r) ∧
    (∀ r < 4, ∀ c < 4, ((demoGap.at_ r c).1 = none ↔ r = 2 ∧ c = 2)) ∧
    (∀ r < 4, ∀ c < 4, (((processSingle id demoSame demoGap).1.at_ r c).1 = none ↔ (r = 1 ∨ r = 2) ∧ (c = 1 ∨ c = 2))) := by
  refine ⟨?_, ?_, ?_⟩
  · decide +kernel
  · decide +kernel
  · decide +kernel

/-- The hypotheses of `C164_smears` and of `C164_between` are met. -/
example : rowOf demoSame demoGap 1 = (1 : ℕ) ∧ colOf demoSame demoGap 2 = (2 : ℕ) ∧ MissingAt demoSame demoGap false (1 + 1) (2 + 0) := by
  refine ⟨?_, ?_, ?_, ?_, ?_⟩ <;> decide +kernel

example : rowOf demoFine demoGap 1 = 3/10 ∧ ((processSingle id demoFine demoGap).1.at_ 1 1).1 = some (3/5) ∧
    ((processSingle id demoFine demoGap).1.at_ 4 4).1 = none ∧ (∀ n : Int, rowOf demoFine demoGap 4 ≠ n) := by
  have h : rowOf demoFine demoGap 4 = 6/5 := by decide +kernel
  refine ⟨by decide +kernel, by decide +kernel, by decide +kernel, fun n e => ?_⟩
  rw [h] at e
  have : (6 : ℚ) = 5 * n := by linarith
  have : (6 : Int) = 5 * n := by exact_mod_cast this
  omega

/-- Filled with numbers, the field gives the same number where one is reported. -/
example : ((Adapter.processSingle id demoFine (filled (fun _ _ => (77, -5)) demoGap)).1.at_ 1 1).1 = 3/5 := by decide +kernel

/-- Two fields for a batch of three: only the second one, which has no gap, is reported without NaN. -/
example : ∃ outs regions, adapter id { demoSame with batchSize := 3 } [demoGap, { demoGap with at_ := fun _ _ => (some 1, some 2) }] = .ok (outs, regions) ∧
    outs.map (fun f => (f.at_ 2 2).1) = [none, some 1, none] := ⟨_, _, rfl, by decide +kernel⟩

/-- A flow field without missing values. -/
def complete (f : Field2 K) : FieldN K := { H := f.H, W := f.W, at_ := fun j i => (some (f.at_ j i).1, some (f.at_ j i).2) }

/-- **C164** if nothing is missing: the adapter does what it does in `Model/Adapter.lean`, also for an empty batch. -/
theorem C164_present (fl : K → K) (a : Args K) (flows : List (Field2 K)) :
    adapter fl a (flows.map complete) = (Adapter.adapter fl a flows).map (fun out => (out.1.map complete, out.2.map complete)) := by
  have hb : ∀ (image : Nat → Nat → K) (H W : Nat) (x y : K), Missing.bilinear (fun j i => some (image j i)) H W x y = some (Interp.bilinear image H W x y) := by
    intro image H W x y; rfl
  have hs : ∀ f : Field2 K, processSingle fl a (complete f) = (complete (Adapter.processSingle fl a f).1, complete (Adapter.processSingle fl a f).2) := by
    intro f
    unfold processSingle Adapter.processSingle units Adapter.units
    cases a.pixels
    · rfl
    · simp only [if_true]
      refine Prod.ext ?_ rfl
      simp only [complete, resized, Adapter.resized, sample, Adapter.sample, padEdge, Adapter.padEdge, hb, times, FieldN.mk.injEq, true_and]
      funext j i
      rw [mul_comm (a.resolution * a.dt), mul_comm (a.resolution * a.dt)]
  unfold adapter Adapter.adapter
  rw [List.length_map]
  by_cases h : flows.length = 0
  · rw [if_pos h, if_pos h]; rfl
  · rw [if_neg h, if_neg h]
    simp only [Except.map, List.map_map, List.map_take, List.map_flatten, List.map_replicate]
    have e : (processSingle fl a ∘ complete) = fun f => (complete (Adapter.processSingle fl a f).1, complete (Adapter.processSingle fl a f).2) := funext hs
    simp only [Function.comp_def, hs]

end Verif.Missing
