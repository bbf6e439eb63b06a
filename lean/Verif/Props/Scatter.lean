import Verif.Spec.Scatter
import Verif.Proofs.Rounding
import Verif.Props.Render
import Mathlib.Algebra.Order.Ring.Pow
import Mathlib.Tactic.Positivity
import Mathlib.Tactic.GCongr
/-!
# C166: the order in which particles are added to the image
-/

namespace Verif.Render

set_option linter.unusedSectionVars false

variable {K : Type*} [Field K] [LinearOrder K] [IsStrictOrderedRing K] [FloorRing K]

theorem Sum.terms_pos (t : Sum K) : 0 < t.terms.length := by
  induction t with
  | term v => simp [Sum.terms]
  | plus k a b ia ib => simp only [Sum.terms, List.length_append]; omega

/-- A sum of numbers that are not negative has the relative error of as many additions as there are, at most. -/
theorem Sum.bounds {u : K} (hu0 : 0 ≤ u) (hu1 : u ≤ 1) {r : Nat → K → K} (hr : RoundsTo u r) (t : Sum K) (ht : ∀ v ∈ t.terms, 0 ≤ v) :
    (1 - u) ^ (t.terms.length - 1) * t.terms.sum ≤ t.value r ∧ t.value r ≤ (1 + u) ^ (t.terms.length - 1) * t.terms.sum := by
  induction t with
  | term v => simp [Sum.terms, Sum.value]
  | plus k a b ia ib =>
    simp only [Sum.terms, List.mem_append] at ht
    have ia := ia (fun v hv => ht v (.inl hv))
    have ib := ib (fun v hv => ht v (.inr hv))
    have pa := a.terms_pos
    have pb := b.terms_pos
    have sa : 0 ≤ a.terms.sum := List.sum_nonneg (fun v hv => ht v (.inl hv))
    have sb : 0 ≤ b.terms.sum := List.sum_nonneg (fun v hv => ht v (.inr hv))
    simp only [Sum.terms, Sum.value, List.length_append, List.sum_append]
    set n := a.terms.length + b.terms.length - 2 with hn
    have en : a.terms.length + b.terms.length - 1 = n + 1 := by omega
    rw [en]
    have l1 : (0 : K) ≤ 1 - u := by linarith
    have l2 : (1 : K) - u ≤ 1 := by linarith
    have l3 : (1 : K) ≤ 1 + u := by linarith
    have up : a.value r + b.value r ≤ (1 + u) ^ n * (a.terms.sum + b.terms.sum) := by
      have e1 : (1 + u) ^ (a.terms.length - 1) ≤ (1 + u) ^ n := pow_le_pow_right₀ l3 (by omega)
      have e2 : (1 + u) ^ (b.terms.length - 1) ≤ (1 + u) ^ n := pow_le_pow_right₀ l3 (by omega)
      have := mul_le_mul_of_nonneg_right e1 sa
      have := mul_le_mul_of_nonneg_right e2 sb
      rw [mul_add]
      linarith [ia.2, ib.2]
    have lo : (1 - u) ^ n * (a.terms.sum + b.terms.sum) ≤ a.value r + b.value r := by
      have e1 : (1 - u) ^ n ≤ (1 - u) ^ (a.terms.length - 1) := pow_le_pow_of_le_one l1 l2 (by omega)
      have e2 : (1 - u) ^ n ≤ (1 - u) ^ (b.terms.length - 1) := pow_le_pow_of_le_one l1 l2 (by omega)
      have := mul_le_mul_of_nonneg_right e1 sa
      have := mul_le_mul_of_nonneg_right e2 sb
      rw [mul_add]
      linarith [ia.1, ib.1]
    have s0 : 0 ≤ a.value r + b.value r := le_trans (by positivity) lo
    have h := abs_le.1 (hr k (a.value r + b.value r))
    rw [abs_of_nonneg s0] at h
    constructor
    · calc (1 - u) ^ (n + 1) * (a.terms.sum + b.terms.sum) = (1 - u) * ((1 - u) ^ n * (a.terms.sum + b.terms.sum)) := by ring
        _ ≤ (1 - u) * (a.value r + b.value r) := mul_le_mul_of_nonneg_left lo l1
        _ ≤ _ := by linarith [h.1]
    · calc r k (a.value r + b.value r) ≤ (1 + u) * (a.value r + b.value r) := by linarith [h.2]
        _ ≤ (1 + u) * ((1 + u) ^ n * (a.terms.sum + b.terms.sum)) := mul_le_mul_of_nonneg_left up (by linarith)
        _ = _ := by ring

theorem hits_sum (H W : Nat) (us : List (Int × Int × K)) (j i : Nat) : (hits H W us j i).sum = (us.map (effect H W j i)).sum := by
  induction us with
  | nil => rfl
  | cons u us ih =>
    unfold hits at ih ⊢
    rw [List.filterMap_cons, List.map_cons, List.sum_cons]
    unfold effect at ih ⊢
    by_cases h : normIndex H u.1 = some j ∧ normIndex W u.2.1 = some i
    · rw [if_pos h, if_pos h]; simp only [List.sum_cons]; rw [ih]
    · rw [if_neg h, if_neg h]; simp only; rw [ih, zero_add]

theorem hits_accurate {δ : K} {us us' : List (Int × Int × K)} (h : Accurate δ us us') (H W j i : Nat) :
    List.Forall₂ (fun c c' => |c' - c| ≤ δ * c) (hits H W us j i) (hits H W us' j i) := by
  unfold hits
  induction h with
  | nil => exact .nil
  | @cons u u' us us' h _ ih =>
    rw [List.filterMap_cons, List.filterMap_cons, h.1, h.2.1]
    split
    · rename_i hn; split at hn
      · simp at hn
      · rename_i hc; rw [if_neg hc]; exact ih
    · rename_i c hn; split at hn
      · rename_i hc
        rw [if_pos hc]
        simp only [Option.some.injEq] at hn
        subst hn
        exact .cons h.2.2 ih
      · simp at hn

theorem forall2_sum {δ : K} {cs cs' : List K} (h : List.Forall₂ (fun c c' => |c' - c| ≤ δ * c) cs cs') : |cs'.sum - cs.sum| ≤ δ * cs.sum := by
  induction h with
  | nil => simp
  | @cons c c' cs cs' h _ ih =>
    simp only [List.sum_cons]
    rw [abs_le] at *
    constructor <;> linarith [h.1, h.2, ih.1, ih.2, mul_add δ c cs.sum]

theorem forall2_nonneg {δ : K} (hδ : δ ≤ 1) {cs cs' : List K} (h : List.Forall₂ (fun c c' => |c' - c| ≤ δ * c) cs cs') (hc : ∀ c ∈ cs, 0 ≤ c) :
    ∀ c ∈ cs', 0 ≤ c := by
  induction h with
  | nil => simp
  | @cons c c' cs cs' h _ ih =>
    intro x hx
    rcases List.mem_cons.mp hx with rfl | hx
    · have h0 := hc c (List.mem_cons_self ..)
      have := (abs_le.1 h).1
      have := mul_le_mul_of_nonneg_right hδ h0
      linarith
    · exact ih (fun c hm => hc c (List.mem_cons_of_mem _ hm)) x hx

theorem updates_nonneg {exp fl : K → K} (he : ∀ x, 0 ≤ exp x) {r H W : Nat} {ps : List (Particle K)} (hp : ∀ p ∈ ps, 0 ≤ p.amp) (j i : Nat) :
    ∀ c ∈ hits H W (ps.flatMap (patch exp fl r H W)) j i, 0 ≤ c := by
  intro c hc
  unfold hits at hc
  rw [List.mem_filterMap] at hc
  obtain ⟨u, hu, hc⟩ := hc
  split at hc
  · simp only [Option.some.injEq] at hc
    subst hc
    rw [List.mem_flatMap] at hu
    obtain ⟨p, hp', hu⟩ := hu
    obtain ⟨a, _, hu⟩ := List.mem_flatMap.1 hu
    obtain ⟨b, _, rfl⟩ := List.mem_map.1 hu
    exact mul_nonneg (hp p hp') (he _)
  · simp at hc

/-- **C166** before clipping: let `n` updates fall on a pixel, each computed with a relative error of at most `δ`, and each addition with one of at most `u`. In
whatever order and grouping they are added, the pixel has the value of exact arithmetic up to a relative error of `(1 + δ) (1 + u)^n - 1`. -/
theorem C166_unclipped {u δ : K} (hu0 : 0 ≤ u) (hu1 : u ≤ 1) (hδ0 : 0 ≤ δ) (hδ1 : δ ≤ 1) {rd : Nat → K → K} (hr : RoundsTo u rd) {exp fl : K → K}
    (he : ∀ x, 0 ≤ exp x) (r H W : Nat) (ps : List (Particle K)) (hp : ∀ p ∈ ps, 0 ≤ p.amp) (us : List (Int × Int × K))
    (hus : Accurate δ (ps.flatMap (patch exp fl r H W)) us) (j i : Nat) (v : K) (hv : MayBe rd H W us j i v) :
    |v - render exp fl r H W ps j i| ≤ ((1 + δ) * (1 + u) ^ (hits H W us j i).length - 1) * render exp fl r H W ps j i := by
  obtain ⟨t, ht, rfl⟩ := hv
  have hacc := hits_accurate hus H W j i
  have hn := updates_nonneg (fl := fl) he (r := r) (H := H) (W := W) hp j i
  have hn' := forall2_nonneg hδ1 hacc hn
  have hs := forall2_sum hacc
  have e : (hits H W (ps.flatMap (patch exp fl r H W)) j i).sum = render exp fl r H W ps j i := by
    rw [hits_sum]; unfold render; rw [foldl_scatter, zero_add]
  rw [e] at hs
  have hb := t.bounds hu0 hu1 hr (fun v hv => by
    rcases List.mem_cons.mp (ht.mem_iff.mp hv) with rfl | h
    · exact le_refl _
    · exact hn' v h)
  rw [ht.sum_eq, ht.length_eq, List.sum_cons, zero_add, List.length_cons, Nat.add_sub_cancel] at hb
  set n := (hits H W us j i).length
  set S := (hits H W us j i).sum
  set R := render exp fl r H W ps j i
  have hR : 0 ≤ R := e ▸ List.sum_nonneg hn
  have hS : 0 ≤ S := List.sum_nonneg hn'
  obtain ⟨s1, s2⟩ := abs_le.1 hs
  have b1 : 1 + n * u ≤ (1 + u) ^ n := one_add_mul_le_pow (by linarith) n
  have b2 : 1 - n * u ≤ (1 - u) ^ n := by
    have := one_add_mul_le_pow (a := -u) (by linarith) n
    rw [← sub_eq_add_neg] at this
    linarith
  have p1 : 1 ≤ (1 + u) ^ n := one_le_pow₀ (by linarith)
  have p2 : (0 : K) ≤ (1 - u) ^ n := pow_nonneg (by linarith) n
  rw [abs_le]
  constructor
  · have h1 : (1 - δ) * R ≤ S := by linarith
    have h2 : (1 - u) ^ n * ((1 - δ) * R) ≤ (1 - u) ^ n * S := mul_le_mul_of_nonneg_left h1 p2
    have h3 : (2 - (1 + δ) * (1 + u) ^ n) ≤ (1 - u) ^ n * (1 - δ) := by
      have hsum : 2 ≤ (1 + u) ^ n + (1 - u) ^ n := by linarith
      have : (1 - u) ^ n ≤ (1 + u) ^ n := pow_le_pow_left₀ (by linarith) (by linarith) n
      nlinarith
    have h4 := mul_le_mul_of_nonneg_right h3 hR
    have h5 : (1 - u) ^ n * (1 - δ) * R = (1 - u) ^ n * ((1 - δ) * R) := by ring
    linarith [hb.1]
  · have h1 : S ≤ (1 + δ) * R := by linarith
    have h2 : (1 + u) ^ n * S ≤ (1 + u) ^ n * ((1 + δ) * R) := mul_le_mul_of_nonneg_left h1 (by linarith)
    have : ((1 + δ) * (1 + u) ^ n - 1) * R = (1 + u) ^ n * ((1 + δ) * R) - R := by ring
    linarith [hb.2]

theorem flatMap_le_one {A B : Type*} (f : A → List B) : ∀ (l : List A), l.Nodup → (∀ a ∈ l, (f a).length ≤ 1) →
    (∀ a ∈ l, ∀ b ∈ l, f a ≠ [] → f b ≠ [] → a = b) → (l.flatMap f).length ≤ 1
  | [], _, _, _ => by simp
  | a :: l, hd, h1, h2 => by
    rw [List.flatMap_cons, List.length_append]
    rw [List.nodup_cons] at hd
    by_cases ha : f a = []
    · rw [ha, List.length_nil, Nat.zero_add]
      exact flatMap_le_one f l hd.2 (fun b hb => h1 b (List.mem_cons_of_mem _ hb))
        (fun b hb c hc => h2 b (List.mem_cons_of_mem _ hb) c (List.mem_cons_of_mem _ hc))
    · have : l.flatMap f = [] := by
        rw [List.flatMap_eq_nil_iff]
        intro b hb
        by_contra hne
        have := h2 a (List.mem_cons_self ..) b (List.mem_cons_of_mem _ hb) ha hne
        exact hd.1 (this ▸ hb)
      rw [this]
      exact h1 a (List.mem_cons_self ..)

theorem normIndex_window {n j : Nat} {t : Int} {a b m : Nat} (hm : m ≤ n) (ha : a < m) (hb : b < m) (h1 : normIndex n ((a : Int) + t) = some j)
    (h2 : normIndex n ((b : Int) + t) = some j) : a = b := by
  unfold normIndex at h1 h2
  dsimp only at h1 h2
  split at h1 <;> split at h1 <;> simp only [Option.some.injEq, reduceCtorEq] at h1 <;>
  split at h2 <;> split at h2 <;> simp only [Option.some.injEq, reduceCtorEq] at h2 <;> omega

/-- A particle adds to a pixel once at most. -/
theorem patch_hits (exp fl : K → K) {r H W : Nat} (hH : 2 * r + 1 ≤ H) (hW : 2 * r + 1 ≤ W) (p : Particle K) (j i : Nat) :
    (hits H W (patch exp fl r H W p) j i).length ≤ 1 := by
  unfold hits patch
  dsimp only
  rw [List.filterMap_flatMap]
  refine flatMap_le_one _ _ List.nodup_range (fun a ha => ?_) (fun a ha b hb h1 h2 => ?_)
  · rw [List.filterMap_map, List.filterMap_eq_flatMap_toList]
    refine flatMap_le_one _ _ List.nodup_range (fun b hb => ?_) (fun b hb c hc h1 h2 => ?_)
    · simp only [Function.comp]; split <;> simp
    · simp only [Function.comp] at h1 h2
      split at h1
      · rename_i e1
        split at h2
        · rename_i e2
          exact normIndex_window hW (List.mem_range.1 hb) (List.mem_range.1 hc) e1.2 e2.2
        · simp at h2
      · simp at h1
  · have get : ∀ a : Nat, List.filterMap (fun u : Int × Int × K => if normIndex H u.1 = some j ∧ normIndex W u.2.1 = some i then some u.2.2 else none)
        ((List.range (2 * r + 1)).map (fun b : Nat => ((a : Int) + topLeft fl r H p.y, (b : Int) + topLeft fl r W p.x,
          gaussian exp (((b : Int) - r : Int) - (clipPos fl r W p.x - ((topLeft fl r W p.x + r : Int) : K)))
            (((a : Int) - r : Int) - (clipPos fl r H p.y - ((topLeft fl r H p.y + r : Int) : K))) 0 0 (p.dx / 2) (p.dy / 2) p.rho p.amp))) ≠ [] →
        normIndex H ((a : Int) + topLeft fl r H p.y) = some j := by
      intro a h
      obtain ⟨v, hv⟩ := List.exists_mem_of_ne_nil _ h
      obtain ⟨u, hu, hv⟩ := List.mem_filterMap.1 hv
      obtain ⟨b, _, rfl⟩ := List.mem_map.1 hu
      split at hv
      · rename_i e; exact e.1
      · simp at hv
    exact normIndex_window hH (List.mem_range.1 ha) (List.mem_range.1 hb) (get a h1) (get b h2)

theorem hits_le (exp fl : K → K) {r H W : Nat} (hH : 2 * r + 1 ≤ H) (hW : 2 * r + 1 ≤ W) (ps : List (Particle K)) (j i : Nat) :
    (hits H W (ps.flatMap (patch exp fl r H W)) j i).length ≤ ps.length := by
  induction ps with
  | nil => simp [hits]
  | cons p ps ih =>
    have h1 := patch_hits exp fl hH hW p j i
    unfold hits at ih h1 ⊢
    rw [List.flatMap_cons, List.filterMap_append, List.length_append, List.length_cons]
    omega

theorem clip_err {e v R : K} (he : 0 ≤ e) (hR : 0 ≤ R) (h : |v - R| ≤ e * R) : |min (max v 0) 255 - min (max R 0) 255| ≤ e * 255 := by
  rw [max_eq_left hR]
  rw [abs_le] at h
  rcases le_total R 255 with h1 | h1
  · rw [min_eq_left h1]
    have : e * R ≤ e * 255 := mul_le_mul_of_nonneg_left h1 he
    rw [abs_le]
    constructor
    · have : R - e * 255 ≤ min (max v 0) 255 := le_min (le_trans (by linarith [h.1]) (le_max_left _ _)) (by nlinarith)
      linarith
    · have : min (max v 0) 255 ≤ max v 0 := min_le_left _ _
      have : max v 0 ≤ R + e * 255 := max_le (by linarith [h.2]) (by nlinarith)
      linarith
  · rw [min_eq_right h1]
    rw [abs_le]
    constructor
    · have h2 : 255 - e * 255 ≤ v ∨ 1 ≤ e := by
        by_contra hc
        rw [not_or, not_le, not_le] at hc
        nlinarith [h.1]
      have : 255 - e * 255 ≤ min (max v 0) 255 := by
        refine le_min ?_ (by nlinarith)
        rcases h2 with h2 | h2
        · exact le_trans h2 (le_max_left _ _)
        · exact le_trans (by nlinarith) (le_max_right _ _)
      linarith
    · have : min (max v 0) 255 ≤ 255 := min_le_right _ _
      nlinarith

theorem pow_sub_one_le {u : K} (hu0 : 0 ≤ u) (n : Nat) (hn : (n : K) * u ≤ 1 / 2) : (1 + u) ^ n - 1 ≤ 2 * (n * u) := by
  rcases Nat.eq_zero_or_pos n with rfl | hpos
  · simp
  have hu1 : u ≤ 1 / 2 := by
    have : (1 : K) ≤ n := by exact_mod_cast hpos
    nlinarith
  have b2 : 1 - n * u ≤ (1 - u) ^ n := by
    have := one_add_mul_le_pow (a := -u) (by linarith) n
    rw [← sub_eq_add_neg] at this
    linarith
  have h : (1 + u) ^ n * (1 - u) ^ n ≤ 1 := by
    rw [← mul_pow]
    exact pow_le_one₀ (by nlinarith) (by nlinarith)
  have p1 : 1 ≤ (1 + u) ^ n := one_le_pow₀ (by linarith)
  have h2 : (1 + u) ^ n * (1 - n * u) ≤ 1 := le_trans (mul_le_mul_of_nonneg_left b2 (by linarith)) h
  have n0 : 0 ≤ (n : K) * u := by positivity
  nlinarith

/-- **C166** for the image: the patches fit into the image, `fl` is any rounding of the positions, and no particle takes light away. The machine computes the contributions of
the particles with relative errors of at most `δ`, and adds them with relative errors of at most `u` in any order and grouping. Then every pixel, clipped to `[0, 255]`, is that
of exact arithmetic up to `255 ((1 + δ) (1 + u)^N - 1)` grey levels, where `N` is the number of particles. -/
theorem C166_pixel {u δ : K} (hu0 : 0 ≤ u) (hu1 : u ≤ 1) (hδ0 : 0 ≤ δ) (hδ1 : δ ≤ 1) {rd : Nat → K → K} (hr : RoundsTo u rd) {exp fl : K → K} (he : ∀ x, 0 ≤ exp x)
    (H W : Nat) (maxDiameter : K) (hH : 2 * patchRadius maxDiameter + 1 ≤ H) (hW : 2 * patchRadius maxDiameter + 1 ≤ W)
    (ps : List (Particle K)) (hp : ∀ p ∈ ps, 0 ≤ p.amp) (us : List (Int × Int × K))
    (hus : Accurate δ (ps.flatMap (patch exp fl (patchRadius maxDiameter) H W)) us) (j i : Nat) (v : K) (hv : MayBe rd H W us j i v) :
    |min (max v 0) 255 - imgGen exp fl H W maxDiameter ps true j i| ≤ ((1 + δ) * (1 + u) ^ ps.length - 1) * 255 := by
  have h := C166_unclipped hu0 hu1 hδ0 hδ1 hr he (patchRadius maxDiameter) H W ps hp us hus j i v hv
  have hn : (hits H W us j i).length ≤ ps.length := by
    rw [← (hits_accurate hus H W j i).length_eq]
    exact hits_le exp fl hH hW ps j i
  have hR : 0 ≤ render exp fl (patchRadius maxDiameter) H W ps j i := by
    have := List.sum_nonneg (updates_nonneg (fl := fl) he (r := patchRadius maxDiameter) (H := H) (W := W) hp j i)
    rw [hits_sum] at this
    unfold render; rw [foldl_scatter, zero_add]; exact this
  have hpow := pow_le_pow_right₀ (show (1 : K) ≤ 1 + u by linarith) hn
  have h1 : 1 ≤ (1 + u) ^ ps.length := one_le_pow₀ (by linarith)
  have hmul := mul_le_mul_of_nonneg_left hpow (show 0 ≤ 1 + δ by linarith)
  have := clip_err (e := (1 + δ) * (1 + u) ^ ps.length - 1) (by nlinarith) hR (h.trans (mul_le_mul_of_nonneg_right (by linarith) hR))
  unfold imgGen
  simpa only [if_true] using this

/-- **C166**: two runs that add the same contributions of `N` particles in different orders: no pixel differs by more than `255 (4 N u)` grey levels. -/
theorem C166_two_runs {u δ : K} (hu0 : 0 ≤ u) (hδ1 : δ ≤ 1) {rd rd' : Nat → K → K} (hr : RoundsTo u rd) (hr' : RoundsTo u rd') {exp fl : K → K} (he : ∀ x, 0 ≤ exp x)
    {r H W : Nat} (hH : 2 * r + 1 ≤ H) (hW : 2 * r + 1 ≤ W) (ps : List (Particle K)) (hp : ∀ p ∈ ps, 0 ≤ p.amp) (hN : (ps.length : K) * u ≤ 1 / 2)
    (us : List (Int × Int × K)) (hus : Accurate δ (ps.flatMap (patch exp fl r H W)) us) (j i : Nat) (v v' : K) (hv : MayBe rd H W us j i v)
    (hv' : MayBe rd' H W us j i v') :
    |min (max v 0) 255 - min (max v' 0) 255| ≤ 255 * (4 * ps.length * u) := by
  have hacc := hits_accurate hus H W j i
  have hn' := forall2_nonneg hδ1 hacc (updates_nonneg (fl := fl) he (r := r) (H := H) (W := W) hp j i)
  have hle : (hits H W us j i).length ≤ ps.length := by rw [← hacc.length_eq]; exact hits_le exp fl hH hW ps j i
  have hS : 0 ≤ (hits H W us j i).sum := List.sum_nonneg hn'
  have one : ∀ (rd : Nat → K → K) (v : K), RoundsTo u rd → MayBe rd H W us j i v →
      |min (max v 0) 255 - min (max (hits H W us j i).sum 0) 255| ≤ 2 * (ps.length * u) * 255 := by
    rintro rd v hr ⟨t, ht, rfl⟩
    refine clip_err (by positivity) hS ?_
    rcases Nat.eq_zero_or_pos ps.length with h0 | hpos
    · have e0 : hits H W us j i = [] := List.length_eq_zero_iff.1 (by omega)
      rw [e0] at ht
      have : t.value rd = 0 := by
        cases t with
        | term v => simpa [Sum.terms, Sum.value] using ht
        | plus k a b =>
          have := ht.length_eq
          simp only [Sum.terms, List.length_append, List.length_singleton] at this
          have pa := a.terms_pos
          have pb := b.terms_pos
          omega
      rw [e0, this]; simp
    have hu1 : u ≤ 1 := by
      have : (1 : K) ≤ ps.length := by exact_mod_cast hpos
      nlinarith
    have hb := t.bounds hu0 hu1 hr (fun v hv => by
      rcases List.mem_cons.mp (ht.mem_iff.mp hv) with rfl | h
      · exact le_refl _
      · exact hn' v h)
    rw [ht.sum_eq, ht.length_eq, List.sum_cons, zero_add, List.length_cons, Nat.add_sub_cancel] at hb
    have hpow := pow_le_pow_right₀ (show (1 : K) ≤ 1 + u by linarith) hle
    have hlin := pow_sub_one_le hu0 ps.length hN
    have hlow : 1 - ps.length * u ≤ (1 - u) ^ (hits H W us j i).length := by
      have h1 : 1 - ps.length * u ≤ (1 - u) ^ ps.length := by
        have := one_add_mul_le_pow (a := -u) (by linarith) ps.length
        rw [← sub_eq_add_neg] at this
        linarith
      exact h1.trans (pow_le_pow_of_le_one (by linarith) (by linarith) hle)
    have m1 := mul_le_mul_of_nonneg_right hlow hS
    have m2 := mul_le_mul_of_nonneg_right (show (1 + u) ^ (hits H W us j i).length ≤ 1 + 2 * (ps.length * u) by linarith) hS
    have n0 : 0 ≤ (ps.length : K) * u * (hits H W us j i).sum := by positivity
    rw [abs_le]
    constructor <;> linarith [hb.1, hb.2]
  have h1 := abs_le.1 (one rd v hr hv)
  have h2 := abs_le.1 (one rd' v' hr' hv')
  rw [abs_le]
  constructor <;> linarith [h1.1, h1.2, h2.1, h2.2]

theorem seqSum (r : Nat → K → K) : ∀ (vs : List K) (t : Sum K) (k : Nat), ∃ t' : Sum K, t'.terms = t.terms ++ vs ∧
    t'.value r = (vs.foldl (fun s v => (s.1 + 1, r s.1 (s.2 + v))) (k, t.value r)).2
  | [], t, k => ⟨t, by simp, rfl⟩
  | v :: vs, t, k => by
    obtain ⟨t', h1, h2⟩ := seqSum r vs (.plus k t (.term v)) (k + 1)
    exact ⟨t', by rw [h1]; simp [Sum.terms], by rw [h2]; rfl⟩

/-- **C166**: a machine that adds one contribution after the other, in the order of the code, is among those considered; in exact arithmetic it gives `render`. -/
theorem C166_sequential (rd : Nat → K → K) (H W : Nat) (us : List (Int × Int × K)) (j i : Nat) :
    MayBe rd H W us j i ((hits H W us j i).foldl (fun s v => (s.1 + 1, rd s.1 (s.2 + v))) (0, 0)).2 := by
  obtain ⟨t, h1, h2⟩ := seqSum rd (hits H W us j i) (.term 0) 0
  exact ⟨t, by rw [h1]; simp [Sum.terms], h2.symm⟩

/-- Three particles in the middle of the same pixel, one bright and two faint. -/
def threeParticles : List (Particle ℚ) := [⟨2, 2, 1, 1, 0, 1⟩, ⟨2, 2, 1, 1, 0, 1 / 2 ^ 24⟩, ⟨2, 2, 1, 1, 0, 1 / 2 ^ 24⟩]

/-- **C166**: it is not the same image bit for bit: in single precision, three particles on one pixel give a different value when the faint ones are added first. -/
theorem C166_refuted_bits :
    ¬ ∀ (ps : List (Particle ℚ)) (H W j i : Nat) (v v' : ℚ), 5 ≤ H → 5 ≤ W → (∀ p ∈ ps, 0 ≤ p.amp) →
      MayBe (fun _ => binary32) H W (ps.flatMap (patch toyExp id 1 H W)) j i v →
      MayBe (fun _ => binary32) H W (ps.flatMap (patch toyExp id 1 H W)) j i v' → v = v' := by
  intro h
  have hh : hits 5 5 (threeParticles.flatMap (patch toyExp id 1 5 5)) 2 2 = [1, 1 / 2 ^ 24, 1 / 2 ^ 24] := by decide +kernel
  have h1 := h threeParticles 5 5 2 2
    ((Sum.plus 2 (.plus 1 (.plus 0 (.term 0) (.term 1)) (.term (1 / 2 ^ 24))) (.term (1 / 2 ^ 24))).value (fun _ => binary32))
    ((Sum.plus 2 (.plus 1 (.plus 0 (.term 0) (.term (1 / 2 ^ 24))) (.term (1 / 2 ^ 24))) (.term 1)).value (fun _ => binary32))
    (le_refl _) (le_refl _) (by decide +kernel) ⟨_, by rw [hh]; exact .refl _, rfl⟩
    ⟨_, by rw [hh]; exact .cons _ (by simp only [Sum.terms, List.append_assoc]; exact (List.perm_append_comm (l₁ := [(1 : ℚ) / 2 ^ 24, 1 / 2 ^ 24]) (l₂ := [1]))), rfl⟩
  exact absurd h1 (by decide +kernel)

/-- A case of the hypotheses: the three particles, single precision, with exact contributions. -/
example : (3 : ℚ) * (1 / 2 ^ 24) ≤ 1 / 2 ∧ (∀ p ∈ threeParticles, 0 ≤ p.amp) ∧ (∀ x, 0 ≤ toyExp x) ∧ patchRadius (1 : ℚ) = 1 ∧
    255 * (4 * (3 : ℚ) * (1 / 2 ^ 24)) < 1 / 5000 ∧
    Accurate (0 : ℚ) (threeParticles.flatMap (patch toyExp id 1 5 5)) (threeParticles.flatMap (patch toyExp id 1 5 5)) :=
  ⟨by norm_num, by decide +kernel, fun x => (expLike_toy.pos x).le, by decide +kernel, by norm_num, List.forall₂_same.2 (fun u _ => ⟨rfl, rfl, by simp⟩)⟩

/-- Single precision rounds as assumed. -/
example : RoundsTo (1 / 2 ^ 24 : ℚ) (fun _ => binary32) := fun _ q => by
  have := binary32_err q
  rw [div_mul_eq_mul_div, one_mul]; exact this

/-- For ten thousand particles on one pixel the orders differ by less than a grey level. -/
example : 255 * (4 * (10000 : ℚ) * (1 / 2 ^ 24)) < 1 := by norm_num

end Verif.Render
