import Verif.Spec.Dtypes
import Verif.Proofs.Rounding
/-!
# Property C185: stored numbers are rounded once
-/

namespace Verif.Dtypes
open Verif Verif.Rounding

private theorem exact_nat (p : Nat) (hp : 0 < p) (N : Nat) (k : Int) (hN : N ≤ 2 ^ p) :
    roundBits p (N * (2 : ℚ) ^ k) = N * (2 : ℚ) ^ k := by
  rcases Nat.eq_zero_or_pos N with h0 | hpos
  · subst h0; simpa using roundBits_zero p
  have hx : (0 : ℚ) < N * (2 : ℚ) ^ k := by have : (0 : ℚ) < N := by exact_mod_cast hpos
                                            positivity
  obtain ⟨e, m, h1, h2, h3, h4⟩ := roundBits_spec p hx
  have hNq : (N : ℚ) ≤ (2 : ℚ) ^ (p : Int) := by rw [zpow_natCast]; exact_mod_cast hN
  have hNk : (N : ℚ) * (2 : ℚ) ^ k ≤ (2 : ℚ) ^ ((p : Int) + k) := by
    rw [← two_zpow_mul]; exact mul_le_mul_of_nonneg_right hNq (by positivity)
  have hep : e ≤ p + k := (zpow_le_zpow_iff_right₀ (by norm_num)).1 (h1.trans hNk)
  have main : ∀ j : Nat, (N : ℚ) * (2 : ℚ) ^ k * (2 : ℚ) ^ ((p : Int) - 1 - e) = j →
      roundBits p (N * (2 : ℚ) ^ k) = N * (2 : ℚ) ^ k := by
    intro j hj
    rw [h3, h4.2 j hj, ← hj, mul_assoc, two_zpow_mul, show ((p : Int) - 1 - e + (e + 1 - (p : Int))) = 0 by ring,
      zpow_zero, mul_one]
  rcases Int.lt_or_le e (p + k) with hlt | hge
  · obtain ⟨j, hj⟩ := Int.eq_ofNat_of_zero_le (show 0 ≤ k + ((p : Int) - 1 - e) by omega)
    exact main (N * 2 ^ j) (by rw [mul_assoc, two_zpow_mul, hj, zpow_natCast]; push_cast; rfl)
  · have he : e = p + k := by omega
    have hN' : (N : ℚ) * (2 : ℚ) ^ k = (2 : ℚ) ^ ((p : Int) + k) := le_antisymm hNk (he ▸ h1)
    refine main (2 ^ (p - 1)) ?_
    rw [hN', two_zpow_mul, he]
    push_cast
    rw [show ((p : Int) + k + ((p : Int) - 1 - (p + k))) = ((p - 1 : Nat) : Int) by omega, zpow_natCast]

/-- Numbers with at most `p` significant bits are not changed by rounding to `p` bits. -/
private theorem exact_float (p : Nat) (hp : 0 < p) {x : ℚ} (h : Float p x) : roundBits p x = x := by
  obtain ⟨m, e, hm, rfl⟩ := h
  rcases abs_cases m with ⟨ha, h0⟩ | ⟨ha, h0⟩
  · obtain ⟨k, rfl⟩ := Int.eq_ofNat_of_zero_le h0
    have := exact_nat p hp k e (by rw [ha] at hm; exact_mod_cast hm)
    simpa using this
  · obtain ⟨k, hk⟩ := Int.eq_ofNat_of_zero_le (show 0 ≤ -m by omega)
    have := exact_nat p hp k e (by rw [ha, hk] at hm; exact_mod_cast hm)
    have hmk : m = -(k : Int) := by omega
    rw [hmk]
    push_cast
    rw [neg_mul, roundBits_neg, this]

private theorem float_mono {p q : Nat} (h : p ≤ q) {x : ℚ} (hx : Float p x) : Float q x := by
  obtain ⟨m, e, hm, rfl⟩ := hx
  exact ⟨m, e, hm.trans (pow_le_pow_right₀ (by norm_num) h), rfl⟩

private theorem int_float {lo hi : Int} {x : ℚ} (p : Nat) (hlo : -2 ^ p ≤ lo) (hhi : hi ≤ 2 ^ p) (h : IntIn lo hi x) :
    Float p x := by
  obtain ⟨n, h1, h2, rfl⟩ := h
  exact ⟨n, 0, abs_le.mpr ⟨by omega, by omega⟩, by simp⟩

private theorem wrap_exact {lo hi a : Int} {n : Nat} {x : ℚ} (ha : a ≤ lo) (hb : hi < a + 2 ^ n) (h : IntIn lo hi x) :
    wrap a n x = x := by
  obtain ⟨k, h1, h2, rfl⟩ := h
  rw [wrap, Int.floor_intCast, Int.emod_eq_of_lt (by omega) (by omega)]
  push_cast
  ring

/-- Safe casts are exact, except those of 64-bit integers to double precision. -/
private theorem cast_exact {d t : DType} (hs : safe d t = true) (hd : Usual d) {x : ℚ} (hx : Holds d x) : cast t x = x := by
  obtain ⟨h1, h2, h3⟩ := hd
  cases t
  · cases d <;> simp [safe] at hs
    obtain ⟨k, k1, k2, rfl⟩ := hx
    obtain rfl | rfl : k = 0 ∨ k = 1 := by omega
    · simp [cast]
    · simp [cast]
  iterate 8
    · cases d <;> simp [safe] at hs h1 h2 h3 <;> exact wrap_exact (by norm_num) (by norm_num) hx
  · refine exact_float 11 (by norm_num) ?_
    cases d <;> simp [safe] at hs h1 h2 h3 <;> first
      | exact int_float 11 (by norm_num) (by norm_num) hx
      | exact float_mono (by norm_num) hx
  · refine exact_float 24 (by norm_num) ?_
    cases d <;> simp [safe] at hs h1 h2 h3 <;> first
      | exact int_float 24 (by norm_num) (by norm_num) hx
      | exact float_mono (by norm_num) hx
  · refine exact_float 53 (by norm_num) ?_
    cases d <;> simp [safe] at hs h1 h2 h3 <;> first
      | exact int_float 53 (by norm_num) (by norm_num) hx
      | exact float_mono (by norm_num) hx

private theorem toSingle_usual (wide : ℚ → ℚ) {t : DType} (h : Usual t) (x : ℚ) : toSingle wide t x = binary32 x := by
  obtain ⟨_, h2, h3⟩ := h
  cases t <;> first | rfl | simp at h2 h3

/-- C185 for all types but the integers of 64 bits and the unsigned ones of 32 bits: every number arrives as the stored
one, rounded once to single precision, whatever types the samples of the batch have. So what a sample looks like does not depend
on its companions in the batch. Missing: the other integers, for which it is false (`C185_refuted`). -/
theorem C185_once_partial (result : List DType → DType) (hr : CommonType result) (wide : ℚ → ℚ)
    (batch : List (DType × List ℚ)) (hst : ∀ r ∈ batch, Stored r) (hu : ∀ r ∈ batch, Usual r.1) :
    rows result wide batch = batch.map (fun r => r.2.map binary32) := by
  have hds : ∀ d ∈ batch.map Prod.fst, Usual d := by
    intro d hd
    obtain ⟨r, hrm, rfl⟩ := List.mem_map.mp hd
    exact hu r hrm
  refine List.map_congr_left fun r hrm => List.map_congr_left fun x hx => ?_
  rw [toSingle_usual wide (hr.usual _ hds),
    cast_exact (hr.bound _ _ (List.mem_map.mpr ⟨r, hrm, rfl⟩)) (hu r hrm) (hst r hrm x hx)]

/-- C185 (exactness): integers of up to 24 bits, in particular all 8-bit and 16-bit images, and everything stored in
single or half precision arrives unchanged. -/
theorem C185_exact (result : List DType → DType) (hr : CommonType result) (wide : ℚ → ℚ)
    (batch : List (DType × List ℚ)) (hst : ∀ r ∈ batch, Stored r) (hu : ∀ r ∈ batch, Usual r.1) (i : Nat)
    (r : DType × List ℚ) (hi : batch[i]? = some r)
    (hx : r.1 ∈ [.bool, .u8, .u16, .i8, .i16, .f16, .f32] ∨ ∀ x ∈ r.2, IntIn (-2 ^ 24) (2 ^ 24) x) :
    (rows result wide batch)[i]? = some r.2 := by
  rw [C185_once_partial result hr wide batch hst hu, List.getElem?_map, hi, Option.map_some, Option.some.injEq]
  have hmem := List.mem_of_getElem? hi
  conv_rhs => rw [← List.map_id r.2]
  refine List.map_congr_left fun x hxm => ?_
  have hh := hst r hmem x hxm
  refine exact_float 24 (by norm_num) ?_
  rcases hx with hx | hx
  · obtain ⟨d, v⟩ := r
    cases d <;> simp at hx <;> first
      | exact int_float 24 (by norm_num) (by norm_num) hh
      | exact float_mono (by norm_num) hh
  · exact int_float 24 (by norm_num) (by norm_num) (hx x hxm)

/-- C185 is false for integers of 64 bits beside a sample in single precision, whatever JAX does with integers of 64 bits: the common
type is double precision, and the number is rounded twice. -/
theorem C185_refuted (result : List DType → DType) (hr : CommonType result) (wide : ℚ → ℚ) :
    (∀ r ∈ [(DType.i64, [(2 : ℚ) ^ 60 + 2 ^ 36 + 1]), (.f32, [0])], Stored r) ∧
    rows result wide [(.i64, [(2 : ℚ) ^ 60 + 2 ^ 36 + 1]), (.f32, [0])] = [[2 ^ 60], [0]] ∧
    binary32 ((2 : ℚ) ^ 60 + 2 ^ 36 + 1) = 2 ^ 60 + 2 ^ 37 := by
  refine ⟨?_, ?_, by decide +kernel⟩
  · intro r hrm x hx
    simp only [List.mem_cons, List.not_mem_nil, or_false] at hrm
    rcases hrm with rfl | rfl <;> simp only [List.mem_cons, List.not_mem_nil, or_false] at hx <;> subst hx
    · exact ⟨2 ^ 60 + 2 ^ 36 + 1, by norm_num, by norm_num, by norm_num⟩
    · exact ⟨0, 0, by norm_num, by norm_num⟩
  · have h : result [.i64, .f32] = .f64 := by
      have h1 := hr.bound [.i64, .f32] .i64 (by simp)
      have h2 := hr.bound [.i64, .f32] .f32 (by simp)
      revert h1 h2
      cases result [.i64, .f32] <;> decide
    simp only [rows, List.map_cons, List.map_nil, h]
    change [[binary32 (binary64 _)], [binary32 (binary64 _)]] = _
    decide +kernel

/-- A common type: the first of these that can hold all. -/
def demoResult (ds : List DType) : DType :=
  ([.bool, .u8, .i8, .u16, .i16, .i32, .f16, .f32].find? (fun t => ds.all (safe · t))).getD .f64

/-- Both parts of `CommonType` can be met. -/
theorem demoResult_ok : CommonType demoResult := by
  constructor
  · intro ds d hd
    unfold demoResult
    cases hf : [DType.bool, .u8, .i8, .u16, .i16, .i32, .f16, .f32].find? (fun t => ds.all (safe · t)) with
    | none => cases d <;> rfl
    | some t => exact List.all_eq_true.mp (List.find?_some (p := fun t => ds.all (safe · t)) hf) d hd
  · intro ds _
    unfold demoResult
    cases hf : [DType.bool, .u8, .i8, .u16, .i16, .i32, .f16, .f32].find? (fun t => ds.all (safe · t)) with
    | none => exact ⟨by decide, by decide, by decide⟩
    | some t =>
      have hm := List.mem_of_find?_eq_some hf
      simp only [List.mem_cons, List.not_mem_nil, or_false] at hm
      rcases hm with h | h | h | h | h | h | h | h <;> subst h <;> exact ⟨by decide, by decide, by decide⟩

/-- The hypotheses are met: an 8-bit image, a 16-bit image and an image in double precision in one batch. -/
example : rows demoResult id [(.u8, [0, 255]), (.u16, [65535, 1]), (.f64, [1 / 2, 1 / 1024 + 1])] =
    [[0, 255], [65535, 1], [1 / 2, 1 / 1024 + 1]] ∧
    (∀ r ∈ [(DType.u8, [(0 : ℚ), 255]), (.u16, [65535, 1]), (.f64, [1 / 2, 1 / 1024 + 1])], Stored r ∧ Usual r.1) := by
  refine ⟨by decide +kernel, ?_⟩
  intro r hr
  simp only [List.mem_cons, List.not_mem_nil, or_false] at hr
  rcases hr with rfl | rfl | rfl <;> refine ⟨?_, by decide, by decide, by decide⟩ <;> intro x hx <;>
    simp only [List.mem_cons, List.not_mem_nil, or_false] at hx <;> rcases hx with rfl | rfl
  · exact ⟨0, by norm_num, by norm_num, by norm_num⟩
  · exact ⟨255, by norm_num, by norm_num, by norm_num⟩
  · exact ⟨65535, by norm_num, by norm_num, by norm_num⟩
  · exact ⟨1, by norm_num, by norm_num, by norm_num⟩
  · exact ⟨1, -1, by norm_num, by norm_num⟩
  · exact ⟨1025, -10, by norm_num, by norm_num⟩

end Verif.Dtypes
