import Verif.Spec.MakeKeys
import Verif.Proofs.SamplerMore
import Verif.Proofs.Make
/-!
# Lemmas about the keys consumed by the components built by `make`
-/

namespace Verif.MakeKeys
open Verif Verif.Make Verif.MakeKeys.Spec
open Verif.Sampler (From)

/-- All keys of a list of uses. -/
def keys (l : List (Use × KeyTerm)) : List KeyTerm := l.map (·.2)

theorem mem_draws {l : List (Use × KeyTerm)} {k : KeyTerm} : k ∈ draws l ↔ ∃ u, u ≠ .split ∧ (u, k) ∈ l := by
  simp [draws]
  exact ⟨fun ⟨u, h, hu⟩ => ⟨u, hu, h⟩, fun ⟨u, hu, h⟩ => ⟨u, h, hu⟩⟩

theorem mem_splits {l : List (Use × KeyTerm)} {k : KeyTerm} : k ∈ splits l ↔ (Use.split, k) ∈ l := by
  simp [splits]

theorem mem_keys {l : List (Use × KeyTerm)} {k : KeyTerm} : k ∈ keys l ↔ ∃ u, (u, k) ∈ l := by
  simp [keys]

theorem draws_append (a b : List (Use × KeyTerm)) : draws (a ++ b) = draws a ++ draws b := by simp [draws]
theorem splits_append (a b : List (Use × KeyTerm)) : splits (a ++ b) = splits a ++ splits b := by simp [splits]

theorem keys_iff {l : List (Use × KeyTerm)} {k : KeyTerm} : k ∈ keys l ↔ k ∈ draws l ∨ k ∈ splits l := by
  rw [mem_keys, mem_draws, mem_splits]
  constructor
  · rintro ⟨u, h⟩
    by_cases hu : u = .split
    · subst hu; exact .inr h
    · exact .inl ⟨u, hu, h⟩
  · rintro (⟨u, _, h⟩ | h)
    · exact ⟨u, h⟩
    · exact ⟨_, h⟩

/-- Two lists do not share a key, except for keys both only split. -/
def Apart (a b : List (Use × KeyTerm)) : Prop :=
  (∀ k ∈ draws a, k ∉ keys b) ∧ (∀ k ∈ draws b, k ∉ keys a)

theorem independent_append (a b : List (Use × KeyTerm)) :
    Independent (a ++ b) ↔ Independent a ∧ Independent b ∧ Apart a b := by
  unfold Independent Apart
  simp only [draws_append, splits_append, List.nodup_append', List.mem_append, keys_iff]
  constructor
  · rintro ⟨⟨h1, h2, h3⟩, h4⟩
    refine ⟨⟨h1, fun k hk hs => h4 k (.inl hk) (.inl hs)⟩, ⟨h2, fun k hk hs => h4 k (.inr hk) (.inr hs)⟩, ?_, ?_⟩
    · rintro k hk (h | h)
      · exact h3 hk h
      · exact h4 k (.inl hk) (.inr h)
    · rintro k hk (h | h)
      · exact h3 h hk
      · exact h4 k (.inr hk) (.inl h)
  · rintro ⟨⟨h1, h2⟩, ⟨h3, h4⟩, h5, h6⟩
    refine ⟨⟨h1, h3, fun k hk hk' => h5 k hk (.inl hk')⟩, ?_⟩
    rintro k (hk | hk) (hs | hs)
    · exact h2 k hk hs
    · exact h5 k hk (.inr hs)
    · exact h6 k hk (.inr hs)
    · exact h4 k hk hs

theorem apart_append (a b c : List (Use × KeyTerm)) : Apart a (b ++ c) ↔ Apart a b ∧ Apart a c := by
  unfold Apart
  simp only [draws_append, keys, List.map_append, List.mem_append]
  constructor
  · rintro ⟨h1, h2⟩
    exact ⟨⟨fun k hk h => h1 k hk (.inl h), fun k hk => h2 k (.inl hk)⟩, ⟨fun k hk h => h1 k hk (.inr h), fun k hk => h2 k (.inr hk)⟩⟩
  · rintro ⟨⟨h1, h2⟩, ⟨h3, h4⟩⟩
    refine ⟨fun k hk h => h.elim (h1 k hk) (h3 k hk), fun k hk => hk.elim (h2 k) (h4 k)⟩

theorem apart_nil (a : List (Use × KeyTerm)) : Apart a [] := by simp [Apart, draws, keys]
theorem apart_comm {a b : List (Use × KeyTerm)} : Apart a b ↔ Apart b a := and_comm

theorem independent_of_nodup {l : List (Use × KeyTerm)} (h : (keys l).Nodup) : Independent l := by
  constructor
  · exact h.sublist (List.Sublist.map _ List.filter_sublist)
  · intro k hk hs
    obtain ⟨u, hu, h1⟩ := mem_draws.1 hk
    have h2 := mem_splits.1 hs
    have := List.inj_on_of_nodup_map h h1 h2 rfl
    simp only [Prod.mk.injEq, and_true] at this
    exact hu this

/-! ## Chains -/

/-- The key after `n` rounds. -/
def chain (k : KeyTerm) : Nat → KeyTerm
  | 0 => k
  | n + 1 => (chain k n).split2.1

/-- The key of the draw in round `n`. -/
def side (k : KeyTerm) (n : Nat) : KeyTerm := (chain k n).split2.2

theorem chain_shift (k : KeyTerm) : ∀ n, chain k.split2.1 n = chain k (n + 1)
  | 0 => rfl
  | n + 1 => by rw [chain, chain_shift k n]; rfl

theorem chain_depth (k : KeyTerm) : ∀ n, (chain k n).depth = k.depth + n
  | 0 => rfl
  | n + 1 => by
    show (chain k n).depth + 1 = _
    rw [chain_depth k n]; omega

theorem side_depth (k : KeyTerm) (n : Nat) : (side k n).depth = k.depth + n + 1 := by
  show (chain k n).depth + 1 = _
  rw [chain_depth]

theorem from_chain (k : KeyTerm) {m : Nat} : ∀ {n : Nat}, m ≤ n → From (chain k m) (chain k n)
  | 0, h => by obtain rfl : m = 0 := by omega
               exact .refl _
  | n + 1, h => by
    rcases Nat.lt_or_ge n m with h1 | h1
    · obtain rfl : m = n + 1 := by omega
      exact .refl _
    · exact (from_chain k h1).sub 2 0

theorem chain_ne_side (k : KeyTerm) (m n : Nat) : ¬ From (side k n) (chain k m) := by
  intro h
  rcases Nat.lt_or_ge n m with h1 | h1
  · have h2 : From (chain k (n + 1)) (chain k m) := from_chain k h1
    have := h.eq h2 (by rw [side_depth, chain_depth]; omega)
    simp [side, chain, KeyTerm.split2] at this
  · exact Sampler.not_from_deeper (by rw [side_depth, chain_depth]; omega) h

theorem side_inj (k : KeyTerm) {m n : Nat} {x : KeyTerm} (hm : From (side k m) x) (hn : From (side k n) x) : m = n := by
  have key : ∀ a b, a < b → From (side k a) x → From (side k b) x → False := by
    intro a b hab ha hb
    have h2 : From (chain k (a + 1)) (side k b) := (from_chain k hab).sub 2 1
    have := ha.eq (h2.trans hb) (by rw [side_depth, chain_depth]; omega)
    simp [side, chain, KeyTerm.split2] at this
  rcases Nat.lt_trichotomy m n with h | h | h
  · exact absurd (key m n h hm hn) id
  · exact h
  · exact absurd (key n m h hn hm) id

theorem mem_rounds (u : Use) : ∀ (n : Nat) (k : KeyTerm) (x : Use × KeyTerm),
    x ∈ rounds u n k ↔ ∃ i < n, x = (.split, chain k i) ∨ x = (u, side k i)
  | 0, _, _ => by simp [rounds]
  | n + 1, k, x => by
    simp only [rounds, List.mem_cons, mem_rounds u n k.split2.1 x]
    constructor
    · rintro (h | h | ⟨i, hi, h⟩)
      · exact ⟨0, by omega, .inl h⟩
      · exact ⟨0, by omega, .inr h⟩
      · refine ⟨i + 1, by omega, ?_⟩
        simpa only [side, chain_shift] using h
    · rintro ⟨i, hi, h⟩
      cases i with
      | zero => exact h.elim .inl (fun h => .inr (.inl h))
      | succ i =>
        refine .inr (.inr ⟨i, by omega, ?_⟩)
        simpa only [side, chain_shift] using h

theorem rounds_from (u : Use) (n : Nat) (k x : KeyTerm) (h : x ∈ keys (rounds u n k)) : From k x := by
  obtain ⟨v, h⟩ := mem_keys.1 h
  obtain ⟨i, _, h⟩ := (mem_rounds u n k _).1 h
  have h0 : From k (chain k i) := from_chain k (Nat.zero_le i)
  rcases h with h | h
  · cases h; exact h0
  · cases h; exact h0.sub 2 1

theorem rounds_nodup (u : Use) : ∀ (n : Nat) (k : KeyTerm), (keys (rounds u n k)).Nodup
  | 0, _ => by simp [rounds, keys]
  | n + 1, k => by
    have h := rounds_from u n k.split2.1
    simp only [rounds, keys, List.map_cons, List.nodup_cons, List.mem_cons, not_or]
    refine ⟨⟨?_, fun hk => ?_⟩, fun hk => ?_, rounds_nodup u n _⟩
    · intro e
      have := congrArg KeyTerm.depth e
      simp [KeyTerm.split2, KeyTerm.depth] at this
    · exact Sampler.not_from_deeper (by simp [KeyTerm.split2, KeyTerm.depth]) (h _ hk)
    · have := (h _ hk).eq (.refl _) rfl
      simp [KeyTerm.split2] at this

/-! ## The sampler -/

theorem ofImage_key (x : Sampler.Use × KeyTerm) : (ofImage x).2 = x.2 := by
  obtain ⟨u, k⟩ := x
  cases u <;> rfl

theorem ofImage_split {x : Sampler.Use × KeyTerm} {k : KeyTerm} {u : Use} (h : ofImage x = (u, k)) (hu : u ≠ .split) :
    x.2 = k ∧ x.1 ≠ .split := by
  obtain ⟨v, k'⟩ := x
  cases v <;> simp_all [ofImage]

theorem image_nodup (d b n : Nat) (k : KeyTerm) : (keys ((Sampler.runUses d b n k).map ofImage)).Nodup := by
  have : keys ((Sampler.runUses d b n k).map ofImage) = Sampler.keysOf (Sampler.runUses d b n k) := by
    simp [keys, Sampler.keysOf, Function.comp_def, ofImage_key]
  rw [this]
  exact Sampler.runUses_nodup d b n k

theorem batch_cases (rng : KeyTerm) (d b : Nat) (x : Sampler.Use × KeyTerm) (h : x ∈ Sampler.batchUses rng d b) :
    x = (.split, rng) ∨ x = (.split, rng.split2.2) ∨ ∃ j < d, From (.sub rng.split2.2 d j) x.2 := by
  unfold Sampler.batchUses at h
  simp only [List.cons_append, List.nil_append, List.mem_cons, List.mem_flatMap, List.mem_range] at h
  rcases h with h | h | ⟨j, hj, h⟩
  · exact .inl h
  · exact .inr (.inl h)
  · exact .inr (.inr ⟨j, hj, Sampler.deviceUses_from _ b _ (List.mem_map.2 ⟨x, h, rfl⟩)⟩)

theorem mem_runUses (d b : Nat) (x : Sampler.Use × KeyTerm) : ∀ (n : Nat) (k : KeyTerm),
    x ∈ Sampler.runUses d b n k ↔ ∃ t < n, x ∈ Sampler.batchUses (chain k t) d b
  | 0, _ => by simp [Sampler.runUses]
  | n + 1, k => by
    rw [Sampler.runUses, List.mem_append, mem_runUses d b x n]
    constructor
    · rintro (h | ⟨t, ht, h⟩)
      · exact ⟨0, by omega, h⟩
      · exact ⟨t + 1, by omega, by rw [← chain_shift]; exact h⟩
    · rintro ⟨t, ht, h⟩
      cases t with
      | zero => exact .inl h
      | succ t => exact .inr ⟨t, by omega, by rw [chain_shift]; exact h⟩

/-- Where the keys of the sampler lie. -/
theorem image_cases (d b n : Nat) (k x : KeyTerm) (h : x ∈ keys ((Sampler.runUses d b n k).map ofImage)) :
    ∃ t < n, x = chain k t ∨ x = side k t ∨ ∃ j < d, From (.sub (side k t) d j) x := by
  obtain ⟨u, h⟩ := mem_keys.1 h
  obtain ⟨y, hy, e⟩ := List.mem_map.1 h
  obtain ⟨t, ht, h⟩ := (mem_runUses d b y n k).1 hy
  have e2 : y.2 = x := by rw [← ofImage_key, e]
  refine ⟨t, ht, ?_⟩
  rcases batch_cases _ d b y h with h | h | ⟨j, hj, h⟩
  · left; rw [← e2, h]
  · right; left; rw [← e2, h]; rfl
  · right; right; exact ⟨j, hj, by rw [← e2]; exact h⟩

theorem image_draw_cases (d b n : Nat) (k x : KeyTerm) (h : x ∈ draws ((Sampler.runUses d b n k).map ofImage)) :
    ∃ t < n, ∃ j < d, From (.sub (side k t) d j) x := by
  obtain ⟨u, hu, h⟩ := mem_draws.1 h
  obtain ⟨y, hy, e⟩ := List.mem_map.1 h
  obtain ⟨t, ht, h⟩ := (mem_runUses d b y n k).1 hy
  obtain ⟨e2, e3⟩ := ofImage_split e hu
  rcases batch_cases _ d b y h with h | h | ⟨j, hj, h⟩
  · rw [h] at e3; exact absurd rfl e3
  · rw [h] at e3; exact absurd rfl e3
  · exact ⟨t, ht, j, hj, by rw [← e2]; exact h⟩

theorem image_splits (d b : Nat) {n t : Nat} (k : KeyTerm) (h : t < n) :
    (Use.split, side k t) ∈ (Sampler.runUses d b n k).map ofImage := by
  refine List.mem_map.2 ⟨(.split, side k t), (mem_runUses d b _ n k).2 ⟨t, h, ?_⟩, rfl⟩
  simp [Sampler.batchUses, side]

theorem image_device (d b : Nat) {n t j : Nat} (k : KeyTerm) (h : t < n) (hj : j < d) :
    (Use.split, .sub (side k t) d j) ∈ (Sampler.runUses d b n k).map ofImage := by
  refine List.mem_map.2 ⟨(.split, .sub (side k t) d j), (mem_runUses d b _ n k).2 ⟨t, h, ?_⟩, rfl⟩
  simp only [Sampler.batchUses, List.mem_append, List.mem_flatMap, List.mem_range]
  refine .inr ⟨j, hj, ?_⟩
  simp [Sampler.deviceUses, side]

theorem image_density (d b : Nat) {n t j : Nat} (k : KeyTerm) (h : t < n) (hj : j < d) :
    (Use.image .density, .sub (.sub (side k t) d j) 2 1) ∈ (Sampler.runUses d b n k).map ofImage := by
  refine List.mem_map.2 ⟨(.density, .sub (.sub (side k t) d j) 2 1), (mem_runUses d b _ n k).2 ⟨t, h, ?_⟩, rfl⟩
  simp only [Sampler.batchUses, List.mem_append, List.mem_flatMap, List.mem_range]
  refine .inr ⟨j, hj, ?_⟩
  simp [Sampler.deviceUses, side, KeyTerm.split2]

/-! ## Pairs of components -/

theorem draw_rounds {u : Use} (hu : u ≠ .split) {n : Nat} {k x : KeyTerm} :
    x ∈ draws (rounds u n k) ↔ ∃ i < n, x = side k i := by
  rw [mem_draws]
  constructor
  · rintro ⟨v, hv, h⟩
    obtain ⟨i, hi, h | h⟩ := (mem_rounds u n k _).1 h
    · cases h; exact absurd rfl hv
    · cases h; exact ⟨i, hi, rfl⟩
  · rintro ⟨i, hi, rfl⟩
    exact ⟨u, hu, (mem_rounds u n k _).2 ⟨i, hi, .inr rfl⟩⟩

theorem key_rounds {u : Use} {n : Nat} {k x : KeyTerm} :
    x ∈ keys (rounds u n k) ↔ ∃ i < n, x = chain k i ∨ x = side k i := by
  rw [mem_keys]
  constructor
  · rintro ⟨v, h⟩
    obtain ⟨i, hi, h | h⟩ := (mem_rounds u n k _).1 h
    · cases h; exact ⟨i, hi, .inl rfl⟩
    · cases h; exact ⟨i, hi, .inr rfl⟩
  · rintro ⟨i, hi, h⟩
    rcases h with rfl | rfl
    · exact ⟨_, (mem_rounds u n k _).2 ⟨i, hi, .inl rfl⟩⟩
    · exact ⟨_, (mem_rounds u n k _).2 ⟨i, hi, .inr rfl⟩⟩

/-- The keys `make` splits itself are the first of the chain. -/
theorem makeUses_keys {root : KeyTerm} {len : Int} {x : KeyTerm} (h : x ∈ keys (makeUses root len)) :
    ∃ i, x = chain root i := by
  obtain ⟨u, h⟩ := mem_keys.1 h
  unfold makeUses at h
  rcases List.mem_cons.1 h with h | h
  · cases h; exact ⟨0, rfl⟩
  · split at h
    · simp only [List.mem_singleton] at h
      cases h; exact ⟨1, rfl⟩
    · cases h

theorem makeUses_draws (root : KeyTerm) (len : Int) : draws (makeUses root len) = [] := by
  unfold makeUses draws
  split <;> simp

theorem makeUses_independent (root : KeyTerm) (len : Int) : Independent (makeUses root len) := by
  unfold Independent
  rw [makeUses_draws]
  exact ⟨List.nodup_nil, fun k h => by cases h⟩

/-- `make`'s own splits do no harm to components that draw beside the chain. -/
theorem makeUses_apart {root : KeyTerm} {len : Int} {l : List (Use × KeyTerm)}
    (h : ∀ x ∈ draws l, (∃ t, From (side root t) x) ∨ ¬ From root x) : Apart (makeUses root len) l := by
  constructor
  · rw [makeUses_draws]; intro k hk; cases hk
  · intro k hk hm
    obtain ⟨i, rfl⟩ := makeUses_keys hm
    rcases h _ hk with ⟨t, ht⟩ | h
    · exact chain_ne_side root i t ht
    · exact h (from_chain root (Nat.zero_le i))

theorem foreign_apart {a b : List (Use × KeyTerm)} {x y : Nat} (hxy : x ≠ y)
    (ha : ∀ k ∈ keys a, From (.seed x) k) (hb : ∀ k ∈ keys b, From (.seed y) k) : Apart a b := by
  have key : ∀ k, k ∈ keys a → k ∈ keys b → False := by
    intro k h1 h2
    have := (ha k h1).eq (hb k h2) rfl
    simp only [KeyTerm.seed.injEq] at this
    exact hxy this
  exact ⟨fun k h1 h2 => key k (keys_iff.2 (.inl h1)) h2, fun k h1 h2 => key k h2 (keys_iff.2 (.inl h1))⟩

/-- Shuffles and images from one root. -/
theorem shuffle_image_apart (m d b n : Nat) (k : KeyTerm) :
    Apart (rounds .shuffle m k) ((Sampler.runUses d b n k).map ofImage) ↔ ¬ (0 < m ∧ 0 < n) := by
  constructor
  · rintro ⟨h, _⟩ ⟨hm, hn⟩
    exact h (side k 0) ((draw_rounds (by simp)).2 ⟨0, hm, rfl⟩) (mem_keys.2 ⟨_, image_splits d b k hn⟩)
  · intro h
    rcases Nat.eq_zero_or_pos m with rfl | hm
    · exact apart_comm.1 (apart_nil _)
    · rcases Nat.eq_zero_or_pos n with rfl | hn
      · exact apart_nil _
      · exact absurd ⟨hm, hn⟩ h

/-- Shuffles from a root and episodes from its second side key. -/
theorem shuffle_starts_apart (m n : Nat) (k : KeyTerm) :
    Apart (rounds .shuffle m k) (rounds .starts n (side k 1)) ↔ ¬ (1 < m ∧ 0 < n) := by
  constructor
  · rintro ⟨h, _⟩ ⟨hm, hn⟩
    exact h (side k 1) ((draw_rounds (by simp)).2 ⟨1, hm, rfl⟩) (key_rounds.2 ⟨0, hn, .inl rfl⟩)
  · intro h
    have hpos : ∀ x, x ∈ keys (rounds .starts n (side k 1)) → 0 < n := by
      intro x hx
      obtain ⟨i, hi, _⟩ := key_rounds.1 hx
      omega
    constructor
    · intro x hx hy
      obtain ⟨i, hi, rfl⟩ := (draw_rounds (by simp)).1 hx
      have h1 := side_inj k (rounds_from _ _ _ _ hy) (.refl (side k i))
      exact h ⟨by omega, hpos _ hy⟩
    · intro x hx hy
      have hx' := keys_iff.2 (.inl hx)
      have h0 := rounds_from _ _ _ _ hx'
      obtain ⟨i, hi, rfl | rfl⟩ := key_rounds.1 hy
      · exact chain_ne_side k i 1 h0
      · have h1 := side_inj k h0 (.refl (side k i))
        exact h ⟨by omega, hpos _ hx'⟩

/-- The keys of the episodic layer: the first one, and what comes from its two halves. -/
theorem starts_cases {n : Nat} {e x : KeyTerm} (h : x ∈ keys (rounds .starts n e)) :
    0 < n ∧ (x = e ∨ From (.sub e 2 0) x ∨ From (.sub e 2 1) x) := by
  obtain ⟨i, hi, h⟩ := key_rounds.1 h
  refine ⟨by omega, ?_⟩
  cases i with
  | zero =>
    rcases h with rfl | rfl
    · exact .inl rfl
    · exact .inr (.inr (.refl _))
  | succ i =>
    have h0 : From (.sub e 2 0) (chain e (i + 1)) := from_chain e (m := 1) (by omega)
    rcases h with rfl | rfl
    · exact .inr (.inl h0)
    · exact .inr (.inl (h0.sub 2 1))

/-- Episodes from the second side key of a root and images from the root. -/
theorem starts_image_apart (m d b n : Nat) (k : KeyTerm) :
    Apart (rounds .starts m (side k 1)) ((Sampler.runUses d b n k).map ofImage) ↔ ¬ (d = 2 ∧ 0 < m ∧ 1 < n) := by
  constructor
  · rintro ⟨h, _⟩ ⟨hd, hm, hn⟩
    subst hd
    exact h (side (side k 1) 0) ((draw_rounds (by simp)).2 ⟨0, hm, rfl⟩)
      (mem_keys.2 ⟨_, image_device 2 b k hn (j := 1) (by omega)⟩)
  · intro h
    -- a key of both, on a device, needs two devices
    have key : ∀ x t j, t < n → From (.sub (side k t) d j) x → x ∈ keys (rounds .starts m (side k 1)) → False := by
      intro x t j ht hf hx
      have h0 := rounds_from _ _ _ _ hx
      obtain rfl := side_inj k ((From.refl (side k t)).sub d j |>.trans hf) h0
      obtain ⟨hm, hc⟩ := starts_cases hx
      rcases hc with rfl | hc | hc
      · exact Sampler.not_from_deeper (by simp [KeyTerm.depth]) hf
      · have := hf.eq hc rfl
        simp only [KeyTerm.sub.injEq] at this
        exact h ⟨this.2.1, hm, ht⟩
      · have := hf.eq hc rfl
        simp only [KeyTerm.sub.injEq] at this
        exact h ⟨this.2.1, hm, ht⟩
    constructor
    · intro x hx hy
      have hx' := keys_iff.2 (.inl hx)
      have h0 := rounds_from _ _ _ _ hx'
      obtain ⟨t, ht, rfl | rfl | ⟨j, _, hf⟩⟩ := image_cases d b n k x hy
      · exact chain_ne_side k t 1 h0
      · have h1 := side_inj k h0 (.refl (side k t))
        subst h1
        obtain ⟨i, _, e⟩ := (draw_rounds (by simp)).1 hx
        have := congrArg KeyTerm.depth e
        simp only [side_depth] at this
        omega
      · exact key x t j ht hf hx'
    · intro x hx hy
      obtain ⟨t, ht, j, _, hf⟩ := image_draw_cases d b n k x hx
      exact key x t j ht hf hy

theorem image_from (d b n : Nat) (k x : KeyTerm) (h : x ∈ keys ((Sampler.runUses d b n k).map ofImage)) : From k x := by
  obtain ⟨t, _, rfl | rfl | ⟨j, _, h⟩⟩ := image_cases d b n k x h
  · exact from_chain k (Nat.zero_le t)
  · exact (from_chain k (Nat.zero_le t)).sub 2 1
  · exact (((from_chain k (Nat.zero_le t)).sub 2 1).sub d j).trans h

/-! ## The seed of the sampler -/

theorem synthFromConfig_seed {w : World} {p p' : Pipe} {d : Dict} {a : SynthArgs}
    (h : synthFromConfig w p d = .ok (.synthetic p' a)) : d.lookup "seed" = some a.seed := by
  unfold synthFromConfig at h
  simp only [andThen_ok] at h
  obtain ⟨_, _, _, _, _, _, _, _, _, _, _, _, _, _, _, _, _, _, _, _, _, _, _, _, _, _, _, _, _, _, _, _, _, _, _, _, _, _,
    _, _, _, _, _, _, _, _, _, _, seed, hseed, _, _, _, _, _, _, _, _, _, _, _, _, h⟩ := h
  cases h
  simp only [item] at hseed
  split at hseed
  · rename_i v hv; cases hseed; exact hv
  · cases hseed

theorem finish_seed {w : World} {d : Dict} {inc : Bool} {b len : Int} {p p' : Pipe} {a : SynthArgs}
    (h : finish w d inc b len p = .ok (.synthetic p' a)) : d.lookup "seed" = some a.seed := by
  unfold finish at h
  split at h
  · rw [andThen_ok] at h
    obtain ⟨_, _, h⟩ := h
    cases h
  · split at h
    · cases h
    · rw [andThen_ok] at h
      obtain ⟨_, _, h⟩ := h
      exact synthFromConfig_seed h

theorem fromDict_seed {w : World} {d : Dict} {p : Pipe} {a : SynthArgs} (h : fromDict w d = .ok (.synthetic p a)) :
    d.lookup "seed" = some a.seed := by
  unfold fromDict at h
  split at h
  · cases h
  rw [andThen_ok] at h
  obtain ⟨_, _, h⟩ := h
  split at h
  · cases h
  split at h
  · cases h
  rw [raiseIf_ok] at h
  obtain ⟨_, h⟩ := h
  split at h
  · simp only [andThen_ok, raiseIf_ok] at h
    obtain ⟨_, _, _, _, _, _, _, _, _, _, _, _, _, _, hfin⟩ := h
    exact finish_seed hfin
  · cases h

end Verif.MakeKeys
