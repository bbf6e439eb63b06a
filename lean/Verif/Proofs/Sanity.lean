import Verif.Spec.Sanity
import Mathlib.Tactic.Linarith
/-!
# Lemmas on the configuration helpers
-/

namespace Verif.Sanity
open Verif Spec

theorem num_le_refl {a : Num} (h : a ≠ .nan) : a.le a = true := by
  cases a <;> simp_all [Num.le]

theorem num_le_trans {a b c : Num} (h1 : a.le b = true) (h2 : b.le c = true) : a.le c = true := by
  cases a <;> cases b <;> cases c <;> simp_all [Num.le]
  linarith

theorem num_le_of_lt {a b : Num} (h : a.lt b = true) : a.le b = true := by
  cases a <;> cases b <;> simp_all [Num.le, Num.lt]
  linarith

theorem num_le_of_not_lt {a b : Num} (ha : a ≠ .nan) (hb : b ≠ .nan) (h : a.lt b = false) : b.le a = true := by
  cases a <;> cases b <;> simp_all [Num.le, Num.lt]

theorem num_neginf_le {a : Num} (h : a ≠ .nan) : Num.le .neginf a = true := by
  cases a <;> simp_all [Num.le]

theorem num_le_inf {a : Num} (h : a ≠ .nan) : a.le .inf = true := by
  cases a <;> simp_all [Num.le]

theorem pyMax_spec {a b : Num} (ha : a ≠ .nan) (hb : b ≠ .nan) :
    a.le (pyMax a b) = true ∧ b.le (pyMax a b) = true ∧ (pyMax a b = a ∨ pyMax a b = b) := by
  unfold pyMax
  cases h : a.lt b
  · exact ⟨num_le_refl ha, num_le_of_not_lt ha hb h, .inl rfl⟩
  · exact ⟨num_le_of_lt h, num_le_refl hb, .inr rfl⟩

theorem pyMin_spec {a b : Num} (ha : a ≠ .nan) (hb : b ≠ .nan) :
    (pyMin a b).le a = true ∧ (pyMin a b).le b = true ∧ (pyMin a b = a ∨ pyMin a b = b) := by
  unfold pyMin
  cases h : b.lt a
  · exact ⟨num_le_refl ha, num_le_of_not_lt hb ha h, .inl rfl⟩
  · exact ⟨num_le_of_lt h, num_le_refl hb, .inr rfl⟩

theorem foldl_pyMax {l : List Num} {a : Num} (ha : a ≠ .nan) (hl : ∀ x ∈ l, x ≠ .nan) :
    (∀ x ∈ a :: l, x.le (l.foldl pyMax a) = true) ∧ l.foldl pyMax a ∈ a :: l := by
  induction l generalizing a with
  | nil => simpa using num_le_refl ha
  | cons b l ih =>
    have hb := hl b (by simp)
    obtain ⟨h1, h2, h3⟩ := pyMax_spec ha hb
    have hm : pyMax a b ≠ .nan := by rcases h3 with h | h <;> rw [h] <;> assumption
    obtain ⟨h4, h5⟩ := ih hm (fun x hx => hl x (by simp [hx]))
    have h6 := h4 (pyMax a b) (by simp)
    refine ⟨?_, ?_⟩
    · intro x hx
      rw [List.foldl_cons]
      rcases List.mem_cons.1 hx with rfl | hx
      · exact num_le_trans h1 h6
      rcases List.mem_cons.1 hx with rfl | hx
      · exact num_le_trans h2 h6
      · exact h4 x (by simp [hx])
    · rw [List.foldl_cons]
      rcases List.mem_cons.1 h5 with h | h
      · rw [h]; rcases h3 with h | h <;> simp [h]
      · simp [h]

theorem foldl_pyMin {l : List Num} {a : Num} (ha : a ≠ .nan) (hl : ∀ x ∈ l, x ≠ .nan) :
    (∀ x ∈ a :: l, (l.foldl pyMin a).le x = true) ∧ l.foldl pyMin a ∈ a :: l := by
  induction l generalizing a with
  | nil => simpa using num_le_refl ha
  | cons b l ih =>
    have hb := hl b (by simp)
    obtain ⟨h1, h2, h3⟩ := pyMin_spec ha hb
    have hm : pyMin a b ≠ .nan := by rcases h3 with h | h <;> rw [h] <;> assumption
    obtain ⟨h4, h5⟩ := ih hm (fun x hx => hl x (by simp [hx]))
    have h6 := h4 (pyMin a b) (by simp)
    refine ⟨?_, ?_⟩
    · intro x hx
      rw [List.foldl_cons]
      rcases List.mem_cons.1 hx with rfl | hx
      · exact num_le_trans h6 h1
      rcases List.mem_cons.1 hx with rfl | hx
      · exact num_le_trans h6 h2
      · exact h4 x (by simp [hx])
    · rw [List.foldl_cons]
      rcases List.mem_cons.1 h5 with h | h
      · rw [h]; rcases h3 with h | h <;> simp [h]
      · simp [h]

theorem npMax_ok {l : List Num} {m : Num} (h : npMax l = .ok m) (hl : ∀ x ∈ l, x ≠ .nan) :
    (∀ x ∈ l, x.le m = true) ∧ m ∈ l := by
  cases l with
  | nil => cases h
  | cons a l =>
    have : (a :: l).any (fun x => decide (x = .nan)) = false := by
      simpa using hl
    simp only [npMax, this, Except.ok.injEq] at h
    subst h
    exact foldl_pyMax (hl a (by simp)) (fun x hx => hl x (by simp [hx]))

theorem npMin_ok {l : List Num} {m : Num} (h : npMin l = .ok m) (hl : ∀ x ∈ l, x ≠ .nan) :
    (∀ x ∈ l, m.le x = true) ∧ m ∈ l := by
  cases l with
  | nil => cases h
  | cons a l =>
    have : (a :: l).any (fun x => decide (x = .nan)) = false := by
      simpa using hl
    simp only [npMin, this, Except.ok.injEq] at h
    subst h
    exact foldl_pyMin (hl a (by simp)) (fun x hx => hl x (by simp [hx]))

/-- What `components` returns are exactly the components of the velocities. -/
theorem components_ok {read : Reader} {file : String} {xs ys : List Num} (hr : ReadsArrays read)
    (h : components read file = .ok (xs, ys)) :
    (∀ v, Velocity read file v → v.1 ∈ xs ∧ v.2 ∈ ys) ∧ (∀ x ∈ xs, ∃ v, Velocity read file v ∧ v.1 = x) ∧
      (∀ y ∈ ys, ∃ v, Velocity read file v ∧ v.2 = y) := by
  unfold components at h
  split at h
  · cases h
  · cases h
  · cases h
  rename_i shape points rest hread
  split at h
  swap
  · cases h
  unfold component at h
  by_cases h0 : 0 < shape.getLastD 0
  swap
  · rw [if_neg h0] at h; cases h
  by_cases h1 : 1 < shape.getLastD 0
  swap
  · rw [if_pos h0, if_neg h1] at h; cases h
  rw [if_pos h0, if_pos h1] at h
  simp only [Except.ok.injEq, Prod.mk.injEq] at h
  obtain ⟨rfl, rfl⟩ := h
  have hlen := hr _ _ _ _ hread
  have hvel : ∀ p ∈ points, Velocity read file (p.getD 0 .nan, p.getD 1 .nan) := by
    intro p hp
    have := hlen p hp
    refine ⟨shape, points, rest, hread, p, hp, ?_, ?_⟩
    · have : 0 < p.length := by omega
      simp [List.getD, this]
    · have : 1 < p.length := by omega
      simp [List.getD, this]
  refine ⟨?_, ?_, ?_⟩
  · rintro v ⟨s', p', r', hread', p, hp, hx, hy⟩
    rw [hread] at hread'
    simp only [Except.ok.injEq, List.cons.injEq, Content.data.injEq] at hread'
    obtain ⟨⟨rfl, rfl⟩, rfl⟩ := hread'
    exact ⟨List.mem_map.2 ⟨p, hp, by simp [List.getD, hx]⟩, List.mem_map.2 ⟨p, hp, by simp [List.getD, hy]⟩⟩
  · intro x hx
    obtain ⟨p, hp, rfl⟩ := List.mem_map.1 hx
    exact ⟨_, hvel p hp, rfl⟩
  · intro x hx
    obtain ⟨p, hp, rfl⟩ := List.mem_map.1 hx
    exact ⟨_, hvel p hp, rfl⟩

/-- The invariant of the loop: bounds of everything seen, attained unless nothing was seen. -/
structure Inv (V : Num × Num → Prop) (s : Speeds) : Prop where
  bounds : ∀ v, V v → s.minX.le v.1 = true ∧ v.1.le s.maxX = true ∧ s.minY.le v.2 = true ∧ v.2.le s.maxY = true
  minX : (∃ v, V v ∧ v.1 = s.minX) ∨ s.minX = .inf
  maxX : (∃ v, V v ∧ v.1 = s.maxX) ∨ s.maxX = .neginf
  minY : (∃ v, V v ∧ v.2 = s.minY) ∨ s.minY = .inf
  maxY : (∃ v, V v ∧ v.2 = s.maxY) ∨ s.maxY = .neginf
  nn : s.minX ≠ .nan ∧ s.maxX ≠ .nan ∧ s.minY ≠ .nan ∧ s.maxY ≠ .nan

theorem le_neginf {a : Num} (ha : a.le .neginf = true) : a = .neginf := by
  cases a <;> simp_all [Num.le]

theorem inf_le {a : Num} (ha : Num.le .inf a = true) : a = .inf := by
  cases a <;> simp_all [Num.le]

/-- What one file does to one running maximum. -/
theorem max_step {A B : Num → Prop} {m a : Num} (hm : m ≠ .nan) (ha : a ≠ .nan) (hA : ∀ x, A x → x.le m = true)
    (hB : ∀ x, B x → x.le a = true) (hBa : B a) (hatt : A m ∨ m = .neginf) :
    (∀ x, A x ∨ B x → x.le (pyMax m a) = true) ∧ (A (pyMax m a) ∨ B (pyMax m a)) ∧ pyMax m a ≠ .nan := by
  obtain ⟨h1, h2, h3⟩ := pyMax_spec hm ha
  refine ⟨?_, ?_, ?_⟩
  · rintro x (hx | hx)
    · exact num_le_trans (hA x hx) h1
    · exact num_le_trans (hB x hx) h2
  · rcases h3 with h | h
    · rw [h]
      rcases hatt with hatt | hatt
      · exact .inl hatt
      · rw [h, hatt] at h2
        rw [hatt, ← le_neginf h2]
        exact .inr hBa
    · rw [h]; exact .inr hBa
  · rcases h3 with h | h <;> rw [h] <;> assumption

theorem min_step {A B : Num → Prop} {m a : Num} (hm : m ≠ .nan) (ha : a ≠ .nan) (hA : ∀ x, A x → m.le x = true)
    (hB : ∀ x, B x → a.le x = true) (hBa : B a) (hatt : A m ∨ m = .inf) :
    (∀ x, A x ∨ B x → (pyMin m a).le x = true) ∧ (A (pyMin m a) ∨ B (pyMin m a)) ∧ pyMin m a ≠ .nan := by
  obtain ⟨h1, h2, h3⟩ := pyMin_spec hm ha
  refine ⟨?_, ?_, ?_⟩
  · rintro x (hx | hx)
    · exact num_le_trans h1 (hA x hx)
    · exact num_le_trans h2 (hB x hx)
  · rcases h3 with h | h
    · rw [h]
      rcases hatt with hatt | hatt
      · exact .inl hatt
      · rw [h, hatt] at h2
        rw [hatt, ← inf_le h2]
        exact .inr hBa
    · rw [h]; exact .inr hBa
  · rcases h3 with h | h <;> rw [h] <;> assumption

theorem speedStep_inv {read : Reader} {V : Num × Num → Prop} {s s' : Speeds} {file : String} (hr : ReadsArrays read)
    (hn : ∀ v, Velocity read file v → v.1 ≠ .nan ∧ v.2 ≠ .nan) (hi : Inv V s) (h : speedStep read s file = .ok s') :
    Inv (fun v => V v ∨ Velocity read file v) s' ∧ ExactBounds (fun v => V v ∨ Velocity read file v) s' := by
  unfold speedStep at h
  split at h
  · cases h
  rename_i xs ys hc
  split at h
  swap
  · cases h
  rename_i ax ay ix iy hax hay hix hiy
  cases h
  obtain ⟨hv, hx, hy⟩ := components_ok hr hc
  have nx : ∀ x ∈ xs, x ≠ .nan := by
    intro x hxx; obtain ⟨v, hv', rfl⟩ := hx x hxx; exact (hn v hv').1
  have ny : ∀ x ∈ ys, x ≠ .nan := by
    intro x hxx; obtain ⟨v, hv', rfl⟩ := hy x hxx; exact (hn v hv').2
  have hax := npMax_ok hax nx
  have hay := npMax_ok hay ny
  have hix := npMin_ok hix nx
  have hiy := npMin_ok hiy ny
  have MX := max_step (A := fun x => ∃ v, V v ∧ v.1 = x) (B := fun x => x ∈ xs) hi.nn.2.1 (nx _ hax.2)
    (fun x ⟨v, hv, e⟩ => e ▸ (hi.bounds v hv).2.1) hax.1 hax.2 hi.maxX
  have MY := max_step (A := fun x => ∃ v, V v ∧ v.2 = x) (B := fun x => x ∈ ys) hi.nn.2.2.2 (ny _ hay.2)
    (fun x ⟨v, hv, e⟩ => e ▸ (hi.bounds v hv).2.2.2) hay.1 hay.2 hi.maxY
  have IX := min_step (A := fun x => ∃ v, V v ∧ v.1 = x) (B := fun x => x ∈ xs) hi.nn.1 (nx _ hix.2)
    (fun x ⟨v, hv, e⟩ => e ▸ (hi.bounds v hv).1) hix.1 hix.2 hi.minX
  have IY := min_step (A := fun x => ∃ v, V v ∧ v.2 = x) (B := fun x => x ∈ ys) hi.nn.2.2.1 (ny _ hiy.2)
    (fun x ⟨v, hv, e⟩ => e ▸ (hi.bounds v hv).2.2.1) hiy.1 hiy.2 hi.minY
  have attx : ∀ m, ((∃ v, V v ∧ v.1 = m) ∨ m ∈ xs) → ∃ v, (V v ∨ Velocity read file v) ∧ v.1 = m := by
    rintro m (⟨v, h1, h2⟩ | h)
    · exact ⟨v, .inl h1, h2⟩
    · obtain ⟨v, h1, h2⟩ := hx m h; exact ⟨v, .inr h1, h2⟩
  have atty : ∀ m, ((∃ v, V v ∧ v.2 = m) ∨ m ∈ ys) → ∃ v, (V v ∨ Velocity read file v) ∧ v.2 = m := by
    rintro m (⟨v, h1, h2⟩ | h)
    · exact ⟨v, .inl h1, h2⟩
    · obtain ⟨v, h1, h2⟩ := hy m h; exact ⟨v, .inr h1, h2⟩
  have hb : ∀ v, (V v ∨ Velocity read file v) → (pyMin s.minX ix).le v.1 = true ∧ v.1.le (pyMax s.maxX ax) = true ∧
      (pyMin s.minY iy).le v.2 = true ∧ v.2.le (pyMax s.maxY ay) = true := by
    rintro v (h | h)
    · exact ⟨IX.1 _ (.inl ⟨v, h, rfl⟩), MX.1 _ (.inl ⟨v, h, rfl⟩), IY.1 _ (.inl ⟨v, h, rfl⟩), MY.1 _ (.inl ⟨v, h, rfl⟩)⟩
    · obtain ⟨h1, h2⟩ := hv v h
      exact ⟨IX.1 _ (.inr h1), MX.1 _ (.inr h1), IY.1 _ (.inr h2), MY.1 _ (.inr h2)⟩
  exact ⟨⟨hb, .inl (attx _ IX.2.1), .inl (attx _ MX.2.1), .inl (atty _ IY.2.1), .inl (atty _ MY.2.1),
      IX.2.2, MX.2.2, IY.2.2, MY.2.2⟩,
    ⟨hb, attx _ IX.2.1, attx _ MX.2.1, atty _ IY.2.1, atty _ MY.2.1⟩⟩

theorem exactBounds_congr {V W : Num × Num → Prop} {s : Speeds} (h : ∀ v, V v ↔ W v) (hV : ExactBounds V s) : ExactBounds W s := by
  have : V = W := by funext v; exact propext (h v)
  exact this ▸ hV

theorem speedLoop_inv {read : Reader} (hr : ReadsArrays read) {files : List String} :
    ∀ {V : Num × Num → Prop} {s s' : Speeds}, (∀ f ∈ files, ∀ v, Velocity read f v → v.1 ≠ .nan ∧ v.2 ≠ .nan) → Inv V s →
      (files = [] → ExactBounds V s) → speedLoop read s files = .ok s' →
      ExactBounds (fun v => V v ∨ ∃ f ∈ files, Velocity read f v) s' := by
  induction files with
  | nil =>
    intro V s s' _ _ he h
    cases h
    exact exactBounds_congr (by simp) (he rfl)
  | cons f fs ih =>
    intro V s s' hn hi _ h
    simp only [speedLoop] at h
    split at h
    · cases h
    rename_i s1 hs
    obtain ⟨h1, h2⟩ := speedStep_inv hr (hn f (by simp)) hi hs
    refine exactBounds_congr ?_ (ih (fun g hg => hn g (by simp [hg])) h1 (fun _ => h2) h)
    intro v
    simp only [List.mem_cons, exists_eq_or_imp]
    tauto

theorem get_set (c : Config) (k k' : String) (v : Val) : get (set c k v) k' = if k' = k then some v else get c k' := by
  unfold set get
  by_cases hk : c.any (fun e => e.1 == k) = true
  · rw [if_pos hk]
    induction c with
    | nil => simp at hk
    | cons a c ih =>
      by_cases ha : a.1 = k
      · subst ha
        by_cases hk' : k' = a.1
        · subst hk'; simp
        · have hne : (a.1 == k') = false := by simpa using fun h => hk' h.symm
          simp only [List.map_cons, beq_self_eq_true, if_true, List.find?_cons, hne, if_neg hk']
          clear ih hk
          induction c with
          | nil => rfl
          | cons b c ih =>
            by_cases hb : b.1 = a.1
            · have : (b.1 == k') = false := by rw [hb]; exact hne
              simp only [List.map_cons, hb, beq_self_eq_true, if_true, List.find?_cons, hne]
              exact ih
            · have hb' : (b.1 == a.1) = false := by simpa using hb
              simp only [List.map_cons, hb', List.find?_cons]
              cases hc : b.1 == k'
              · simpa [hc] using ih
              · simp [hc]
      · have ha' : (a.1 == k) = false := by simpa using ha
        have hk2 : c.any (fun e => e.1 == k) = true := by simpa [ha'] using hk
        simp only [List.map_cons, ha', List.find?_cons]
        cases hc : a.1 == k'
        · simpa [hc] using ih hk2
        · have : k' ≠ k := by
            have : a.1 = k' := by simpa using hc
            rw [← this]; exact ha
          simp [this, hc]
  · rw [if_neg hk]
    have hk : ∀ e ∈ c, (e.1 == k) = false := by
      intro e he
      by_contra hc
      exact hk (List.any_eq_true.2 ⟨e, he, by simpa using hc⟩)
    rw [List.find?_append]
    by_cases h : k' = k
    · subst h
      have : c.find? (fun e => e.1 == k') = none := by
        rw [List.find?_eq_none]; intro e he; simp [hk e he]
      simp [this]
    · have : (k == k') = false := by simpa using fun h' => h h'.symm
      cases c.find? (fun e => e.1 == k') <;> simp [this, h]

theorem get_foldl_set (updates : List (String × Val)) (hu : (updates.map Prod.fst).Nodup) (c : Config) (k : String) :
    get (updates.foldl (fun c e => set c e.1 e.2) c) k = updated c updates k := by
  induction updates generalizing c with
  | nil => rfl
  | cons a u ih =>
    simp only [List.map_cons, List.nodup_cons] at hu
    rw [List.foldl_cons, ih hu.2]
    unfold updated
    rw [get_set]
    by_cases hk : k = a.1
    · subst hk
      have h1 : get u a.1 = none := by
        unfold get
        rw [Option.map_eq_none_iff, List.find?_eq_none]
        intro e he hee
        exact hu.1 (List.mem_map.2 ⟨e, he, by simpa using hee⟩)
      have h2 : get (a :: u) a.1 = some a.2 := by simp [get]
      rw [h1, h2]; simp
    · have h2 : get (a :: u) k = get u k := by
        have : (a.1 == k) = false := by simpa using fun h => hk h.symm
        simp [get, this]
      rw [h2, if_neg hk]

theorem get_filter (c : Config) (k : String) (hk : k ≠ "file_list") : get (c.filter (fun e => e.1 != "file_list")) k = get c k := by
  induction c with
  | nil => rfl
  | cons a c ih =>
    by_cases ha : a.1 = "file_list"
    · have h1 : (a.1 != "file_list") = false := by simpa using ha
      have h2 : (a.1 == k) = false := by rw [ha]; simpa using fun h => hk h.symm
      simp only [List.filter_cons, h1]
      rw [show get (a :: c) k = get c k by simp [get, h2]]
      simpa using ih
    · have h1 : (a.1 != "file_list") = true := by simpa using ha
      simp only [List.filter_cons, h1, if_true]
      cases h2 : a.1 == k
      · have e1 : ∀ c', get (a :: c') k = get c' k := by intro c'; simp [get, h2]
        rw [e1, e1, ih]
      · simp [get, h2]

theorem get_load (parse : String → Val) (text : Val → String) (c : Config) (b : Option (List String)) (k : String) (hk : k ≠ "file_list") :
    get (load parse { entries := c.map (fun e => (e.1, text e.2)), fileList := b }) k = (get c k).map (fun v => parse (text v)) := by
  unfold load
  have hb : ∀ l : Config, get (l ++ (match b with | some items => [("file_list", .list (items.map parse))] | none => [])) k = get l k := by
    intro l
    unfold get
    rw [List.find?_append]
    have : ("file_list" == k) = false := by simpa using fun h => hk h.symm
    cases b <;> simp [this]
  refine (hb _).trans ?_
  induction c with
  | nil => rfl
  | cons a c ih =>
    cases h : a.1 == k
    · have e1 : ∀ c', get (a :: c') k = get c' k := by intro c'; simp [get, h]
      rw [e1]
      rw [← ih]
      simp [get, h]
    · simp [get, h]

theorem filesCheck_ok {isFile : String → Bool} {l : List Val} {files : List String} :
    filesCheck isFile l = .ok files ↔ l = files.map Val.str ∧ ∀ f ∈ files, isFile f = true ∧ f.endsWith ".h5" = true := by
  induction l generalizing files with
  | nil =>
    simp only [filesCheck, Except.ok.injEq]
    constructor
    · rintro rfl; simp
    · rintro ⟨h, _⟩; simpa using h.symm
  | cons a l ih =>
    cases a with
    | str s =>
      simp only [filesCheck]
      cases h1 : isFile s
      · simp only [Bool.not_false, if_true]
        constructor
        · intro h; cases h
        · rintro ⟨h, h'⟩
          cases files with
          | nil => simp at h
          | cons f fs =>
            simp only [List.map_cons, List.cons.injEq, Val.str.injEq] at h
            have := (h' f (by simp)).1
            rw [← h.1, h1] at this; cases this
      cases h2 : s.endsWith ".h5"
      · simp only [Bool.not_false, Bool.not_true, if_true]
        constructor
        · intro h; simp at h
        · rintro ⟨h, h'⟩
          cases files with
          | nil => simp at h
          | cons f fs =>
            simp only [List.map_cons, List.cons.injEq, Val.str.injEq] at h
            have := (h' f (by simp)).2
            rw [← h.1, h2] at this; cases this
      simp only [Bool.not_true, Bool.false_eq_true, if_false]
      cases h3 : filesCheck isFile l with
      | error e =>
        constructor
        · intro h; cases h
        · rintro ⟨h, h'⟩
          cases files with
          | nil => simp at h
          | cons f fs =>
            simp only [List.map_cons, List.cons.injEq, Val.str.injEq] at h
            have := (ih (files := fs)).2 ⟨h.2, fun g hg => h' g (by simp [hg])⟩
            rw [h3] at this; cases this
      | ok r =>
        have := (ih (files := r)).1 h3
        constructor
        · intro h
          cases h
          refine ⟨by simp [this.1], ?_⟩
          intro f hf
          rcases List.mem_cons.1 hf with rfl | hf
          · exact ⟨h1, h2⟩
          · exact this.2 f hf
        · rintro ⟨h, h'⟩
          cases files with
          | nil => simp at h
          | cons f fs =>
            simp only [List.map_cons, List.cons.injEq, Val.str.injEq] at h
            have := (ih (files := fs)).2 ⟨h.2, fun g hg => h' g (by simp [hg])⟩
            rw [h3] at this; cases this
            rw [h.1]
    | _ =>
      simp only [filesCheck]
      constructor
      · intro h; cases h
      · rintro ⟨h, _⟩
        cases files <;> simp at h

end Verif.Sanity
