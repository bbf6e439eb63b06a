import Verif.Spec.Glob
import Mathlib.Data.String.Basic
import Mathlib.Data.List.Nodup
/-!
# Lemmas on the files below a directory
-/

namespace Verif.Glob
open Verif

/-- The path of an entry, as `glob` builds it. -/
def walk (d : String) (comps : List String) : String := comps.foldl join d

theorem fnmatch_iff {p : Pat} {n : String} : fnmatch p n = true ↔ Matches p n := by
  unfold fnmatch Matches
  simp only [Bool.and_eq_true, List.isPrefixOf_iff_prefix, List.isSuffixOf_iff_suffix]
  constructor
  · rintro ⟨⟨t, ht⟩, ⟨mid, hm⟩⟩
    refine ⟨mid, ?_⟩
    rw [← ht, List.drop_left] at hm
    rw [← ht, ← hm, List.append_assoc]
  · rintro ⟨mid, h⟩
    rw [h, List.append_assoc]
    refine ⟨⟨_, rfl⟩, ?_⟩
    rw [List.drop_left]
    exact ⟨mid, rfl⟩

theorem fnmatch_false_iff {p : Pat} {n : String} : fnmatch p n = false ↔ ¬ Matches p n := by
  rw [← fnmatch_iff, Bool.not_eq_true]

theorem hidden_iff {n : String} : hidden n = false ↔ n.toList.head? ≠ some '.' := by
  unfold hidden
  simp

theorem At.comps_ne {items comps x} (h : At items comps x) : comps ≠ [] := by
  cases h <;> simp

theorem at_dir {items n l comps x} (hm : (n, Node.dir l) ∈ items) (h : At l comps x) : At items (n :: comps) x := .down hm h

theorem Named.sub {items n l} (h : Named items) (hm : (n, Node.dir l) ∈ items) : Named l where
  distinct l' h' := by
    refine h.distinct l' (Or.inr ?_)
    rcases h' with rfl | ⟨comps, hc⟩
    · exact ⟨[n], .here hm⟩
    · exact ⟨n :: comps, .down hm hc⟩
  names comps x hc m hm' := h.names (n :: comps) x (.down hm hc) m (by simp [hm'])

/-- What `_glob1` finds. -/
theorem mem_glob1 {p d items q} : q ∈ glob1 p d items ↔
    ∃ n x, (n, x) ∈ items ∧ hidden n = false ∧ fnmatch p n = true ∧ q = join d n := by
  unfold glob1
  simp only [List.mem_map, List.mem_filter, Bool.not_eq_eq_eq_not, Bool.not_true, Prod.exists]
  constructor
  · rintro ⟨n, x, ⟨⟨h1, h2⟩, h3⟩, rfl⟩; exact ⟨n, x, h1, h2, h3, rfl⟩
  · rintro ⟨n, x, h1, h2, h3, rfl⟩; exact ⟨n, x, ⟨⟨h1, h2⟩, h3⟩, rfl⟩

/-- The names on the way are visible, and the last matches. -/
def Found (p : Pat) (comps : List String) : Prop :=
  (∀ n ∈ comps, hidden n = false) ∧ ∃ n, comps.getLast? = some n ∧ fnmatch p n = true

mutual
theorem mem_rglobItem (p : Pat) (x : Node) : ∀ d q, q ∈ rglobItem p d x ↔
    ∃ l comps y, x = .dir l ∧ At l comps y ∧ Found p comps ∧ q = walk d comps := by
  cases x with
  | file => intro d q; simp [rglobItem]
  | dir l =>
    intro d q
    rw [rglobItem, List.mem_append, mem_glob1, mem_rglobItems p l]
    constructor
    · rintro (⟨n, x, h1, h2, h3, rfl⟩ | ⟨n, m, comps, y, h1, h2, h3, rfl⟩)
      · exact ⟨l, [n], x, rfl, .here h1, ⟨by simpa using h2, n, rfl, h3⟩, rfl⟩
      · exact ⟨l, n :: comps, y, rfl, .down h1 h2, h3, rfl⟩
    · rintro ⟨l', comps, y, h1, h2, h3, rfl⟩
      injection h1 with h1
      subst h1
      cases h2 with
      | here hm =>
        obtain ⟨n', e, hf⟩ := h3.2
        simp only [List.getLast?_singleton, Option.some.injEq] at e
        subst e
        exact Or.inl ⟨_, _, hm, h3.1 _ (by simp), hf, rfl⟩
      | down hm hc => exact Or.inr ⟨_, _, _, _, hm, hc, h3, rfl⟩

theorem mem_rglobItems (p : Pat) (items : List (String × Node)) : ∀ d q, q ∈ rglobItems p d items ↔
    ∃ n l comps y, (n, Node.dir l) ∈ items ∧ At l comps y ∧ Found p (n :: comps) ∧ q = walk d (n :: comps) := by
  cases items with
  | nil => intro d q; simp [rglobItems]
  | cons a r =>
    obtain ⟨n, x⟩ := a
    intro d q
    rw [rglobItems, List.mem_append, mem_rglobItems p r]
    have key : q ∈ (if hidden n then [] else rglobItem p (join d n) x) ↔
        ∃ l comps y, x = .dir l ∧ At l comps y ∧ Found p (n :: comps) ∧ q = walk d (n :: comps) := by
      by_cases hh : hidden n = true
      · rw [if_pos hh]
        simp only [List.not_mem_nil, false_iff]
        rintro ⟨l, comps, y, _, _, hf, _⟩
        have := hf.1 n (by simp)
        simp [hh] at this
      · rw [if_neg hh, mem_rglobItem p x]
        have aux : ∀ comps : List String, comps ≠ [] → (Found p comps ↔ Found p (n :: comps)) := by
          intro comps hne
          unfold Found
          rw [List.getLast?_cons]
          cases e : comps.getLast? with
          | none => exact absurd (List.getLast?_eq_none_iff.mp e) hne
          | some m => simp [Bool.eq_false_iff.mpr hh]
        constructor
        · rintro ⟨l, comps, y, h1, h2, h3, rfl⟩
          exact ⟨l, comps, y, h1, h2, (aux comps h2.comps_ne).mp h3, rfl⟩
        · rintro ⟨l, comps, y, h1, h2, h3, rfl⟩
          exact ⟨l, comps, y, h1, h2, (aux comps h2.comps_ne).mpr h3, rfl⟩
    rw [key]
    constructor
    · rintro (⟨l, comps, y, rfl, h⟩ | ⟨m, l, comps, y, h1, h⟩)
      · exact ⟨n, l, comps, y, by simp, h⟩
      · exact ⟨m, l, comps, y, by simp [h1], h⟩
    · rintro ⟨m, l, comps, y, h1, h⟩
      rcases List.mem_cons.mp h1 with h1 | h1
      · simp only [Prod.mk.injEq] at h1
        obtain ⟨rfl, rfl⟩ := h1
        exact Or.inl ⟨l, comps, y, rfl, h⟩
      · exact Or.inr ⟨m, l, comps, y, h1, h⟩
end

/-- What `glob` finds: the visible entries that match. -/
theorem mem_glob {p d items q} : q ∈ glob p d items ↔
    ∃ comps y, At items comps y ∧ Found p comps ∧ (p.deep = true ∨ comps.length = 1) ∧ q = walk d comps := by
  unfold glob
  rw [List.mem_append, mem_glob1]
  constructor
  · rintro (⟨n, x, h1, h2, h3, rfl⟩ | h)
    · exact ⟨[n], x, .here h1, ⟨by simpa using h2, n, rfl, h3⟩, Or.inr rfl, rfl⟩
    · by_cases hd : p.deep = true
      · rw [if_pos hd, mem_rglobItems] at h
        obtain ⟨n, l, comps, y, h1, h2, h3, rfl⟩ := h
        exact ⟨n :: comps, y, .down h1 h2, h3, Or.inl hd, rfl⟩
      · rw [if_neg hd] at h
        cases h
  · rintro ⟨comps, y, h1, h2, h3, rfl⟩
    cases h1 with
    | here hm =>
      obtain ⟨n', e, hf⟩ := h2.2
      simp only [List.getLast?_singleton, Option.some.injEq] at e
      subst e
      exact Or.inl ⟨_, _, hm, h2.1 _ (by simp), hf, rfl⟩
    | down hm hc =>
      rcases h3 with h3 | h3
      · rw [if_pos h3, mem_rglobItems]
        exact Or.inr ⟨_, _, _, _, hm, hc, h2, rfl⟩
      · simp only [List.length_cons, Nat.add_eq_right, List.length_eq_zero_iff] at h3
        exact absurd h3 hc.comps_ne

/-! ## Paths are different -/

/-- The characters of a path after the directory. -/
def rest : List String → List Char
  | [] => []
  | n :: r => '/' :: (n.toList ++ rest r)

theorem join_toList {d n : String} (h : d.toList.getLast? ≠ some '/') : (join d n).toList = d.toList ++ '/' :: n.toList := by
  unfold join
  rw [if_neg h]
  simp

theorem last_of_name {d : List Char} {n : String} (h1 : n ≠ "") (h2 : '/' ∉ n.toList) :
    (d ++ n.toList).getLast? ≠ some '/' := by
  have hne : n.toList ≠ [] := fun e => h1 (String.toList_injective (by simpa using e))
  rw [List.getLast?_append]
  cases e : n.toList.getLast? with
  | none => exact absurd (List.getLast?_eq_none_iff.mp e) hne
  | some c =>
    intro h
    have hc : c = '/' := by simpa using h
    exact h2 (hc ▸ List.mem_of_getLast? e)

theorem join_last {d n : String} (h1 : n ≠ "") (h2 : '/' ∉ n.toList) : (join d n).toList.getLast? ≠ some '/' := by
  unfold join
  split
  · rw [String.toList_append]; exact last_of_name h1 h2
  · rw [String.toList_append]; exact last_of_name h1 h2

theorem walk_toList (comps : List String) : ∀ d : String, d.toList.getLast? ≠ some '/' →
    (∀ n ∈ comps, n ≠ "" ∧ '/' ∉ n.toList) → (walk d comps).toList = d.toList ++ rest comps := by
  induction comps with
  | nil => intro d _ _; simp [walk, rest]
  | cons n r ih =>
    intro d hd hn
    have e : walk d (n :: r) = walk (join d n) r := rfl
    rw [e, ih _ (join_last (hn n (by simp)).1 (hn n (by simp)).2) (fun m hm => hn m (by simp [hm])), join_toList hd]
    simp [rest]

/-- The directory with its `/`. -/
def slash (d : String) : List Char := if d.toList.getLast? = some '/' then d.toList else d.toList ++ ['/']

theorem walk_cons (d n : String) (r : List String) (hn : ∀ m ∈ n :: r, m ≠ "" ∧ '/' ∉ m.toList) :
    (walk d (n :: r)).toList = slash d ++ (n.toList ++ rest r) := by
  have e : walk d (n :: r) = walk (join d n) r := rfl
  rw [e, walk_toList r _ (join_last (hn n (by simp)).1 (hn n (by simp)).2) (fun m hm => hn m (by simp [hm]))]
  unfold join slash
  split <;> simp

theorem fold_toList (r : List String) : ∀ q : String, (r.foldl (fun q m => q ++ "/" ++ m) q).toList = q.toList ++ rest r := by
  induction r with
  | nil => intro q; simp [rest]
  | cons m r ih => intro q; rw [List.foldl_cons, ih]; simp [rest]

/-- `glob` builds the right paths. -/
theorem walk_eq {d : String} {comps : List String} (hn : ∀ m ∈ comps, m ≠ "" ∧ '/' ∉ m.toList) : walk d comps = pathOf d comps := by
  cases comps with
  | nil => rfl
  | cons n r =>
    refine String.toList_injective ?_
    rw [walk_cons d n r hn, pathOf, fold_toList]
    unfold slash
    split <;> simp

theorem split_slash {a b u v : List Char} (ha : '/' ∉ a) (hb : '/' ∉ b) (hu : u = [] ∨ u.head? = some '/')
    (hv : v = [] ∨ v.head? = some '/') (h : a ++ u = b ++ v) : a = b ∧ u = v := by
  induction a generalizing b with
  | nil =>
    cases b with
    | nil => exact ⟨rfl, h⟩
    | cons c b =>
      exfalso
      simp only [List.nil_append, List.cons_append] at h
      subst h
      simp at hu
      exact hb (by simp [hu])
  | cons c a ih =>
    cases b with
    | nil =>
      exfalso
      simp only [List.nil_append, List.cons_append] at h
      subst h
      simp at hv
      exact ha (by simp [hv])
    | cons c' b =>
      simp only [List.cons_append, List.cons.injEq] at h
      simp only [List.mem_cons, not_or] at ha hb
      obtain ⟨h1, h2⟩ := ih ha.2 hb.2 h.2
      exact ⟨by rw [h.1, h1], h2⟩

theorem rest_head (r : List String) : rest r = [] ∨ (rest r).head? = some '/' := by
  cases r <;> simp [rest]

theorem rest_inj {r r' : List String} (h1 : ∀ n ∈ r, n ≠ "" ∧ '/' ∉ n.toList) (h2 : ∀ n ∈ r', n ≠ "" ∧ '/' ∉ n.toList)
    (h : rest r = rest r') : r = r' := by
  induction r generalizing r' with
  | nil => cases r' with
    | nil => rfl
    | cons => simp [rest] at h
  | cons n r ih => cases r' with
    | nil => simp [rest] at h
    | cons n' r' =>
      simp only [rest, List.cons.injEq, true_and] at h
      obtain ⟨e1, e2⟩ := split_slash (h1 n (by simp)).2 (h2 n' (by simp)).2 (rest_head r) (rest_head r') h
      rw [String.toList_injective e1, ih (fun m hm => h1 m (by simp [hm])) (fun m hm => h2 m (by simp [hm])) e2]

/-- Different ways down give different paths. -/
theorem walk_inj {d : String} {c c' : List String} (hc : c ≠ []) (hc' : c' ≠ [])
    (h1 : ∀ n ∈ c, n ≠ "" ∧ '/' ∉ n.toList) (h2 : ∀ n ∈ c', n ≠ "" ∧ '/' ∉ n.toList)
    (h : walk d c = walk d c') : c = c' := by
  cases c with
  | nil => exact absurd rfl hc
  | cons n r => cases c' with
    | nil => exact absurd rfl hc'
    | cons n' r' =>
      have := congrArg String.toList h
      rw [walk_cons d n r h1, walk_cons d n' r' h2] at this
      have := List.append_cancel_left this
      obtain ⟨e1, e2⟩ := split_slash (h1 n (by simp)).2 (h2 n' (by simp)).2 (rest_head r) (rest_head r') this
      rw [String.toList_injective e1, rest_inj (fun m hm => h1 m (by simp [hm])) (fun m hm => h2 m (by simp [hm])) e2]

theorem glob1_nodup {p : Pat} {d : String} {items : List (String × Node)} (h : Named items) : (glob1 p d items).Nodup := by
  have hn := h.distinct items (Or.inl rfl)
  have hnames : ∀ q ∈ items, q.1 ≠ "" ∧ '/' ∉ q.1.toList := fun q hq => h.names [q.1] q.2 (.here hq) q.1 (by simp)
  unfold glob1
  rw [List.filter_filter]
  have : (((items.filter (fun a => fnmatch p a.1 && !hidden a.1)).map Prod.fst)).Nodup :=
    hn.sublist (List.filter_sublist.map _)
  have e : ((items.filter (fun a => fnmatch p a.1 && !hidden a.1)).map (fun q => join d q.1)) =
      ((items.filter (fun a => fnmatch p a.1 && !hidden a.1)).map Prod.fst).map (join d) := by
    rw [List.map_map]; rfl
  rw [e]
  refine List.Nodup.map_on ?_ this
  intro a ha b hb hab
  have hm : ∀ a, a ∈ (items.filter (fun a => fnmatch p a.1 && !hidden a.1)).map Prod.fst → a ≠ "" ∧ '/' ∉ a.toList := by
    intro a ha
    obtain ⟨q, hq, rfl⟩ := List.mem_map.mp ha
    exact hnames q (List.mem_filter.mp hq).1
  have := walk_inj (d := d) (c := [a]) (c' := [b]) (by simp) (by simp)
    (by intro n hn; simp only [List.mem_singleton] at hn; subst hn; exact hm _ ha)
    (by intro n hn; simp only [List.mem_singleton] at hn; subst hn; exact hm _ hb) hab
  simpa using this

/-- The part of `Named` that goes down along a list of entries. -/
structure NamedList (items : List (String × Node)) : Prop where
  nodup : (items.map Prod.fst).Nodup
  sub : ∀ n l, (n, Node.dir l) ∈ items → Named l
  name : ∀ q ∈ items, q.1 ≠ "" ∧ '/' ∉ q.1.toList

theorem Named.list {items} (h : Named items) : NamedList items where
  nodup := h.distinct items (Or.inl rfl)
  sub _ _ hm := h.sub hm
  name q hq := h.names [q.1] q.2 (.here hq) q.1 (by simp)

theorem NamedList.tail {a r} (h : NamedList (a :: r)) : NamedList r where
  nodup := (List.nodup_cons.mp (by simpa using h.nodup)).2
  sub n l hm := h.sub n l (by simp [hm])
  name q hq := h.name q (by simp [hq])

mutual
theorem rglobItem_nodup (p : Pat) (x : Node) : ∀ d, (∀ l, x = .dir l → Named l) → (rglobItem p d x).Nodup := by
  cases x with
  | file => intro d _; simp [rglobItem]
  | dir l =>
    intro d h
    have hl := h l rfl
    rw [rglobItem]
    refine List.nodup_append.mpr ⟨glob1_nodup hl, rglobItems_nodup p l d hl.list, ?_⟩
    rintro a ha b hb rfl
    obtain ⟨n, x, h1, _, _, rfl⟩ := mem_glob1.mp ha
    obtain ⟨m, l', comps, y, h2, h3, _, e⟩ := (mem_rglobItems p l d _).mp hb
    have := walk_inj (d := d) (c := [n]) (c' := m :: comps) (by simp) (by simp)
      (hl.names _ _ (.here h1)) (hl.names _ _ (.down h2 h3)) e
    simp only [List.cons.injEq] at this
    exact h3.comps_ne this.2.symm

theorem rglobItems_nodup (p : Pat) (items : List (String × Node)) : ∀ d, NamedList items → (rglobItems p d items).Nodup := by
  cases items with
  | nil => intro d _; simp [rglobItems]
  | cons a r =>
    obtain ⟨n, x⟩ := a
    intro d h
    rw [rglobItems]
    by_cases hh : hidden n = true
    · rw [if_pos hh, List.nil_append]
      exact rglobItems_nodup p r d h.tail
    · rw [if_neg hh]
      have hx : ∀ l, x = .dir l → Named l := fun l e => h.sub n l (by simp [e])
      refine List.nodup_append.mpr ⟨rglobItem_nodup p x (join d n) hx, rglobItems_nodup p r d h.tail, ?_⟩
      rintro a ha b hb rfl
      obtain ⟨l₀, comps, y, rfl, h3, _, e1⟩ := (mem_rglobItem p x _ _).mp ha
      obtain ⟨m, l', comps', y', h4, h5, _, e2⟩ := (mem_rglobItems p r d _).mp hb
      rw [e1] at e2
      have k : ∀ (m : String) (l : List (String × Node)) (c : List String) (y : Node), (m, Node.dir l) ∈ (n, Node.dir l₀) :: r → At l c y →
          ∀ k ∈ m :: c, k ≠ "" ∧ '/' ∉ k.toList := by
        intro m l c y hm hc k hk
        rcases List.mem_cons.mp hk with rfl | hk
        · exact h.name _ hm
        · exact (h.sub _ _ hm).names c y hc k hk
      have := walk_inj (d := d) (c := n :: comps) (c' := m :: comps') (by simp) (by simp)
        (k n l₀ comps y (by simp) h3) (k m l' comps' y' (by simp [h4]) h5) e2
      simp only [List.cons.injEq] at this
      have hnd : n ∉ r.map Prod.fst := (List.nodup_cons.mp h.nodup).1
      exact hnd (List.mem_map.mpr ⟨(m, Node.dir l'), h4, this.1.symm⟩)
end

/-- `glob` lists nothing twice. -/
theorem glob_nodup {p : Pat} {d : String} {items : List (String × Node)} (h : Named items) : (glob p d items).Nodup := by
  unfold glob
  by_cases hd : p.deep = true
  · rw [if_pos hd]
    have := rglobItem_nodup p (.dir items) d (fun l e => by injection e with e; exact e ▸ h)
    rwa [rglobItem] at this
  · rw [if_neg hd, List.append_nil]
    exact glob1_nodup h

mutual
theorem mem_pathsItem (x : Node) : ∀ d q y, (q, y) ∈ pathsItem d x ↔
    ∃ l comps, x = .dir l ∧ At l comps y ∧ q = walk d comps := by
  cases x with
  | file => intro d q y; simp [pathsItem]
  | dir l =>
    intro d q y
    rw [pathsItem, mem_pathsItems l]
    constructor
    · rintro ⟨comps, h1, h2⟩; exact ⟨l, comps, rfl, h1, h2⟩
    · rintro ⟨l', comps, e, h1, h2⟩
      injection e with e
      subst e
      exact ⟨comps, h1, h2⟩

theorem mem_pathsItems (items : List (String × Node)) : ∀ d q y, (q, y) ∈ pathsItems d items ↔
    ∃ comps, At items comps y ∧ q = walk d comps := by
  cases items with
  | nil =>
    intro d q y
    simp only [pathsItems, List.not_mem_nil, false_iff]
    rintro ⟨comps, h, _⟩
    cases h with
    | here h => cases h
    | down h => cases h
  | cons a r =>
    obtain ⟨n, x⟩ := a
    intro d q y
    rw [pathsItems, List.mem_cons, List.mem_append, mem_pathsItem x, mem_pathsItems r]
    constructor
    · rintro (h | ⟨l, comps, rfl, h1, rfl⟩ | ⟨comps, h1, rfl⟩)
      · simp only [Prod.mk.injEq] at h
        obtain ⟨rfl, rfl⟩ := h
        exact ⟨[n], .here (by simp), rfl⟩
      · exact ⟨n :: comps, .down (by simp) h1, rfl⟩
      · refine ⟨comps, ?_, rfl⟩
        cases h1 with
        | here h => exact .here (by simp [h])
        | down h h' => exact .down (List.mem_cons_of_mem _ h) h'
    · rintro ⟨comps, h, rfl⟩
      cases h with
      | here h =>
        rcases List.mem_cons.mp h with h | h
        · simp only [Prod.mk.injEq] at h
          obtain ⟨rfl, rfl⟩ := h
          exact Or.inl rfl
        · exact Or.inr (Or.inr ⟨_, .here h, rfl⟩)
      | down h h' =>
        rcases List.mem_cons.mp h with h | h
        · simp only [Prod.mk.injEq] at h
          obtain ⟨rfl, rfl⟩ := h
          exact Or.inr (Or.inl ⟨_, _, rfl, h', rfl⟩)
        · exact Or.inr (Or.inr ⟨_, .down h h', rfl⟩)
end

theorem At.unique {items comps x y} (h : Named items) (h1 : At items comps x) (h2 : At items comps y) : x = y := by
  have key : ∀ {items : List (String × Node)} {n x y}, (items.map Prod.fst).Nodup → (n, x) ∈ items → (n, y) ∈ items → x = y := by
    intro items n x y hn hx hy
    induction items with
    | nil => cases hx
    | cons a r ih =>
      simp only [List.map_cons, List.nodup_cons] at hn
      rcases List.mem_cons.mp hx with e1 | e1 <;> rcases List.mem_cons.mp hy with e2 | e2
      · rw [← e2] at e1; simp only [Prod.mk.injEq] at e1; exact e1.2
      · exact absurd (List.mem_map.mpr ⟨_, e2, by rw [← e1]⟩) hn.1
      · exact absurd (List.mem_map.mpr ⟨_, e1, by rw [← e2]⟩) hn.1
      · exact ih hn.2 e1 e2
  induction h1 with
  | here hm =>
    cases h2 with
    | here hm' => exact key h.list.nodup hm hm'
    | down _ h' => exact absurd rfl h'.comps_ne
  | down hm h1 ih =>
    cases h2 with
    | here _ => exact absurd rfl h1.comps_ne
    | down hm' h' =>
      have e := key h.list.nodup hm hm'
      injection e with e
      subst e
      exact ih (h.sub hm) h'

/-- A tree shows itself. -/
theorem treeFS_shows (p : Pat) (d : String) (items : List (String × Node)) (h : Named items) : Shows (treeFS p d items) p d items where
  isDir := by simp [treeFS]
  glob := by simp [treeFS]
  isFile comps x hx := by
    rw [← walk_eq (h.names _ _ hx), Bool.eq_iff_iff]
    simp only [treeFS, List.any_eq_true, Bool.and_eq_true, decide_eq_true_eq, Prod.exists]
    constructor
    · rintro ⟨q, y, hm, e, hy⟩
      obtain ⟨comps', h', rfl⟩ := (mem_pathsItems items d q y).mp hm
      have := walk_inj h'.comps_ne hx.comps_ne (h.names _ _ h') (h.names _ _ hx) e
      subst this
      rw [At.unique h hx h']; exact hy
    · intro hf
      exact ⟨_, x, (mem_pathsItems items d _ x).mpr ⟨comps, hx, rfl⟩, rfl, hf⟩

end Verif.Glob
