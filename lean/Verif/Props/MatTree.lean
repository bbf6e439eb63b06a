import Verif.Spec.MatTree
import Verif.Proofs.Formats
import Verif.Props.Formats
/-!
# Properties C84 and C85: the content of MAT files
-/

namespace Verif.Formats

/-- Names joined by '/'. -/
def joined : List String → String
  | [] => ""
  | [n] => n
  | n :: m :: ns => n ++ "/" ++ joined (m :: ns)

theorem slash_split {a b x y : List Char} (ha : '/' ∉ a) (hb : '/' ∉ b) (h : a ++ '/' :: x = b ++ '/' :: y) : a = b ∧ x = y := by
  induction a generalizing b with
  | nil =>
    cases b with
    | nil => simpa using h
    | cons c b => simp only [List.nil_append, List.cons_append, List.cons.injEq] at h; exact absurd (h.1 ▸ List.mem_cons_self) hb
  | cons d a ih =>
    cases b with
    | nil => simp only [List.nil_append, List.cons_append, List.cons.injEq] at h; exact absurd (h.1 ▸ List.mem_cons_self) ha
    | cons c b =>
      simp only [List.cons_append, List.cons.injEq] at h
      obtain ⟨h1, h2⟩ := ih (fun h => ha (List.mem_cons_of_mem _ h)) (fun h => hb (List.mem_cons_of_mem _ h)) h.2
      exact ⟨by rw [h.1, h1], h2⟩

theorem slash_inj {a b x y : String} (ha : '/' ∉ a.toList) (hb : '/' ∉ b.toList) (h : a ++ "/" ++ x = b ++ "/" ++ y) :
    a = b ∧ x = y := by
  have := congrArg String.toList h
  simp only [String.toList_append] at this
  obtain ⟨h1, h2⟩ := slash_split (x := x.toList) (y := y.toList) ha hb (by simpa using this)
  exact ⟨String.toList_inj.mp h1, String.toList_inj.mp h2⟩

theorem slash_ne {a b x : String} (hb : '/' ∉ b.toList) : a ++ "/" ++ x ≠ b := by
  rintro rfl
  apply hb
  simp [String.toList_append]

theorem prefix_ne (a x : String) : a ++ "/" ++ x ≠ "" := slash_ne (by simp)

mutual
theorem flattenItem_pre (pre path : String) (hp : path ≠ "") : (it : H5) → it.Named →
    flattenItem (pre ++ "/" ++ path) it = (flattenItem path it).map (fun q => (pre ++ "/" ++ q.1, q.2))
  | .dataset _, _ => rfl
  | .other, _ => rfl
  | .group l, h => by
    rw [H5.Named] at h
    rw [flattenItem, flattenItem]
    exact flattenItems_pre pre path hp l h

theorem flattenItems_pre (pre path : String) (hp : path ≠ "") : (l : List (String × H5)) → Named l →
    flattenItems (pre ++ "/" ++ path) l = (flattenItems path l).map (fun q => (pre ++ "/" ++ q.1, q.2))
  | [], _ => rfl
  | (n, it) :: r, h => by
    rw [Named] at h
    rw [flattenItems, flattenItems, if_neg (prefix_ne _ _), if_neg hp, List.map_append, ← flattenItems_pre pre path hp r h.2.2.2,
      ← flattenItem_pre pre (path ++ "/" ++ n) (prefix_ne _ _) it h.2.2.1]
    simp [String.append_assoc]
end

theorem flattenItems_group (pre : String) (hp : pre ≠ "") (l : List (String × H5)) (h : Named l) :
    flattenItems pre l = (flattenItems "" l).map (fun q => (pre ++ "/" ++ q.1, q.2)) := by
  induction l with
  | nil => rfl
  | cons q r ih =>
    obtain ⟨n, it⟩ := q
    rw [Named] at h
    rw [flattenItems, flattenItems, if_neg hp, if_pos rfl, List.map_append, ← ih h.2.2.2, flattenItem_pre pre n h.1.1 it h.2.2.1]

theorem lookup_map_pre (pre k : String) (hs : '/' ∉ pre.toList) (l : List (String × Arr Rat)) :
    (l.map (fun q => (pre ++ "/" ++ q.1, q.2))).lookup (pre ++ "/" ++ k) = l.lookup k := by
  induction l with
  | nil => rfl
  | cons q l ih =>
    rw [List.map_cons, List.lookup_cons, List.lookup_cons]
    by_cases hk : k = q.1
    · simp [hk]
    · have h1 : (k == q.1) = false := by simpa using hk
      have h2 : (pre ++ "/" ++ k == pre ++ "/" ++ q.1) = false := by
        simp only [beq_eq_false_iff_ne, ne_eq]
        exact fun h => hk (slash_inj hs hs h).2
      rw [h1, h2]
      exact ih

theorem lookup_none {l : List (String × Arr Rat)} {k : String} (h : ∀ q ∈ l, q.1 ≠ k) : l.lookup k = none := by
  induction l with
  | nil => rfl
  | cons q l ih =>
    rw [List.lookup_cons, show (k == q.1) = false by simpa using (h q List.mem_cons_self).symm]
    exact ih fun q' hq' => h q' (List.mem_cons_of_mem _ hq')

/-- The key of a path that begins with `n`. -/
theorem joined_cons (n : String) (ns : List String) : joined (n :: ns) = n ∨ ∃ x, joined (n :: ns) = n ++ "/" ++ x := by
  cases ns with
  | nil => exact .inl rfl
  | cons m ns => exact .inr ⟨_, rfl⟩

/-- The keys below one item begin with its name. -/
theorem flattenItem_keys {n : String} {it : H5} (hn : n ≠ "") (hi : it.Named) {q : String × Arr Rat} (h : q ∈ flattenItem n it) :
    q.1 = n ∨ ∃ x, q.1 = n ++ "/" ++ x := by
  cases it with
  | other => simp [flattenItem] at h
  | dataset a => simp only [flattenItem, List.mem_singleton] at h; exact .inl (by rw [h])
  | group l =>
    rw [H5.Named] at hi
    rw [flattenItem, flattenItems_group n hn l hi, List.mem_map] at h
    obtain ⟨q', _, rfl⟩ := h
    exact .inr ⟨_, rfl⟩

theorem flattenItem_lookup_ne {n m : String} {it : H5} (hn : n ≠ "") (hs : '/' ∉ n.toList) (hm : '/' ∉ m.toList) (hi : it.Named)
    (hne : n ≠ m) (ns : List String) : (flattenItem n it).lookup (joined (m :: ns)) = none := by
  refine lookup_none fun q hq he => ?_
  rcases flattenItem_keys hn hi hq with h | ⟨x, h⟩ <;> rcases joined_cons m ns with h' | ⟨y, h'⟩ <;> rw [h, h'] at he
  · exact hne he
  · exact slash_ne hs he.symm
  · exact slash_ne hm he
  · exact hne (slash_inj hs hm he).1

theorem flattenItems_lookup_none {l : List (String × H5)} (h : Named l) {m : String} (hm : '/' ∉ m.toList) (hml : m ∉ l.map Prod.fst)
    (ns : List String) : (flattenItems "" l).lookup (joined (m :: ns)) = none := by
  induction l with
  | nil => rfl
  | cons q r ih =>
    obtain ⟨n, it⟩ := q
    rw [Named] at h
    simp only [List.map_cons, List.mem_cons, not_or] at hml
    rw [flattenItems, if_pos rfl, List.lookup_append, flattenItem_lookup_ne h.1.1 h.1.2 hm h.2.2.1 (Ne.symm hml.1), ih h.2.2.2 hml.2]
    rfl

/-- C84, first part: the dictionary made from the tree of a version 7.3 file has, under the names joined by '/', exactly
the dataset reached by following these names, and nothing if there is none. -/
theorem C84_tree (items : List (String × H5)) (h : Named items) (ns : List String) (hne : ns ≠ [])
    (hs : ∀ n ∈ ns, '/' ∉ n.toList) : (flattenItems "" items).lookup (joined ns) = dataset? items ns := by
  induction ns generalizing items with
  | nil => exact absurd rfl hne
  | cons n ns ih =>
    have hn := hs n List.mem_cons_self
    induction items with
    | nil => cases ns <;> rfl
    | cons q r ihr =>
      obtain ⟨m, it⟩ := q
      rw [Named] at h
      rw [flattenItems, if_pos rfl, List.lookup_append]
      by_cases hm : n = m
      · subst hm
        rw [flattenItems_lookup_none h.2.2.2 hn h.2.1, Option.or_none]
        cases ns with
        | nil =>
          simp only [joined, dataset?, List.lookup_cons, beq_self_eq_true]
          cases it with
          | dataset a => simp [flattenItem]
          | other => rfl
          | group g =>
            refine lookup_none fun q hq he => ?_
            have hg := h.2.2.1
            rw [H5.Named] at hg
            rw [flattenItem, flattenItems_group n h.1.1 g hg, List.mem_map] at hq
            obtain ⟨q', _, rfl⟩ := hq
            exact slash_ne hn he
        | cons m ns =>
          simp only [joined, dataset?, List.lookup_cons, beq_self_eq_true]
          cases it with
          | dataset a =>
            simp only [flattenItem, List.lookup_cons, List.lookup_nil]
            rw [show (n ++ "/" ++ joined (m :: ns) == n) = false by simpa using slash_ne hn]
          | other => rfl
          | group g =>
            have hg := h.2.2.1
            rw [H5.Named] at hg
            rw [flattenItem, flattenItems_group n h.1.1 g hg, lookup_map_pre n _ hn]
            exact ih g hg (by simp) (fun k hk => hs k (List.mem_cons_of_mem _ hk))
      · rw [flattenItem_lookup_ne h.1.1 h.1.2 hn h.2.2.1 (Ne.symm hm), Option.none_or, ihr h.2.2.2]
        have hb : (n == m) = false := by simpa using hm
        cases ns <;> simp only [dataset?, List.lookup_cons, hb]

theorem squeeze_eq (a : Arr Rat) : squeeze a = ⟨withoutOnes a.shape, a.data⟩ := by
  have h : ∀ l : List Nat, l.filter (· ≠ 1) = withoutOnes l := by
    intro l
    induction l with
    | nil => rfl
    | cons n l ih =>
      unfold withoutOnes
      split
      · rename_i h; cases h
      · rename_i h; cases h; simpa using ih
      · rename_i hne h
        cases h
        rw [List.filter_cons, if_pos (by simpa using fun e => hne e), ih]
  unfold squeeze
  rw [h]

theorem lookup_vars (vars : List (String × Arr Rat)) (k : String) (hk : "__".toList.isPrefixOf k.toList = false) :
    ((vars.map (fun q => (q.1, squeeze q.2))).filter (fun q => ! "__".toList.isPrefixOf q.1.toList)).lookup k =
      (vars.lookup k).map squeeze := by
  induction vars with
  | nil => rfl
  | cons q l ih =>
    rw [List.map_cons, List.filter_cons, List.lookup_cons]
    by_cases h : k = q.1
    · subst h
      rw [hk]
      simp
    · have hb : (k == q.1) = false := by simpa using h
      rw [hb]
      split
      · rw [List.lookup_cons, hb]; exact ih
      · exact ih

/-- What is read from a readable file. -/
theorem read_var {disk : String → Option MatFile} {ri rf : Arr Rat → Nat → Nat → Except Exc (Arr Rat)} {p : String} {f : MatFile}
    (hf : disk p = some f) (hr : f.Readable) :
    ∃ data, matRead (diskIO disk ri rf) p = .ok data ∧
      ∀ k, '/' ∉ k.toList → "__".toList.isPrefixOf k.toList = false → data.lookup k = f.var? k := by
  cases f with
  | garbage => exact absurd hr id
  | legacy vars =>
    refine ⟨_, by simp [matRead, diskIO, hf, loadmat]; rfl, fun k _ hk => ?_⟩
    rw [show (MatFile.legacy vars).var? k = (vars.lookup k).map squeeze by
      show (vars.lookup k).map (fun a => (⟨withoutOnes a.shape, a.data⟩ : Arr Rat)) = _
      congr 1
      funext a
      exact (squeeze_eq a).symm]
    exact lookup_vars vars k hk
  | hdf5 m items =>
    refine ⟨flattenItems "" items, by cases m <;> simp [matRead, diskIO, hf, loadmat], fun k hs _ => ?_⟩
    exact C84_tree items hr [k] (by simp) (by simpa using hs)

/-- C84: what is loaded from a readable MAT file depends only on its variables `V`, `I0` and `I1` as they are read: on neither
the version of the file, nor the other variables and groups in it, nor their order. A path without a file raises
`FileNotFoundError`, a file of another kind `ValueError`. -/
theorem C84_other_content (ri rf : Arr Rat → Nat → Nat → Except Exc (Arr Rat)) (c : MatCfg) (disk disk' : String → Option MatFile)
    (p : String) :
    (∀ f f', disk p = some f → disk' p = some f' → f.Readable → f'.Readable →
      (∀ k ∈ ["V", "I0", "I1"], f.var? k = f'.var? k) → matLoad (diskIO disk ri rf) c p = matLoad (diskIO disk' ri rf) c p) ∧
    (disk p = none → matLoad (diskIO disk ri rf) c p = .error .fileNotFound) ∧
    (disk p = some .garbage → matLoad (diskIO disk ri rf) c p = .error .valueError) ∧
    (∀ f, disk p = some f → f.Readable → f.var? "V" = none → matLoad (diskIO disk ri rf) c p = .error .valueError) := by
  have hk : ∀ k ∈ ["V", "I0", "I1"], '/' ∉ k.toList ∧ "__".toList.isPrefixOf k.toList = false := by decide +kernel
  refine ⟨?_, ?_, ?_, ?_⟩
  · intro f f' hf hf' hr hr' hv
    obtain ⟨d, h1, h2⟩ := read_var (ri := ri) (rf := rf) hf hr
    obtain ⟨d', h1', h2'⟩ := read_var (ri := ri) (rf := rf) hf' hr'
    have e : ∀ k ∈ ["V", "I0", "I1"], d.lookup k = d'.lookup k := by
      intro k hkm
      rw [h2 k (hk k hkm).1 (hk k hkm).2, h2' k (hk k hkm).1 (hk k hkm).2, hv k hkm]
    have hm : matImage (diskIO disk ri rf) c = matImage (diskIO disk' ri rf) c := rfl
    have hw : matFlow (diskIO disk ri rf) c = matFlow (diskIO disk' ri rf) c := rfl
    simp only [matLoad, h1, h1', e "V" (by simp), e "I0" (by simp), e "I1" (by simp), hm, hw]
  · intro h
    simp [matLoad, matRead, diskIO, h, loadmat]
  · intro h
    simp [matLoad, matRead, diskIO, h, loadmat]
  · intro f hf hr hv
    obtain ⟨d, h1, h2⟩ := read_var (ri := ri) (rf := rf) hf hr
    have h3 := h2 "V" (hk "V" (by simp)).1 (hk "V" (by simp)).2
    rw [hv] at h3
    simp only [matLoad, h1, h3]

/-- A tree with a group that has its own `V`. -/
def demoTree : List (String × H5) :=
  [("#refs#", .group [("V", .dataset ⟨[1], [99]⟩), ("a", .group [("b", .dataset ⟨[1], [5]⟩)])]), ("V", .dataset ⟨[1, 1, 2], [3, 4]⟩),
   ("link", .other)]

theorem demoTree_named : Named demoTree := by
  simp only [demoTree, Named, H5.Named]
  decide +kernel

/-- The hypotheses of C84 are met: the `V` of the group is not confused with the one of the file. -/
example : (flattenItems "" demoTree).lookup "V" = some ⟨[1, 1, 2], [3, 4]⟩ ∧
    (flattenItems "" demoTree).lookup "#refs#/a/b" = some ⟨[1], [5]⟩ ∧
    (MatFile.hdf5 true demoTree).Readable ∧ (MatFile.hdf5 true demoTree).var? "V" = some ⟨[1, 1, 2], [3, 4]⟩ ∧
    (matLoad (diskIO (fun _ => some (.hdf5 true demoTree)) (fun a _ _ => .ok a) (fun a _ _ => .ok a)) ⟨false, 1, 1⟩ "m").toOption.map
      (fun x => x.flow) = some ⟨[1, 1, 2], [3, 4]⟩ :=
  ⟨by decide +kernel, by decide +kernel, demoTree_named, by decide +kernel, by decide +kernel⟩

/-! ## C85 -/

/-- C85, what holds instead (without resizing, for a square flow with at least two rows): from a file of version 7.3 written
by MATLAB the flow comes with rows and columns exchanged, while the components stay in place; so the two versions agree
only on flows that do not change when rows and columns are exchanged. -/
theorem C85_versions_partial (ri rf : Arr Rat → Nat → Nat → Except Exc (Arr Rat)) (n : Nat) (hn : 2 < n) (v v' : Arr Rat)
    (hs : v.shape = [n, n, 2]) (hw : v.WF) (hw' : v'.WF) (hv : ReversedAxes v v') (vars : List (String × Arr Rat))
    (items : List (String × H5)) (hnm : Named items) (hV : vars.lookup "V" = some v) (hV' : items.lookup "V" = some (.dataset v')) (p : String) :
    ∃ x x', matLoad (diskIO (fun _ => some (.legacy vars)) ri rf) ⟨false, n, n⟩ p = .ok x ∧
      matLoad (diskIO (fun _ => some (.hdf5 true items)) ri rf) ⟨false, n, n⟩ p = .ok x' ∧
      x.flow = v ∧ x'.flow.shape = [n, n, 2] ∧
      (∀ y i c, y < n → i < n → c < 2 → x'.flow.at? [y, i, c] = x.flow.at? [i, y, c]) ∧
      ((∀ y i c, y < n → i < n → c < 2 → v.at? [y, i, c] = v.at? [i, y, c]) →
        ∀ y i c, y < n → i < n → c < 2 → x'.flow.at? [y, i, c] = x.flow.at? [y, i, c]) := by
  have hsq : squeeze v = v := by
    have h1 : n ≠ 1 := by omega
    cases v with
    | mk sh d =>
      simp only at hs
      subst hs
      simp [squeeze, List.filter_cons, h1]
  have hs' : v'.shape = [2, n, n] := by rw [hv.1, hs]; rfl
  obtain ⟨t, ht, hts, _, hta⟩ := transpose120_spec hs' hw'
  have hn2 : n ≠ 2 := by omega
  obtain ⟨d, h1, h2⟩ := read_var (disk := fun _ => some (MatFile.legacy vars)) (ri := ri) (rf := rf) (p := p) rfl trivial
  obtain ⟨d', h1', h2'⟩ := read_var (disk := fun _ => some (MatFile.hdf5 true items)) (ri := ri) (rf := rf) (p := p) rfl hnm
  have hk : '/' ∉ "V".toList ∧ "__".toList.isPrefixOf "V".toList = false := by decide +kernel
  have l1 : d.lookup "V" = some v := by rw [h2 _ hk.1 hk.2]; simp [MatFile.var?, hV, ← squeeze_eq, hsq]
  have l2 : d'.lookup "V" = some v' := by rw [h2' _ hk.1 hk.2]; simp [MatFile.var?, dataset?, hV']
  refine ⟨⟨v, none, none, some [p]⟩, ⟨t, none, none, some [p]⟩, ?_, ?_, rfl, hts, ?_, ?_⟩
  · simp [matLoad, h1, l1, matFlow, hs, matFit]
  · simp [matLoad, h1', l2, matFlow, hs', hn2, ht, matFit, hts]
  · intro y i c hy hi hc
    rw [hta c y i hc hy hi]
    have := hv.2 [i, y, c]
    simpa using this
  · intro hsym y i c hy hi hc
    show t.at? [y, i, c] = v.at? [y, i, c]
    rw [hta c y i hc hy hi, hsym y i c hy hi hc]
    have := hv.2 [i, y, c]
    simpa using this

/-- Axes are reversed if the entries are. -/
theorem reversed_of {v v' : Arr Rat} {A B C : Nat} (hs : v.shape = [A, B, C]) (hs' : v'.shape = [C, B, A])
    (h : ∀ y, y < A → ∀ x, x < B → ∀ c, c < C → v'.at? [c, x, y] = v.at? [y, x, c]) : ReversedAxes v v' := by
  have len : ∀ (sh l : List Nat), sh.length ≠ l.length → Arr.offset sh l = none := by
    intro sh
    induction sh with
    | nil => intro l hl; cases l with
      | nil => exact absurd rfl hl
      | cons _ _ => rfl
    | cons n sh ih => intro l hl; cases l with
      | nil => rfl
      | cons i l =>
        simp only [Arr.offset]
        rw [ih l (by simpa using hl)]
        simp
  have none_at : ∀ (a : Arr Rat) (l : List Nat), Arr.offset a.shape l = none → a.at? l = none := by
    intro a l hl; simp [Arr.at?, hl]
  have off3 : ∀ a b c i j k : Nat, ¬ (i < a ∧ j < b ∧ k < c) → Arr.offset [a, b, c] [i, j, k] = none := by
    intro a b c i j k hn
    simp only [Arr.offset]
    by_cases h1 : i < a
    · by_cases h2 : j < b
      · have h3 : ¬ k < c := fun h3 => hn ⟨h1, h2, h3⟩
        simp [h1, h2, h3]
      · simp [h1, h2]
    · simp [h1]
  refine ⟨by rw [hs', hs]; rfl, ?_⟩
  intro idx
  by_cases hl : idx.length = 3
  · match idx, hl with
    | [y, x, c], _ =>
      show v'.at? [c, x, y] = v.at? [y, x, c]
      by_cases hb : y < A ∧ x < B ∧ c < C
      · exact h y hb.1 x hb.2.1 c hb.2.2
      · rw [none_at v _ (by rw [hs]; exact off3 _ _ _ _ _ _ hb), none_at v' _ (by rw [hs']; exact off3 _ _ _ _ _ _ (by tauto))]
  · rw [none_at v _ (len _ _ (by rw [hs]; simpa using Ne.symm hl)), none_at v' _ (len _ _ (by rw [hs', List.length_reverse]; simpa using Ne.symm hl))]

/-- A flow on a 3x3 grid, `u` growing with the column and `v = 0`, and the same written by MATLAB with the axes reversed. -/
def shear : Arr Rat := ⟨[3, 3, 2], [0, 0, 1, 0, 2, 0, 0, 0, 1, 0, 2, 0, 0, 0, 1, 0, 2, 0]⟩

/-- `shear` with the axes reversed. -/
def shearReversed : Arr Rat := ⟨[2, 3, 3], [0, 0, 0, 1, 1, 1, 2, 2, 2, 0, 0, 0, 0, 0, 0, 0, 0, 0]⟩

/-- C85 is false: the same flow saved by MATLAB as version 7 and as version 7.3 gives two different flows: `u` grows with the
column in one and with the row in the other. -/
theorem C85_refuted : ReversedAxes shear shearReversed ∧
    (matLoad (diskIO (fun _ => some (.legacy [("V", shear)])) (fun a _ _ => .ok a) (fun a _ _ => .ok a)) ⟨false, 3, 3⟩ "m").toOption.map
      (fun x => x.flow) = some shear ∧
    (matLoad (diskIO (fun _ => some (.hdf5 true [("V", .dataset shearReversed)])) (fun a _ _ => .ok a) (fun a _ _ => .ok a)) ⟨false, 3, 3⟩
      "m").toOption.map (fun x => x.flow) = some ⟨[3, 3, 2], [0, 0, 0, 0, 0, 0, 1, 0, 1, 0, 1, 0, 2, 0, 2, 0, 2, 0]⟩ := by
  refine ⟨reversed_of (A := 3) (B := 3) (C := 2) rfl rfl (by decide +kernel), by decide +kernel, by decide +kernel⟩

/-- C85 is false for every flow with a single row: from a legacy file it cannot be loaded (`IndexError`, because SciPy drops the axis), from
one of version 7.3 it can, as a flow with a single column. -/
theorem C85_refuted_row (ri rf : Arr Rat → Nat → Nat → Except Exc (Arr Rat)) (w : Nat) (hw : 1 < w) (v v' : Arr Rat) (hs : v.shape = [1, w, 2])
    (hwf : v'.WF) (hv : ReversedAxes v v') (p : String) :
    matLoad (diskIO (fun _ => some (.legacy [("V", v)])) ri rf) ⟨false, 1, w⟩ p = .error .indexError ∧
    ∃ x, matLoad (diskIO (fun _ => some (.hdf5 true [("V", .dataset v')])) ri rf) ⟨false, w, 1⟩ p = .ok x ∧ x.flow.shape = [w, 1, 2] := by
  have hsq : (squeeze v).shape = [w, 2] := by
    unfold squeeze
    rw [hs]
    have : w ≠ 1 := by omega
    simp [List.filter_cons, this]
  have hs' : v'.shape = [2, w, 1] := by rw [hv.1, hs]; rfl
  obtain ⟨t, ht, hts, _, _⟩ := transpose120_spec hs' hwf
  constructor
  · have : matRead (diskIO (fun _ => some (.legacy [("V", v)])) ri rf) p = .ok [("V", squeeze v)] := by
      have hk : "__".toList.isPrefixOf "V".toList = false := by decide +kernel
      simp only [matRead, diskIO, loadmat, List.map_cons, List.map_nil, List.filter_cons, hk, Bool.not_false, if_true, List.filter_nil]
    simp [matLoad, this, matFlow, hsq]
  · refine ⟨⟨t, none, none, some [p]⟩, ?_, hts⟩
    have : matRead (diskIO (fun _ => some (.hdf5 true [("V", .dataset v')])) ri rf) p = .ok [("V", v')] := by
      simp [matRead, diskIO, loadmat, flattenItems, flattenItem]
    simp [matLoad, this, matFlow, hs', ht, matFit, hts]

/-- The hypotheses of `C85_refuted_row` are met by a flow of two vectors. -/
example : ReversedAxes (⟨[1, 2, 2], [1, 2, 3, 4]⟩ : Arr Rat) ⟨[2, 2, 1], [1, 3, 2, 4]⟩ ∧ (⟨[2, 2, 1], [1, 3, 2, 4]⟩ : Arr Rat).WF :=
  ⟨reversed_of (A := 1) (B := 2) (C := 2) rfl rfl (by decide +kernel), by decide⟩

/-- The hypotheses of `C85_versions_partial` are met by these files. -/
example : shear.WF ∧ shearReversed.WF ∧ Named [("V", H5.dataset shearReversed)] ∧ ReversedAxes shear shearReversed := by
  refine ⟨by decide, by decide, ?_, C85_refuted.1⟩
  simp only [Named, H5.Named]
  decide +kernel

end Verif.Formats
