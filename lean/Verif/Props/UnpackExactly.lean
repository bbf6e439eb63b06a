import Verif.Props.Scripts
/-!
# What is left of every TFRecord after unpacking (C78)
-/

namespace Verif.Scripts
open Verif
variable {α : Type}

/-- Specification: the contents of the records that are not skipped, in their order. -/
def usable (records : List (Record α)) : List α := records.filterMap (fun r => match r with | .skip => none | .file a => some a)

theorem mem_write (d d' : Sub) (k : Nat) (a : α) : ∀ (files : List (Nat × α)) (fs : List ((Sub × Nat) × α)), (files.map Prod.fst).Nodup →
    (((d', k), a) ∈ write fs d files ↔ (d' = d ∧ (k, a) ∈ files) ∨ ((d' = d → k ∉ files.map Prod.fst) ∧ ((d', k), a) ∈ fs)) := by
  intro files
  induction files with
  | nil => intro fs _; simp [write]
  | cons f files ih =>
    intro fs hn
    obtain ⟨n, b⟩ := f
    rw [List.map_cons, List.nodup_cons] at hn
    have : write fs d ((n, b) :: files) = write (fs.filter (fun g => g.1 ≠ (d, n)) ++ [((d, n), b)]) d files := rfl
    rw [this, ih _ hn.2]
    simp only [List.mem_append, List.mem_filter, List.mem_cons, List.not_mem_nil, or_false, decide_eq_true_eq, Prod.mk.injEq, List.map_cons, ne_eq]
    have hk : ∀ x, (n, x) ∉ files := fun x hx => hn.1 (List.mem_map.2 ⟨_, hx, rfl⟩)
    constructor
    · rintro (⟨rfl, h⟩ | ⟨h1, ⟨h2, h3⟩ | ⟨⟨rfl, rfl⟩, rfl⟩⟩)
      · exact .inl ⟨rfl, .inr h⟩
      · exact .inr ⟨fun e => by have := h1 e; simp only [not_or]; exact ⟨fun e2 => h3 ⟨e, e2⟩, this⟩, h2⟩
      · exact .inl ⟨rfl, .inl ⟨rfl, rfl⟩⟩
    · rintro (⟨rfl, ⟨rfl, rfl⟩ | h⟩ | ⟨h1, h2⟩)
      · exact .inr ⟨fun _ => hn.1, .inr ⟨⟨rfl, rfl⟩, rfl⟩⟩
      · exact .inl ⟨rfl, h⟩
      · refine .inr ⟨fun e => fun h => h1 e (.inr h), .inl ⟨h2, fun ⟨e, e2⟩ => h1 e (.inl e2)⟩⟩

theorem process_facts (records : List (Record α)) :
    ((process 0 records).map Prod.fst).Nodup ∧ (∀ k a, (k, a) ∈ process 0 records ↔ (usable records)[k]? = some a) ∧
      ∀ k, k ∈ (process 0 records).map Prod.fst ↔ k < (usable records).length := by
  obtain ⟨h1, h2⟩ := C78_numbering records
  replace h2 : (process 0 records).map Prod.snd = usable records := h2.trans (List.filterMap_congr (fun r _ => by cases r <;> rfl))
  have hl : (process 0 records).length = (usable records).length := by rw [← h2, List.length_map]
  refine ⟨by rw [h1]; exact List.nodup_range, fun k a => ?_, fun k => by rw [h1, List.mem_range, hl]⟩
  have hfst : ∀ (i : Nat) (p : Nat × α), (process 0 records)[i]? = some p → p.1 = i := by
    intro i p hp
    have : ((process 0 records).map Prod.fst)[i]? = some p.1 := by rw [List.getElem?_map, hp]; rfl
    rw [h1] at this
    obtain ⟨_, e⟩ := List.getElem?_eq_some_iff.1 this
    rw [List.getElem_range] at e
    exact e.symm
  rw [← h2, List.getElem?_map, Option.map_eq_some_iff]
  constructor
  · intro h
    obtain ⟨i, hi⟩ := List.mem_iff_getElem?.1 h
    have := hfst i _ hi
    simp only at this
    exact ⟨(k, a), this ▸ hi, rfl⟩
  · rintro ⟨p, hp, rfl⟩
    have := hfst k _ hp
    rw [← this]
    exact List.mem_of_getElem? hp

/-- **C78** exactly, for any TFRecords: the file of number `k` in a directory holds the `k`-th usable record of the last TFRecord for that directory that has more than `k` usable
records; and there are no other files. -/
theorem C78_exactly (tfrecords : List (List Char × List (Record α))) (d : Sub) (k : Nat) (a : α) :
    ((d, k), a) ∈ unpack tfrecords ↔ ∃ earlier t later, tfrecords = earlier ++ t :: later ∧ subdir t.1 = some d ∧ (usable t.2)[k]? = some a ∧
      ∀ t' ∈ later, subdir t'.1 = some d → (usable t'.2).length ≤ k := by
  induction tfrecords using List.reverseRecOn with
  | nil => simp [unpack]
  | append_singleton ts t ih =>
    have e : unpack (ts ++ [t]) = match subdir t.1 with
        | none => unpack ts
        | some d => write (unpack ts) d (process 0 t.2) := by
      unfold unpack
      rw [List.foldl_append]
      rfl
    obtain ⟨p1, p2, p3⟩ := process_facts t.2
    have key : ((d, k), a) ∈ unpack (ts ++ [t]) ↔ (subdir t.1 = some d ∧ (usable t.2)[k]? = some a) ∨
        ((subdir t.1 = some d → (usable t.2).length ≤ k) ∧ ((d, k), a) ∈ unpack ts) := by
      rw [e]
      cases hs : subdir t.1 with
      | none => simp
      | some d' =>
        simp only [mem_write d' d k a _ _ p1, p2, p3, Option.some.injEq, not_lt]
        constructor
        · rintro (⟨rfl, h⟩ | ⟨h1, h2⟩)
          · exact .inl ⟨rfl, h⟩
          · exact .inr ⟨fun e => h1 e.symm, h2⟩
        · rintro (⟨rfl, h⟩ | ⟨h1, h2⟩)
          · exact .inl ⟨rfl, h⟩
          · exact .inr ⟨fun e => h1 e.symm, h2⟩
    rw [key, ih]
    constructor
    · rintro (⟨h1, h2⟩ | ⟨h1, earlier, u, later, rfl, h3, h4, h5⟩)
      · exact ⟨ts, t, [], rfl, h1, h2, by simp⟩
      · refine ⟨earlier, u, later ++ [t], by simp, h3, h4, fun t' ht' => ?_⟩
        rcases List.mem_append.1 ht' with h | h
        · exact h5 t' h
        · rw [List.mem_singleton] at h
          exact h ▸ h1
    · rintro ⟨earlier, u, later, h1, h2, h3, h4⟩
      rcases List.eq_nil_or_concat later with rfl | ⟨later', t', rfl⟩
      · obtain ⟨rfl, e2⟩ := List.append_inj' h1 rfl
        simp only [List.cons.injEq, and_true] at e2
        subst e2
        exact .inl ⟨h2, h3⟩
      · rw [List.concat_eq_append] at h1 h4
        have h1' : ts ++ [t] = (earlier ++ u :: later') ++ [t'] := by simpa using h1
        obtain ⟨rfl, e2⟩ := List.append_inj' h1' rfl
        simp only [List.cons.injEq, and_true] at e2
        subst e2
        exact .inr ⟨h4 t (by simp), earlier, u, later', rfl, h2, h3, fun x hx => h4 x (by simp [hx])⟩

/-- **C78**: nothing is lost if and only if no two TFRecords with usable records go to the same directory, provided that the usable records differ from each other. -/
theorem C78_all_kept_iff (tfrecords : List (List Char × List (Record α))) (hdiff : (tfrecords.flatMap (fun t => usable t.2)).Nodup) :
    (∀ t ∈ tfrecords, ∀ d, subdir t.1 = some d → ∀ a ∈ usable t.2, ∃ k, ((d, k), a) ∈ unpack tfrecords) ↔
      tfrecords.Pairwise (fun t u => subdir t.1 ≠ none → subdir t.1 = subdir u.1 → usable t.2 = [] ∨ usable u.2 = []) := by
  constructor
  · intro hall
    rw [List.pairwise_iff_forall_sublist]
    intro t u htu hsome hsub
    by_contra hc
    push Not at hc
    obtain ⟨c1, c2⟩ := hc
    obtain ⟨d, hd⟩ := Option.ne_none_iff_exists'.1 hsome
    obtain ⟨x, y, rfl, hu⟩ : ∃ x y, tfrecords = x ++ t :: y ∧ u ∈ y := by
      clear hall hdiff
      induction tfrecords with
      | nil => cases htu
      | cons v l ih =>
        cases htu with
        | cons _ h =>
          obtain ⟨x, y, e, h⟩ := ih h
          exact ⟨v :: x, y, by rw [e]; rfl, h⟩
        | cons_cons _ h => exact ⟨[], l, rfl, List.singleton_sublist.1 h⟩
    obtain ⟨a, l, ha⟩ := List.exists_cons_of_ne_nil c1
    obtain ⟨k, hk⟩ := hall t (by simp) d hd a (by rw [ha]; simp)
    obtain ⟨earlier, t1, later, e, _, q2, q3⟩ := (C78_exactly _ d k a).1 hk
    obtain ⟨n1, n2⟩ := List.nodup_flatMap.1 hdiff
    have hlen := congrArg List.length e
    simp only [List.length_append, List.length_cons] at hlen
    rw [List.pairwise_iff_getElem] at n2
    have g1 : (x ++ t :: y)[x.length]? = some t := by simp
    have g2 : (x ++ t :: y)[earlier.length]? = some t1 := by rw [e]; simp
    obtain ⟨b1, g1⟩ := List.getElem?_eq_some_iff.1 g1
    obtain ⟨b2, g2⟩ := List.getElem?_eq_some_iff.1 g2
    have m1 : a ∈ usable t.2 := by rw [ha]; simp
    have m2 : a ∈ usable t1.2 := List.mem_of_getElem? q2
    have hpos : x.length = earlier.length := by
      rcases Nat.lt_trichotomy x.length earlier.length with h | h | h
      · have := n2 _ _ b1 b2 h
        simp only [Function.onFun, g1, g2] at this
        exact absurd m2 (this m1)
      · exact h
      · have := n2 _ _ b2 b1 h
        simp only [Function.onFun, g1, g2] at this
        exact absurd m1 (this m2)
    obtain ⟨rfl, e2⟩ := List.append_inj e hpos
    simp only [List.cons.injEq] at e2
    obtain ⟨rfl, rfl⟩ := e2
    have nd := n1 t (by simp)
    obtain ⟨bk, q2⟩ := List.getElem?_eq_some_iff.1 q2
    have hk0 : k = 0 := (List.Nodup.getElem_inj_iff nd (hi := bk) (hj := List.length_pos_of_ne_nil c1)).1 (by rw [q2]; simp [ha])
    subst hk0
    have := q3 u hu (hsub ▸ hd)
    exact c2 (List.length_eq_zero_iff.1 (by omega))
  · intro hp t ht d hd a ha
    obtain ⟨k, hk⟩ := List.mem_iff_getElem?.1 ha
    obtain ⟨earlier, later, rfl⟩ := List.append_of_mem ht
    refine ⟨k, (C78_exactly _ d k a).2 ⟨earlier, t, later, rfl, hd, hk, fun t' ht' hd' => ?_⟩⟩
    rw [List.pairwise_append, List.pairwise_cons] at hp
    rcases hp.2.1.1 t' ht' (by rw [hd]; simp) (by rw [hd, hd']) with h | h
    · rw [h] at ha
      simp at ha
    · simp [h]

/-- Two TFRecords for one directory, the second shorter than the first. -/
example : let ts := [("Training_RAFT256.tfrecord-1".toList, [Record.file 'a', .skip, .file 'b']), ("Training_RAFT256.tfrecord-2".toList, [.file 'c'])]
    (ts.flatMap (fun t => usable t.2)) = ['a', 'b', 'c'] ∧ unpack ts = [((.train, 1), 'b'), ((.train, 0), 'c')] ∧
      unpack [("Training_RAFT256.tfrecord-1".toList, [Record.file 'a', .skip, .file 'b']), ("Training_RAFT256.tfrecord-2".toList, [.skip])] = [((.train, 0), 'a'), ((.train, 1), 'b')] := by
  decide +kernel

end Verif.Scripts
