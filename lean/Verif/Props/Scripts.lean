import Verif.Proofs.Scripts
import Verif.Props.Formats
/-!
# Properties of the dataset scripts and of the main program (C75-C81)
-/

namespace Verif.Scripts
open Verif

/-- **C75** for ratios that are not negative: the lists written for training, validation and tuning, one after the other, are the shuffled
official list, so together they have every item exactly as often as it; and validation and tuning get the stated percentages, rounded
down. The sizes are computed with Python's floats; the list has fewer than 2 ^ 53 / 100 items. -/
theorem C75_partition_partial {α : Type} (r0 rv rt : Int) (h0 : 0 ≤ r0) (hv : 0 ≤ rv) (ht : 0 ≤ rt) (h : ratiosOk [r0, rv, rt] = true)
    (official shuffled : List α) (hlen : official.length * 100 < 2 ^ 53) (hp : shuffled.Perm official) :
    ((splits binary64 rv rt shuffled).train ++ (splits binary64 rv rt shuffled).val ++ (splits binary64 rv rt shuffled).tune).Perm official ∧
      (splits binary64 rv rt shuffled).val.length = official.length * rv.toNat / 100 ∧
      (splits binary64 rv rt shuffled).tune.length = official.length * rt.toNat / 100 := by
  have hsum : r0 + (rv + rt) = 100 := by simpa [ratiosOk] using h
  have hl : (shuffled.length : Int) * 100 < 2 ^ 53 := by rw [hp.length_eq]; exact_mod_cast hlen
  have bound : ∀ r : Int, r ≤ 100 → (shuffled.length : Int) * r < 2 ^ 53 := fun r hr =>
    lt_of_le_of_lt (Int.mul_le_mul_of_nonneg_left hr (by omega)) hl
  have e1 := share_div shuffled.length rv hv (bound _ (by omega))
  have e2 := share_div shuffled.length rt ht (bound _ (by omega))
  have n1 : 0 ≤ (shuffled.length : Int) * rv := Int.mul_nonneg (by omega) hv
  have n2 : 0 ≤ (shuffled.length : Int) * rt := Int.mul_nonneg (by omega) ht
  have n3 : (shuffled.length : Int) * rv + shuffled.length * rt ≤ shuffled.length * 100 := by
    rw [← mul_add]; exact Int.mul_le_mul_of_nonneg_left (by omega) (by omega)
  obtain ⟨p1, p2, p3⟩ := splits_parts binary64 rv rt shuffled (by rw [e1]; omega) (by rw [e2]; omega) (by rw [e1, e2]; omega)
  refine ⟨by rw [p1]; exact hp, ?_, ?_⟩
  · rw [e1] at p2
    rw [← hp.length_eq]
    obtain ⟨v, rfl⟩ := Int.eq_ofNat_of_zero_le hv
    simp only [Int.toNat_natCast]
    exact_mod_cast p2
  · rw [e2] at p3
    rw [← hp.length_eq]
    obtain ⟨v, rfl⟩ := Int.eq_ofNat_of_zero_le ht
    simp only [Int.toNat_natCast]
    exact_mod_cast p3

example : ratiosOk [80, 10, 10] = true ∧
    splits binary64 10 10 (List.range 25) = { train := List.range 21, val := [21, 22], tune := [23, 24] } := by decide +kernel

/-- **C75** fails for a negative ratio, which the check of the command line lets through: items are in two lists. -/
theorem C75_refuted : ratiosOk [110, -20, 10] = true ∧
    (splits binary64 (-20) 10 (List.range 10)).train = List.range 10 ∧ (splits binary64 (-20) 10 (List.range 10)).tune = [9] := by
  decide +kernel

/-- **C75** also fails if the first ratio, the one that is not used, is the negative one: the number of training items is negative, which Python counts
from the end of the list. -/
theorem C75_first_refuted : ratiosOk [-10, 10, 100] = true ∧
    (splits binary64 10 100 (List.range 10)).train = List.range 9 ∧ (splits binary64 10 100 (List.range 10)).tune = List.range 10 := by
  decide +kernel

/-- **C76.** Writing a list and reading it back gives the list, if no item is blank, begins or ends with white space or contains a line
break. -/
theorem C76_round_trip (ws : Char → Bool) (items : List (List Char))
    (h : ∀ l ∈ items, l ≠ [] ∧ strip ws l = l ∧ '\n' ∉ l ∧ '\r' ∉ l) : readList ws (writeList items) = items :=
  readList_writeList ws h

/-- **C76**, for lists that were read from a file: every rearrangement of part of the items survives being written and read. -/
theorem C76_read_items_survive (ws : Char → Bool) (content : List Char) (items : List (List Char))
    (h : ∀ l ∈ items, l ∈ readList ws content) : readList ws (writeList items) = items :=
  readList_writeList ws (fun l hl => readList_clean ws content l (h l hl))

/-- The list as written on a system with line ends of two characters. -/
def writeListCRLF (items : List (List Char)) : List Char := items.flatMap (fun l => l ++ ['\r', '\n'])

/-- The same with the single character `\r`. -/
def writeListCR (items : List (List Char)) : List Char := items.flatMap (fun l => l ++ ['\r'])

theorem newlines_append {l : List Char} (h : '\r' ∉ l) (r : List Char) : newlines (l ++ r) = l ++ newlines r := by
  induction l with
  | nil => rfl
  | cons c l ih =>
    have hc : c ≠ '\r' := fun e => h (by simp [e])
    rw [List.cons_append]
    have : newlines (c :: (l ++ r)) = (if c = '\r' then '\n' else c) :: newlines (l ++ r) := by
      rw [newlines]
      intro l' h1
      exact absurd h1 hc
    rw [this, if_neg hc, ih (fun e => h (by simp [e]))]
    rfl

theorem newlines_writeList : ∀ {l : List (List Char)}, (∀ x ∈ l, '\r' ∉ x) → newlines (writeList l) = writeList l
  | [], _ => rfl
  | a :: l, hl => by
    have ih := newlines_writeList (l := l) (fun x hx => hl x (by simp [hx]))
    unfold writeList at ih ⊢
    rw [List.flatMap_cons, List.append_assoc, newlines_append (hl a (by simp)), List.cons_append, List.nil_append, newlines, if_neg (by decide), ih]
    intro l' h1
    exact absurd h1 (by decide)

theorem newlines_writeListCRLF : ∀ {l : List (List Char)}, (∀ x ∈ l, '\r' ∉ x) → newlines (writeListCRLF l) = writeList l
  | [], _ => rfl
  | a :: l, hl => by
    have ih := newlines_writeListCRLF (l := l) (fun x hx => hl x (by simp [hx]))
    unfold writeListCRLF writeList at ih ⊢
    rw [List.flatMap_cons, List.append_assoc, newlines_append (hl a (by simp)), List.cons_append, List.cons_append, List.nil_append, newlines, ih]
    simp

theorem newlines_writeListCR : ∀ {l : List (List Char)}, (∀ x ∈ l, '\n' ∉ x ∧ '\r' ∉ x) → newlines (writeListCR l) = writeList l
  | [], _ => rfl
  | a :: l, hl => by
    have ih := newlines_writeListCR (l := l) (fun x hx => hl x (by simp [hx]))
    unfold writeListCR writeList at ih ⊢
    rw [List.flatMap_cons, List.append_assoc, newlines_append (hl a (by simp)).2, List.cons_append, List.nil_append, newlines, ih]
    · simp
    · intro l' _ h2
      cases l with
      | nil => simp at h2
      | cons b l =>
        rw [List.flatMap_cons] at h2
        cases b with
        | nil => simp at h2
        | cons c b =>
          simp only [List.cons_append, List.cons.injEq] at h2
          exact (hl (c :: b) (by simp)).1 (by simp [h2.1])

/-- **C76**, other line ends: a list that was written with the line ends of another system is read as if it had been written here. -/
theorem C76_line_ends (ws : Char → Bool) (items : List (List Char)) (h : ∀ l ∈ items, '\n' ∉ l ∧ '\r' ∉ l) :
    readList ws (writeListCRLF items) = readList ws (writeList items) ∧ readList ws (writeListCR items) = readList ws (writeList items) := by
  unfold readList
  rw [newlines_writeListCRLF (fun x hx => (h x hx).2), newlines_writeListCR h, newlines_writeList (fun x hx => (h x hx).2)]
  exact ⟨rfl, rfl⟩

/-- White space for the examples. -/
def demoWs (c : Char) : Bool := c = ' ' || c = '\t' || c = '\n' || c = '\r'

example : readList demoWs "a b.flo \r\n\n  c\rd".toList = ["a b.flo".toList, "c".toList, "d".toList] := by decide +kernel
example : readList demoWs (writeListCRLF ["a b.flo".toList, "c".toList]) = ["a b.flo".toList, "c".toList] := by decide +kernel
example : readList demoWs (writeList ["a b.flo".toList, "c".toList]) = ["a b.flo".toList, "c".toList] := by decide +kernel

/-- The three lists of names that `perform_split` works with after `fetch_splits`, for an official list and a shuffle of it. -/
def nameSets (ws : Char → Bool) (rv rt : Int) (shuffled : List (List Char)) : List (List (List Char)) :=
  [splitNames ws (writeList (splits binary64 rv rt shuffled).train), splitNames ws (writeList (splits binary64 rv rt shuffled).val),
    splitNames ws (writeList (splits binary64 rv rt shuffled).tune)]

/-- **C77** for official lists whose lines name different samples: every packed file named by the official list is copied to exactly one of
training, validation and tuning, and no other file is copied. -/
theorem C77_one_split_partial (ws : Char → Bool) (r0 rv rt : Int) (h0 : 0 ≤ r0) (hv : 0 ≤ rv) (ht : 0 ≤ rt)
    (h : ratiosOk [r0, rv, rt] = true) (content : List Char) (hlen : (readList ws content).length * 100 < 2 ^ 53)
    (shuffled : List (List Char)) (hp : shuffled.Perm (readList ws content)) (hd : ((readList ws content).map (core ws)).Nodup) (fname : List Char) :
    ((∃ line ∈ readList ws content, fname = core ws line ++ ".mat".toList) → ∃ i, assigned (nameSets ws rv rt shuffled) fname = [i]) ∧
      ((¬ ∃ line ∈ readList ws content, fname = core ws line ++ ".mat".toList) → assigned (nameSets ws rv rt shuffled) fname = []) := by
  obtain ⟨hperm, _, _⟩ := C75_partition_partial r0 rv rt h0 hv ht h _ _ hlen hp
  generalize hs : splits binary64 rv rt shuffled = s at hperm
  have rd : ∀ l : List (List Char), (∀ x ∈ l, x ∈ s.train ++ s.val ++ s.tune) → readList ws (writeList l) = l := by
    intro l hl
    exact C76_read_items_survive ws content l (fun x hx => hperm.subset (hl x hx))
  have e1 : splitNames ws (writeList s.train) = s.train.map (fun line => core ws line ++ ".mat".toList) := by
    unfold splitNames; rw [rd _ (fun x hx => by simp [hx])]
  have e2 : splitNames ws (writeList s.val) = s.val.map (fun line => core ws line ++ ".mat".toList) := by
    unfold splitNames; rw [rd _ (fun x hx => by simp [hx])]
  have e3 : splitNames ws (writeList s.tune) = s.tune.map (fun line => core ws line ++ ".mat".toList) := by
    unfold splitNames; rw [rd _ (fun x hx => by simp [hx])]
  have hnd : ((s.train ++ s.val ++ s.tune).map (core ws)).Nodup := ((hperm.map _).nodup_iff).2 hd
  simp only [List.map_append, List.nodup_append, List.mem_append] at hnd
  obtain ⟨⟨_, _, d1⟩, _, d2⟩ := hnd
  have mem : ∀ l : List (List Char), fname ∈ l.map (fun line => core ws line ++ ".mat".toList) ↔
      ∃ line ∈ l, fname = core ws line ++ ".mat".toList := by
    intro l; simp only [List.mem_map]
    constructor <;> rintro ⟨a, b, c⟩ <;> exact ⟨a, b, c.symm⟩
  have excl : ∀ l1 l2 : List (List Char), (∀ a ∈ l1.map (core ws), ∀ b ∈ l2.map (core ws), a ≠ b) →
      (∃ line ∈ l1, fname = core ws line ++ ".mat".toList) → ¬ ∃ line ∈ l2, fname = core ws line ++ ".mat".toList := by
    rintro l1 l2 hdis ⟨a, ha, ea⟩ ⟨b, hb, eb⟩
    have : core ws a = core ws b := by
      have := ea.symm.trans eb
      simpa using this
    exact hdis _ (List.mem_map.2 ⟨a, ha, rfl⟩) _ (List.mem_map.2 ⟨b, hb, rfl⟩) this
  have x1 := excl s.train s.val (fun a ha b hb => d1 a ha b hb)
  have x2 := excl s.train s.tune (fun a ha b hb => d2 a (.inl ha) b hb)
  have x3 := excl s.val s.tune (fun a ha b hb => d2 a (.inr ha) b hb)
  have all : (∃ line ∈ readList ws content, fname = core ws line ++ ".mat".toList) ↔
      (∃ line ∈ s.train, fname = core ws line ++ ".mat".toList) ∨ (∃ line ∈ s.val, fname = core ws line ++ ".mat".toList) ∨
      (∃ line ∈ s.tune, fname = core ws line ++ ".mat".toList) := by
    constructor
    · rintro ⟨l, hl, e⟩
      have := hperm.symm.subset hl
      simp only [List.mem_append] at this
      rcases this with (h | h) | h
      · exact .inl ⟨l, h, e⟩
      · exact .inr (.inl ⟨l, h, e⟩)
      · exact .inr (.inr ⟨l, h, e⟩)
    · rintro (⟨l, hl, e⟩ | ⟨l, hl, e⟩ | ⟨l, hl, e⟩) <;> exact ⟨l, hperm.subset (by simp [hl]), e⟩
  rw [all]
  simp only [← mem] at x1 x2 x3 ⊢
  unfold nameSets assigned
  rw [hs, e1, e2, e3]
  generalize s.train.map (fun line => core ws line ++ ".mat".toList) = A at *
  generalize s.val.map (fun line => core ws line ++ ".mat".toList) = B at *
  generalize s.tune.map (fun line => core ws line ++ ".mat".toList) = C at *
  have hr : List.range [A, B, C].length = [0, 1, 2] := rfl
  rw [hr]
  simp only [List.filter_cons, List.getD_cons_zero, List.getD_cons_succ, List.contains_iff_mem, List.filter_nil]
  refine ⟨?_, ?_⟩
  · rintro (h | h | h)
    · exact ⟨0, by simp [h, x1 h, x2 h]⟩
    · have : fname ∉ A := fun ha => x1 ha h
      exact ⟨1, by simp [h, this, x3 h]⟩
    · have h1 : fname ∉ A := fun ha => x2 ha h
      have h2 : fname ∉ B := fun ha => x3 ha h
      exact ⟨2, by simp [h, h1, h2]⟩
  · intro hn
    simp only [not_or] at hn
    simp [hn.1, hn.2.1, hn.2.2]

/-- The hypotheses of C77 are met: three lines for three samples. -/
def demoOfficial : List Char := "d/a_1_img1.tif d/a_1_img2.tif d/a_1_flow.flo\nd/a_2_img1.tif d/a_2_img2.tif\nb_flow.flo\n".toList

example : ((readList demoWs demoOfficial).map (core demoWs)).Nodup ∧
    assigned (nameSets demoWs 34 33 (readList demoWs demoOfficial)) "a_1.mat".toList = [0] ∧
    assigned (nameSets demoWs 34 33 (readList demoWs demoOfficial)) "a_2.mat".toList = [0] ∧
    assigned (nameSets demoWs 34 33 (readList demoWs demoOfficial)) "b.mat".toList = [1] := by decide +kernel

/-- **C77** fails if two lines name the same sample (here: files of the same name in two directories): it is copied to the training and to the
tuning set. -/
theorem C77_refuted : ratiosOk [50, 0, 50] = true ∧
    (readList demoWs "d/a_flow.flo\ne/a_flow.flo\n".toList).Nodup ∧
    assigned (nameSets demoWs 0 50 (readList demoWs "d/a_flow.flo\ne/a_flow.flo\n".toList)) "a.mat".toList = [0, 2] := by decide +kernel

/-- **C78**, one TFRecord: the files written for it are numbered `0, 1, 2, ...` without gaps and hold the usable records in their order. -/
theorem C78_numbering {α : Type} (records : List (Record α)) :
    (process 0 records).map Prod.fst = List.range (process 0 records).length ∧
      (process 0 records).map Prod.snd = records.filterMap (fun r => match r with | .skip => none | .file a => some a) := by
  have key : ∀ n, (process n records).map Prod.fst = List.range' n (process n records).length ∧
      (process n records).map Prod.snd = records.filterMap (fun r => match r with | .skip => none | .file a => some a) := by
    induction records with
    | nil => intro n; simp [process]
    | cons r l ih =>
      intro n
      cases r with
      | skip => simpa [process] using ih n
      | file a =>
        obtain ⟨h1, h2⟩ := ih (n + 1)
        simp [process, h1, h2, List.range'_succ]
  obtain ⟨h1, h2⟩ := key 0
  exact ⟨by rw [h1, List.range_eq_range'], h2⟩

example : process 0 [.file 'a', .skip, .file 'b', .skip, .file 'c'] = [(0, 'a'), (1, 'b'), (2, 'c')] := by decide

/-- **C78** if at most one TFRecord goes to each directory: the content of every usable record is in the packed dataset, under the number of
the record among the usable ones. -/
theorem C78_unpacked_partial {α : Type} (tfrecords : List (List Char × List (Record α)))
    (hd : (tfrecords.filterMap (fun t => subdir t.1)).Nodup) (name : List Char) (records : List (Record α))
    (h : (name, records) ∈ tfrecords) (d : Sub) (hs : subdir name = some d) (k : Nat) (a : α)
    (hk : (records.filterMap (fun r => match r with | .skip => none | .file a => some a))[k]? = some a) :
    ((d, k), a) ∈ unpack tfrecords := by
  have hm : (k, a) ∈ process 0 records ∧ ((process 0 records).map Prod.fst).Nodup := by
    obtain ⟨h1, h2⟩ := C78_numbering records
    refine ⟨?_, by rw [h1]; exact List.nodup_range⟩
    rw [← h2, List.getElem?_map, Option.map_eq_some_iff] at hk
    obtain ⟨p, hp, rfl⟩ := hk
    have : ((process 0 records).map Prod.fst)[k]? = some p.1 := by rw [List.getElem?_map, hp]; rfl
    rw [h1] at this
    obtain ⟨hlt, hpk⟩ := List.getElem?_eq_some_iff.1 this
    rw [List.getElem_range] at hpk
    exact hpk ▸ List.mem_of_getElem? hp
  have keep : ∀ (ts : List (List Char × List (Record α))) fs, d ∉ ts.filterMap (fun t => subdir t.1) → ((d, k), a) ∈ fs →
      ((d, k), a) ∈ ts.foldl (fun fs t => match subdir t.1 with | none => fs | some d => write fs d (process 0 t.2)) fs := by
    intro ts
    induction ts with
    | nil => intro fs _ hfs; exact hfs
    | cons t ts ih =>
      intro fs hn hfs
      rw [List.foldl_cons]
      cases ht : subdir t.1 with
      | none => exact ih _ (by simpa [List.filterMap_cons, ht] using hn) hfs
      | some d' =>
        simp only [List.filterMap_cons, ht, List.mem_cons, not_or] at hn
        exact ih _ hn.2 (write_other d d' hn.1 _ _ _ _ hfs)
  have main : ∀ (ts : List (List Char × List (Record α))) fs, (ts.filterMap (fun t => subdir t.1)).Nodup → (name, records) ∈ ts →
      ((d, k), a) ∈ ts.foldl (fun fs t => match subdir t.1 with | none => fs | some d => write fs d (process 0 t.2)) fs := by
    intro ts
    induction ts with
    | nil => intro fs _ hmem; cases hmem
    | cons t ts ih =>
      intro fs hn hmem
      rw [List.foldl_cons]
      rcases List.mem_cons.1 hmem with rfl | hmem
      · simp only [List.filterMap_cons, hs, List.nodup_cons] at hn
        simp only [hs]
        exact keep _ _ hn.1 (write_mem d _ _ _ _ hm.2 hm.1)
      · refine ih _ ?_ hmem
        cases ht : subdir t.1 with
        | none => simpa [List.filterMap_cons, ht] using hn
        | some d' =>
          simp only [List.filterMap_cons, ht, List.nodup_cons] at hn
          exact hn.2
  exact main _ _ hd h

example : unpack [("Training_RAFT256.tfrecord".toList, [.file 'a', .skip, .file 'b']), ("Training_RAFT32.tfrecord".toList, [.file 'x']),
    ("Validation_RAFT256.tfrecord".toList, [.file 'c'])] = [((.train, 0), 'a'), ((.train, 1), 'b'), ((.val, 0), 'c')] := by
  decide +kernel

/-- **C78** fails for two TFRecords of one split (shards): the numbering starts anew and the second replaces the files of the first. -/
theorem C78_refuted : unpack [("Training_RAFT256.tfrecord-1".toList, [.file 'a', .file 'b']),
    ("Training_RAFT256.tfrecord-2".toList, [.file 'c'])] = [((.train, 1), 'b'), ((.train, 0), 'c')] := by
  decide +kernel

/-- The images saved for batch `i`. -/
def savesOf (next : Nat → NextRes) (num : Int) (i : Nat) : List Ev :=
  match next i with
  | .ok size => (List.range (min num size).toNat).map (fun j => Ev.save i j)
  | .error _ => []

theorem mainLoop_exact (next : Nat → NextRes) (visualize : Nat → Nat → Option Exc) (answer : Nat → Bool) (num : Int) :
    ∀ fuel i evs r, mainLoop next visualize answer num fuel i = some (evs, r) →
      ∃ n k, evs = (List.range' i n).flatMap (savesOf next num) ++ (savesOf next num (i + n)).take k ∧
        (∀ m, m < n → ∃ size, next (i + m) = .ok size) ∧
        (r = none → k = 0 ∧ (next (i + n) = .error .stopIteration ∨ (0 < n ∧ 0 < num ∧ answer (i + n - 1) = false))) ∧
        (∀ e, r = some e → (0 < k ∧ visualize (i + n) (k - 1) = some e) ∨ (next (i + n) = .error e ∧ e ≠ .stopIteration)) := by
  intro fuel
  induction fuel with
  | zero => intro i evs r h; cases h
  | succ fuel ih =>
    intro i evs r h
    rw [mainLoop] at h
    split at h
    · rename_i hn
      cases h
      exact ⟨0, 0, by simp, by simp, fun _ => ⟨rfl, .inl hn⟩, by simp⟩
    · rename_i e hne hn
      cases h
      refine ⟨0, 0, by simp, by simp, by simp, ?_⟩
      intro e' he
      cases he
      exact .inr ⟨hn, fun h => hne (by rw [← h])⟩
    · rename_i size hn
      have hs : savesOf next num i = (List.range (min num size).toNat).map (fun j => Ev.save i j) := by simp [savesOf, hn]
      obtain ⟨k, hk, h1, h2, hvis⟩ := saveAll_saves visualize i 0 (min num size).toNat
      have h1 : (saveAll visualize i 0 (min num size).toNat).1 = (List.range k).map (fun j => Ev.save i j) := by simpa using h1
      split at h
      · rename_i evs' e heq
        rw [heq] at h1
        cases h
        refine ⟨0, k, ?_, by simp, by simp, ?_⟩
        · rw [show evs = _ from h1, Nat.add_zero, hs, ← List.map_take, List.take_range, Nat.min_eq_left hk]; simp
        · intro e' he
          cases he
          obtain ⟨g1, g2⟩ := hvis _ (by rw [heq])
          exact .inl ⟨g1, by simpa using g2⟩
      · rename_i evs' heq
        rw [heq] at h1 h2
        have hk' := h2 rfl
        dsimp only at h1
        rw [hk', ← hs] at h1
        split at h
        · rename_i hc
          cases h
          exact ⟨1, 0, by simp [h1], fun m hm => by
            have : m = 0 := by omega
            subst this; exact ⟨size, hn⟩, fun _ => ⟨rfl, .inr ⟨by omega, hc.1, by simpa using hc.2⟩⟩, by simp⟩
        · cases hrec : mainLoop next visualize answer num fuel (i + 1) with
          | none => rw [hrec] at h; cases h
          | some res =>
            obtain ⟨evs2, r2⟩ := res
            rw [hrec] at h
            simp only [Option.map_some, Option.some.injEq, Prod.mk.injEq] at h
            obtain ⟨rfl, rfl⟩ := h
            obtain ⟨n, k2, g1, g2, g3, g4⟩ := ih _ _ _ hrec
            have e1 : i + 1 + n = i + (n + 1) := by omega
            refine ⟨n + 1, k2, ?_, ?_, ?_, ?_⟩
            · rw [g1, h1, List.range'_succ, List.flatMap_cons, List.append_assoc, e1]
            · intro m hm
              cases m with
              | zero => exact ⟨size, hn⟩
              | succ m =>
                obtain ⟨sz, hsz⟩ := g2 m (by omega)
                exact ⟨sz, by rw [← hsz]; congr 1; omega⟩
            · intro hr
              obtain ⟨q1, q2⟩ := g3 hr
              refine ⟨q1, ?_⟩
              rcases q2 with q2 | ⟨q2, q3, q4⟩
              · exact .inl (by rw [← e1]; exact q2)
              · exact .inr ⟨by omega, q3, by rw [← e1]; exact q4⟩
            · intro e he
              rw [← e1]
              exact g4 e he

/-- **C79.** However a run of the main program ends, the sampler is shut down, once and last. Before that exactly the first
`min(num, size)` images of every batch delivered are saved, in order and each under its own name; if the run ends normally all of them,
and then either the sampler is exhausted or the user has declined; if it ends with an exception, that exception comes from the sampler or
from saving the last of the images listed. -/
theorem C79_main (next : Nat → NextRes) (visualize : Nat → Nat → Option Exc) (answer : Nat → Bool) (num : Int) (fuel : Nat)
    (evs : List Ev) (r : Option Exc) (h : mainRun next visualize answer num fuel = some (evs, r)) :
    ∃ n k, evs = (List.range n).flatMap (savesOf next num) ++ (savesOf next num n).take k ++ [.shutdown] ∧
      evs.Nodup ∧ (∀ i, i < n → ∃ size, next i = .ok size) ∧
      (r = none → k = 0 ∧ (next n = .error .stopIteration ∨ (0 < n ∧ 0 < num ∧ answer (n - 1) = false))) ∧
      (∀ e, r = some e → (0 < k ∧ visualize n (k - 1) = some e) ∨ (next n = .error e ∧ e ≠ .stopIteration)) := by
  unfold mainRun at h
  cases hl : mainLoop next visualize answer num fuel 0 with
  | none => rw [hl] at h; cases h
  | some res =>
    obtain ⟨evs', r'⟩ := res
    rw [hl] at h
    simp only [Option.map_some, Option.some.injEq, Prod.mk.injEq] at h
    obtain ⟨rfl, rfl⟩ := h
    obtain ⟨n, k, h1, h2, h3, h4⟩ := mainLoop_exact next visualize answer num _ _ _ _ hl
    simp only [Nat.zero_add] at h1 h2 h3 h4
    have e : evs' = (List.range n).flatMap (savesOf next num) ++ (savesOf next num n).take k := by
      rw [h1, List.range_eq_range']
    have hmem : ∀ i ev, ev ∈ savesOf next num i → ∃ j, ev = .save i j := by
      intro i ev hev
      unfold savesOf at hev
      split at hev
      · obtain ⟨j, _, rfl⟩ := List.mem_map.1 hev; exact ⟨j, rfl⟩
      · cases hev
    have hnd : ∀ i, (savesOf next num i).Nodup := by
      intro i
      unfold savesOf
      split
      · exact List.Nodup.map (fun a b hab => by simpa using hab) List.nodup_range
      · exact List.nodup_nil
    refine ⟨n, k, by rw [e], ?_, h2, h3, h4⟩
    rw [e, List.nodup_append]
    refine ⟨?_, by simp, ?_⟩
    · rw [List.nodup_append]
      refine ⟨?_, (hnd n).sublist (List.take_sublist _ _), ?_⟩
      · rw [List.nodup_flatMap]
        refine ⟨fun i _ => hnd i, ?_⟩
        refine List.Pairwise.imp ?_ (List.nodup_range (n := n))
        intro a b hab x hx hy
        obtain ⟨j, rfl⟩ := hmem a _ hx
        obtain ⟨j', hj'⟩ := hmem b _ hy
        simp only [Ev.save.injEq] at hj'
        exact hab hj'.1
      · intro a ha b hb hab
        subst hab
        obtain ⟨i, hi, ha⟩ := List.mem_flatMap.1 ha
        obtain ⟨j, rfl⟩ := hmem i _ ha
        obtain ⟨j', hj'⟩ := hmem n _ (List.mem_of_mem_take hb)
        simp only [Ev.save.injEq] at hj'
        have := List.mem_range.1 hi
        omega
    · intro a ha b hb hab
      simp only [List.mem_singleton] at hb
      subst hab hb
      rcases List.mem_append.1 ha with ha | ha
      · obtain ⟨i, _, ha⟩ := List.mem_flatMap.1 ha
        obtain ⟨j, hj⟩ := hmem i _ ha
        cases hj
      · obtain ⟨j, hj⟩ := hmem n _ (List.mem_of_mem_take ha)
        cases hj

example : mainRun (fun i => if i < 2 then .ok 3 else .error .episodeEnd) (fun _ _ => none) (fun _ => true) 2 5 =
    some ([.save 0 0, .save 0 1, .save 1 0, .save 1 1, .shutdown], some .episodeEnd) := by decide
example : mainRun (fun i => if i < 2 then .ok 3 else .error .stopIteration) (fun _ _ => none) (fun i => i = 0) 4 5 =
    some ([.save 0 0, .save 0 1, .save 0 2, .save 1 0, .save 1 1, .save 1 2, .shutdown], none) := by decide

/-! ## Packing -/

/-- A flow that is `(u, v)` at every one of the `h` x `w` pixels. -/
def Uniform (f : Arr Rat) (h w : Nat) (u v : Rat) : Prop :=
  f.shape = [h, w, 2] ∧ f.WF ∧ ∀ y x, y < h → x < w → f.at? [y, x, 0] = some u ∧ f.at? [y, x, 1] = some v

/-- What is assumed of Pillow's bilinear resampling: an image of one grey value becomes an image of that grey value. -/
def KeepsConstants (io : Formats.MatIO) : Prop :=
  ∀ (a : Arr Rat) (h0 w0 w h : Nat) (q : Rat), 0 < h0 → 0 < w0 → 0 < w → 0 < h → a.shape = [h0, w0] → a.WF →
    (∀ y x, y < h0 → x < w0 → a.at? [y, x] = some q) →
    ∃ r, io.resizeFlow a w h = .ok r ∧ r.shape = [h, w] ∧ r.WF ∧ ∀ y x, y < h → x < w → r.at? [y, x] = some q

theorem fit_uniform {io : Formats.MatIO} (hio : KeepsConstants io) {f : Arr Rat} {h w : Nat} {u v : Rat} (hf : Uniform f h w u v)
    (hh : 0 < h) (hw : 0 < w) (c : Formats.MatCfg) (hH : 0 < c.height) (hW : 0 < c.width) :
    ∃ g, Formats.matFit io c f = .ok g ∧ Uniform g c.height c.width (u * ((c.width : Rat) / w)) (v * ((c.height : Rat) / h)) := by
  obtain ⟨hs, hwf, hat⟩ := hf
  have hwq : (w : Rat) ≠ 0 := by exact_mod_cast hw.ne'
  have hhq : (h : Rat) ≠ 0 := by exact_mod_cast hh.ne'
  by_cases he : h = c.height ∧ w = c.width
  · refine ⟨f, ?_, ?_⟩
    · unfold Formats.matFit
      rw [if_pos (by rw [hs]; simp [he.1, he.2])]
    · rw [← he.1, ← he.2, div_self hwq, div_self hhq, mul_one, mul_one]
      exact ⟨hs, hwf, hat⟩
  · obtain ⟨s0, w0, a0⟩ := Formats.channel_spec hs hwf (show 0 < 2 by omega)
    obtain ⟨s1, w1, a1⟩ := Formats.channel_spec hs hwf (show 1 < 2 by omega)
    obtain ⟨ru, e0, t0, x0, v0⟩ := hio _ h w c.width c.height u hh hw hW hH s0 w0
      (fun y x hy hx => by rw [a0 y x hy hx]; exact (hat y x hy hx).1)
    obtain ⟨rv, e1, t1, x1, v1⟩ := hio _ h w c.width c.height v hh hw hW hH s1 w1
      (fun y x hy hx => by rw [a1 y x hy hx]; exact (hat y x hy hx).2)
    obtain ⟨g, hg, gs, gw, ga⟩ := Formats.stackScaled_spec ((c.width : Rat) / w) ((c.height : Rat) / h) t0 t1 x0 x1
    refine ⟨g, ?_, gs, gw, ?_⟩
    · unfold Formats.matFit
      rw [if_neg]
      · simp only [hs]
        rw [if_neg (by omega), e0, e1]
        exact hg
      · rw [hs]
        simp only [List.take_succ_cons, List.take_zero, List.cons.injEq, and_true]
        exact he
    · intro y x hy hx
      obtain ⟨g0, g1⟩ := ga y x hy hx
      exact ⟨by rw [g0, v0 y x hy hx]; rfl, by rw [g1, v1 y x hy hx]; rfl⟩

/-- **C80** for uniform flows: packed at any target shape and then loaded at any output shape, the displacement in pixels is scaled by output size
over original size; the target shape chosen when packing does not matter. -/
theorem C80_packed_uniform_partial (io : Formats.MatIO) (hio : KeepsConstants io) (h w th tw : Nat) (hh : 0 < h) (hw : 0 < w) (hth : 0 < th)
    (htw : 0 < tw) (u v : Rat) (flow : Arr Rat) (hf : Uniform flow h w u v) (c : Formats.MatCfg) (hH : 0 < c.height)
    (hW : 0 < c.width) (p : String) :
    ∃ packed, packFlow io th tw flow = .ok packed ∧
      ∀ data, Formats.matRead io p = .ok data → data.lookup "V" = some packed → ∀ s, Formats.matLoad io c p = .ok s →
        Uniform s.flow c.height c.width (u * ((c.width : Rat) / w)) (v * ((c.height : Rat) / h)) := by
  obtain ⟨packed, hp, hu⟩ := fit_uniform hio hf hh hw ⟨false, th, tw⟩ hth htw
  refine ⟨packed, hp, ?_⟩
  intro data hr hV s hs
  have hl := Formats.matLoad_flow hr hV hs
  obtain ⟨g, hg, hgu⟩ := fit_uniform hio hu hth htw c hH hW
  have hfl : Formats.matFlow io c packed = Formats.matFit io c packed := by
    unfold Formats.matFlow
    simp [hu.1]
  rw [hfl, hg] at hl
  cases hl
  have twq : (tw : Rat) ≠ 0 := by exact_mod_cast htw.ne'
  have thq : (th : Rat) ≠ 0 := by exact_mod_cast hth.ne'
  have e1 : u * ((tw : Rat) / w) * ((c.width : Rat) / tw) = u * ((c.width : Rat) / w) := by
    rw [mul_assoc, mul_comm ((tw : Rat) / w), div_mul_div_cancel₀ twq]
  have e2 : v * ((th : Rat) / h) * ((c.height : Rat) / th) = v * ((c.height : Rat) / h) := by
    rw [mul_assoc, mul_comm ((th : Rat) / h), div_mul_div_cancel₀ thq]
  dsimp only at hgu
  rw [e1, e2] at hgu
  exact hgu

/-- A Pillow that takes the nearest pixel to the top left, and a file with the flow given. -/
def demoIO (v : Arr Rat) : Formats.MatIO where
  scipy _ := .ok [("V", v)]
  isHdf5 _ := false
  hdf5 _ := .error .valueError
  resizeImage a _ _ := .ok a
  resizeFlow a w h := .ok (Arr.build [h, w] (fun _ => a.data.headD 0))

/-- The hypotheses of C80 are met. -/
theorem demoIO_ok (v : Arr Rat) : KeepsConstants (demoIO v) := by
  intro a h0 w0 w h q hh hw _ _ hs hwf hat
  refine ⟨_, rfl, rfl, Arr.build_wf _ _, ?_⟩
  intro y x hy hx
  rw [Arr.at_build _ _ _ (Arr.offset2 hy hx)]
  have := hat 0 0 hh hw
  unfold Arr.at? at this
  rw [hs] at this
  simp only [Arr.offset, hh, hw, if_true, Option.map_some, Nat.zero_mul, Nat.zero_add, Option.bind_some] at this
  rw [← this]
  cases hda : a.data with
  | nil => rw [hda] at this; simp at this
  | cons z l => simp

example : ∃ packed s, packFlow (demoIO ⟨[], []⟩) 4 4 ⟨[2, 1, 2], [1, 2, 1, 2]⟩ = .ok packed ∧
    Formats.matLoad (demoIO packed) ⟨false, 1, 2⟩ "m" = .ok s ∧ s.flow = ⟨[1, 2, 2], [2, 1, 2, 1]⟩ := by
  refine ⟨_, _, rfl, rfl, ?_⟩
  decide +kernel

/-! ## Names of packed and listed files -/

/-- **C81** for names without white space and in which the markers do not occur early: a triplet whose first image (or second, or flow) is
named first in a line of the official list is packed under the name the list gives it. -/
theorem C81_listed_packed_partial (ws : Char → Bool) (rawDir listDir base ext rest : List Char) (mark : List Char)
    (hbase : '/' ∉ base) (hext : '/' ∉ ext ∧ ¬ "_flow".toList <:+: '.' :: ext) (hmarks : ¬ "_img1".toList <:+: base ∧
      ¬ "_img2".toList <:+: base ∧ ¬ "_flow".toList <:+: base)
    (hmark : mark = "_img1".toList ++ ".tif".toList ∨ mark = "_img2".toList ++ ".tif".toList ∨ mark = "_flow".toList ++ ".flo".toList)
    (hnames : mark ≠ "_img1".toList ++ ".tif".toList → ¬ "_img1".toList <:+: base ++ mark)
    (hnames2 : mark = "_flow".toList ++ ".flo".toList → ¬ "_img2".toList <:+: base ++ mark)
    (hws : ∀ c ∈ listDir ++ '/' :: (base ++ mark), ws c = false) (hrest : ∀ c, rest.head? = some c → ws c = true)
    (content : List Char) (hline : listDir ++ '/' :: (base ++ mark) ++ rest ∈ readList ws content) :
    packedName (rawDir ++ '/' :: (base ++ ("_flow".toList ++ '.' :: ext))) = base ++ ".mat".toList ∧
      packedName (rawDir ++ '/' :: (base ++ ("_flow".toList ++ '.' :: ext))) ∈ splitNames ws content := by
  have hpk : packedName (rawDir ++ '/' :: (base ++ ("_flow".toList ++ '.' :: ext))) = base ++ ".mat".toList := by
    unfold packedName
    have e : rawDir ++ '/' :: (base ++ ("_flow".toList ++ '.' :: ext)) = (rawDir ++ '/' :: base) ++ (('_' :: "flow".toList) ++ '.' :: ext) := by
      simp
    have : beforeLast "_flow".toList (rawDir ++ '/' :: (base ++ ("_flow".toList ++ '.' :: ext))) = some (rawDir ++ '/' :: base) := by
      rw [e]
      exact beforeLast_append (by decide) hext.2 _
    rw [this, Option.getD_some, pathName_slash _ hbase]
  refine ⟨hpk, ?_⟩
  rw [hpk]
  unfold splitNames
  refine List.mem_map.2 ⟨_, hline, ?_⟩
  congr 1
  have hm : '/' ∉ mark := by rcases hmark with rfl | rfl | rfl <;> decide
  have hn : '/' ∉ base ++ mark := by simp [hbase, hm]
  have hfw : firstWord ws (listDir ++ '/' :: (base ++ mark) ++ rest) = listDir ++ '/' :: (base ++ mark) :=
    firstWord_append ws hws (by simp) hrest
  unfold core
  simp only [hfw, pathName_slash _ hn]
  rcases hmark with rfl | rfl | rfl
  · rw [show before "_img1".toList (base ++ ("_img1".toList ++ ".tif".toList)) = some base from
      before_append (by decide) _ base hmarks.1]
  · rw [before_none (by decide) _ (hnames (by decide)), show before "_img2".toList (base ++ ("_img2".toList ++ ".tif".toList)) = some base from
      before_append (by decide) _ base hmarks.2.1]
  · rw [before_none (by decide) _ (hnames (by decide)), before_none (by decide) _ (hnames2 rfl),
      show before "_flow".toList (base ++ ("_flow".toList ++ ".flo".toList)) = some base from
      before_append (by decide) _ base hmarks.2.2]

example : packedName "raw/backstep/backstep_Re800_00001_flow.flo".toList = "backstep_Re800_00001.mat".toList ∧
    splitNames demoWs "d/backstep_Re800_00001_img1.tif d/backstep_Re800_00001_img2.tif\n".toList = ["backstep_Re800_00001.mat".toList] := by
  decide +kernel

/-- **C81** fails for a list that names files in a directory with a space in its name: no packed file has the name found. -/
theorem C81_refuted : packedName "raw/PIV data/a_flow.flo".toList = "a.mat".toList ∧
    splitNames demoWs "PIV data/a_img1.tif PIV data/a_img2.tif PIV data/a_flow.flo\n".toList = ["PIV.mat".toList] := by
  decide +kernel

/-- **C77**, names without markers: a line whose first word is a file `base.ext` of some directory lists the packed file `base.mat`. -/
theorem C77_plain_name (ws : Char → Bool) (dir base ext rest : List Char) (hne : base ≠ []) (hext : ext ≠ []) (hslash : '/' ∉ base ++ '.' :: ext)
    (hdot : '.' ∉ ext) (h1 : ¬ "_img1".toList <:+: base ++ '.' :: ext) (h2 : ¬ "_img2".toList <:+: base ++ '.' :: ext)
    (h3 : ¬ "_flow".toList <:+: base ++ '.' :: ext) (hws : ∀ c ∈ dir ++ '/' :: (base ++ '.' :: ext), ws c = false)
    (hrest : ∀ c, rest.head? = some c → ws c = true) (content : List Char) (hline : dir ++ '/' :: (base ++ '.' :: ext) ++ rest ∈ readList ws content) :
    base ++ ".mat".toList ∈ splitNames ws content := by
  unfold splitNames
  refine List.mem_map.2 ⟨_, hline, ?_⟩
  congr 1
  have hfw := firstWord_append ws hws (by simp) hrest
  have hrev : (base ++ '.' :: ext).reverse.takeWhile (· ≠ '.') = ext.reverse := by
    rw [List.reverse_append, List.reverse_cons, List.append_assoc, List.takeWhile_append_of_pos]
    · simp
    · intro x hx
      simp only [decide_eq_true_eq, ne_eq]
      intro e; subst e
      exact hdot (by simpa using hx)
  have hl : 0 < base.length := List.length_pos_iff.2 hne
  unfold core
  simp only [hfw, pathName_slash _ hslash, before_none (pat := "_img1".toList) (by decide) _ h1, before_none (pat := "_img2".toList) (by decide) _ h2,
    before_none (pat := "_flow".toList) (by decide) _ h3]
  unfold pathStem
  simp only [pathName_slash _ hslash, hrev]
  rw [if_pos ⟨by simp; omega, by simpa using hext⟩,
    show (base ++ '.' :: ext).length - ext.reverse.length - 1 = base.length by simp; omega]
  simp

/-- **C77**, names without markers whose only dot, if any, comes first (`.ext`, `name`): they have no suffix to remove. -/
theorem C77_bare_name (ws : Char → Bool) (dir name rest : List Char) (hslash : '/' ∉ name) (hdot : '.' ∉ name.tail)
    (h1 : ¬ "_img1".toList <:+: name) (h2 : ¬ "_img2".toList <:+: name) (h3 : ¬ "_flow".toList <:+: name)
    (hws : ∀ c ∈ dir ++ '/' :: name, ws c = false) (hrest : ∀ c, rest.head? = some c → ws c = true)
    (content : List Char) (hline : dir ++ '/' :: name ++ rest ∈ readList ws content) : name ++ ".mat".toList ∈ splitNames ws content := by
  unfold splitNames
  refine List.mem_map.2 ⟨_, hline, ?_⟩
  congr 1
  have hfw := firstWord_append ws hws (by simp) hrest
  unfold core
  simp only [hfw, pathName_slash _ hslash, before_none (pat := "_img1".toList) (by decide) _ h1, before_none (pat := "_img2".toList) (by decide) _ h2,
    before_none (pat := "_flow".toList) (by decide) _ h3]
  unfold pathStem
  simp only [pathName_slash _ hslash]
  rw [if_neg]
  rintro ⟨hlt, -⟩
  cases name with
  | nil => simp at hlt
  | cons c t =>
    rw [List.reverse_cons, List.takeWhile_append_of_pos] at hlt
    · simp at hlt
    · intro x hx
      simp only [decide_eq_true_eq, ne_eq]
      intro e; subst e
      exact hdot (by simpa using hx)

example : splitNames demoWs "d/e/sample.07.flo other\nd/.hidden\nd/bare\n".toList =
    ["sample.07.mat".toList, ".hidden.mat".toList, "bare.mat".toList] := by decide +kernel

end Verif.Scripts
