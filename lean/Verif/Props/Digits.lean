import Verif.Model.Digits
import Verif.Props.Formats
/-!
# C194: which flow files share their frames
-/

namespace Verif.Digits
open Verif Formats

/-- The path of the flow file with number spelled `ds` in directory `d`. -/
def flowPath (d ds : List Char) : List Char := d ++ '/' :: ("flow_".toList ++ ds ++ ".npy".toList)

/-- The path of the frame with number `t` in directory `d`, the number as Python writes it. -/
def framePath (d : List Char) (t : Int) : List Char := d ++ '/' :: ("img_".toList ++ renderInt t ++ ".jpg".toList)

/-- A proper directory: not empty, and without a slash at its end. -/
def Dir (d : List Char) : Prop := d ≠ [] ∧ d.getLast? ≠ some '/'

/-- A number spelled with digits of any script. -/
def Number (digit : Char → Option Nat) (ds : List Char) : Prop := ds ≠ [] ∧ ∀ c ∈ ds, (digit c).isSome = true

private theorem span {P : Char → Bool} {ds tail : List Char} (h : ∀ c ∈ ds, P c = true) (ht : ∀ c, tail.head? = some c → P c = false) :
    (ds ++ tail).takeWhile P = ds ∧ (ds ++ tail).dropWhile P = tail := by
  induction ds with
  | nil => cases tail with
    | nil => simp
    | cons c t => simp [ht c rfl]
  | cons a ds ih =>
    have ha := h a (by simp)
    have := ih (fun c hc => h c (by simp [hc]))
    simp [ha, this.1, this.2]

private theorem none_of {digit : Char → Option Nat} (hu : Unicode digit) {c : Char} (h1 : c.toNat < 128) (h2 : isDigit c = false) : (digit c).isSome = false := by
  rw [hu.other c h1 h2]; rfl

private theorem no_slash {digit : Char → Option Nat} (hu : Unicode digit) {ds : List Char} (h : ∀ c ∈ ds, (digit c).isSome = true) : '/' ∉ ds := by
  intro hm
  have := none_of hu (c := '/') (by decide) (by decide)
  rw [h _ hm] at this
  cases this

/-- **C194**: the frames of the flow file with number `t`, in whatever digits it is spelled, are those with the numbers `t - 1` and `t`, spelled as Python does. -/
theorem C194_frames {digit : Char → Option Nat} (hu : Unicode digit) {d ds : List Char} (hd : Dir d) (hn : Number digit ds) :
    frames digit (flowPath d ds) = some (framePath d ((value digit ds : Int) - 1), framePath d (value digit ds)) := by
  have hns : '/' ∉ "flow_".toList ++ ds ++ ".npy".toList := by
    have h1 : '/' ∉ "flow_".toList := by decide
    have h2 : '/' ∉ ".npy".toList := by decide
    simp only [List.mem_append, not_or]
    exact ⟨⟨h1, no_slash hu hn.2⟩, h2⟩
  obtain ⟨h1, h2⟩ := dirname_plain hns hd.1 hd.2
  have hs := span (P := fun c => (digit c).isSome) (ds := ds) (tail := ".npy".toList) hn.2 (by
    intro c hc
    have : c = '.' := by simpa using hc.symm
    subst this
    exact none_of hu (by decide) (by decide))
  have hp : parse digit ("flow_".toList ++ ds ++ ".npy".toList) = some (value digit ds) := by
    unfold parse
    have hd5 : ("flow_".toList ++ ds ++ ".npy".toList).drop 5 = ds ++ ".npy".toList := by
      rw [List.append_assoc]; rfl
    rw [if_pos (by rw [List.append_assoc]; exact List.prefix_append _ _)]
    simp only [hd5, hs.1, hs.2]
    simp [hn.1]
  unfold frames flowPath
  rw [h1, h2, hp]
  simp [imgPath, joinPath, framePath, hd.1, hd.2]

private theorem renderInt_chars (t : Int) : '/' ∉ renderInt t := by
  have h (n : Nat) : '/' ∉ natDigits n := fun hm => by
    have := (natDigits_spec n).2.1 _ hm
    revert this; decide
  cases t with
  | ofNat n => exact h n
  | negSucc n => simp [renderInt, h]

private theorem renderInt_inj {s t : Int} (h : renderInt s = renderInt t) : s = t := by
  have nd {m n : Nat} (h : natDigits m = natDigits n) : m = n := by
    rw [← (natDigits_spec m).2.2, ← (natDigits_spec n).2.2, h]
  have mix {m n : Nat} (h : natDigits m = '-' :: natDigits n) : False := by
    have := (natDigits_spec m).2.1 '-' (by rw [h]; simp)
    revert this; decide
  cases s with
  | ofNat m => cases t with
    | ofNat n => exact congrArg Int.ofNat (nd h)
    | negSucc n => exact (mix h).elim
  | negSucc m => cases t with
    | ofNat n => exact (mix h.symm).elim
    | negSucc n =>
      have := nd (List.cons.inj h).2
      have : m = n := by omega
      rw [this]

/-- Frames are the same file only if directory and number are the same. -/
theorem framePath_inj {d d' : List Char} {s t : Int} (h : framePath d s = framePath d' t) : d = d' ∧ s = t := by
  have hns (t : Int) : '/' ∉ "img_".toList ++ renderInt t ++ ".jpg".toList := by
    have h1 : '/' ∉ "img_".toList := by decide
    have h2 : '/' ∉ ".jpg".toList := by decide
    simp only [List.mem_append, not_or]
    exact ⟨⟨h1, renderInt_chars t⟩, h2⟩
  have hs := congrArg splitLast h
  unfold framePath at hs
  rw [splitLast_slash d (hns s), splitLast_slash d' (hns t)] at hs
  have h1 := congrArg Prod.fst hs
  have h2 := congrArg Prod.snd hs
  simp only at h1 h2
  refine ⟨List.append_cancel_right h1, renderInt_inj ?_⟩
  rw [List.append_assoc, List.append_assoc] at h2
  exact List.append_cancel_right (List.append_cancel_left h2)

/-- **C194**, exactly: two flow files have the same two frames if and only if they are in the same directory and have the same number. -/
theorem C194_iff {digit : Char → Option Nat} (hu : Unicode digit) {d d' ds ds' : List Char} (hd : Dir d) (hd' : Dir d') (hn : Number digit ds) (hn' : Number digit ds') :
    frames digit (flowPath d ds) = frames digit (flowPath d' ds') ↔ d = d' ∧ value digit ds = value digit ds' := by
  rw [C194_frames hu hd hn, C194_frames hu hd' hn']
  constructor
  · intro h
    obtain ⟨h1, h2⟩ := framePath_inj (congrArg Prod.snd (Option.some.inj h))
    exact ⟨h1, by exact_mod_cast h2⟩
  · rintro ⟨rfl, h⟩
    rw [h]

/-- **C194**: two flow files have a frame in common if and only if they are in the same directory and their numbers are the same or consecutive. -/
theorem C194_common_iff {digit : Char → Option Nat} (hu : Unicode digit) {d d' ds ds' : List Char} (hd : Dir d) (hd' : Dir d') (hn : Number digit ds)
    (hn' : Number digit ds') {a b a' b' : List Char} (h : frames digit (flowPath d ds) = some (a, b)) (h' : frames digit (flowPath d' ds') = some (a', b')) :
    (a = a' ∨ a = b' ∨ b = a' ∨ b = b') ↔
      d = d' ∧ (value digit ds = value digit ds' ∨ value digit ds = value digit ds' + 1 ∨ value digit ds' = value digit ds + 1) := by
  rw [C194_frames hu hd hn] at h
  rw [C194_frames hu hd' hn'] at h'
  cases h
  cases h'
  constructor
  · rintro (h | h | h | h) <;> obtain ⟨h1, h2⟩ := framePath_inj h <;> exact ⟨h1, by omega⟩
  · rintro ⟨rfl, h | h | h⟩
    · exact .inr (.inr (.inr (by rw [h])))
    · refine .inr (.inl ?_)
      rw [h]; congr 1; push_cast; omega
    · refine .inr (.inr (.inl ?_))
      rw [h]; congr 1; push_cast; omega

private theorem value_ascii {digit : Char → Option Nat} (hu : Unicode digit) {ds : List Char} (h : ∀ c ∈ ds, isDigit c = true) : value digit ds = digitsValue ds := by
  unfold value digitsValue
  suffices hg : ∀ acc : Nat, ds.foldl (fun acc c => 10 * acc + (digit c).getD 0) acc = ds.foldl (fun acc c => 10 * acc + (c.toNat - '0'.toNat)) acc from hg 0
  induction ds with
  | nil => intro acc; rfl
  | cons c l ih =>
    intro acc
    simp only [List.foldl_cons]
    rw [hu.ascii c (h c (by simp))]
    exact ih (fun c hc => h c (by simp [hc])) _

/-- **C194** (partial): flow files whose numbers are spelled as Python spells them (`flow_7.npy`, not `flow_007.npy` or digits of other scripts) have different pairs of frames if
they are different files. Missing: other spellings (`C194_refuted`). -/
theorem C194_different_partial {digit : Char → Option Nat} (hu : Unicode digit) {d d' : List Char} (hd : Dir d) (hd' : Dir d') (m n : Nat)
    (hne : flowPath d (renderInt m) ≠ flowPath d' (renderInt n)) :
    frames digit (flowPath d (renderInt m)) ≠ frames digit (flowPath d' (renderInt n)) := by
  have num (n : Nat) : Number digit (renderInt n) := by
    obtain ⟨h1, h2, _⟩ := natDigits_spec n
    exact ⟨h1, fun c hc => by rw [hu.ascii c (h2 c hc)]; rfl⟩
  have val (n : Nat) : value digit (renderInt n) = n := by
    obtain ⟨_, h2, h3⟩ := natDigits_spec n
    exact (value_ascii hu h2).trans h3
  rw [Ne, C194_iff hu hd hd' (num m) (num n), val, val]
  rintro ⟨rfl, rfl⟩
  exact hne rfl

private theorem check_of {digit : Char → Option Nat} (isFile : List Char → Bool) {files : List (List Char)}
    (hs : ∀ p ∈ files, ".npy".toList.isSuffixOf p = true) (h : ∀ p ∈ files, ∃ a b, frames digit p = some (a, b) ∧ isFile a = true ∧ isFile b = true) :
    check digit isFile files = .ok () := by
  unfold check
  rw [if_pos (by rw [List.all_eq_true]; exact hs)]
  clear hs
  induction files with
  | nil => rfl
  | cons p l ih =>
    obtain ⟨a, b, h1, h2, h3⟩ := h p (by simp)
    simp only [checkImages, h1, h2, h3, Bool.and_self, if_true]
    exact ih (fun q hq => h q (by simp [hq]))

private theorem suffix_flowPath (d ds : List Char) : ".npy".toList.isSuffixOf (flowPath d ds) = true := by
  rw [List.isSuffixOf_iff_suffix]
  refine ⟨d ++ '/' :: ("flow_".toList ++ ds), ?_⟩
  simp [flowPath]

/-- **C194 is false** for every number and directory: with a zero before its number a file is a different file, the constructor accepts both if the two frames exist, and both are delivered
with the same two frames. -/
theorem C194_refuted {digit : Char → Option Nat} (hu : Unicode digit) {d ds : List Char} (hd : Dir d) (hn : Number digit ds) (isFile : List Char → Bool)
    (h1 : isFile (framePath d ((value digit ds : Int) - 1)) = true) (h2 : isFile (framePath d (value digit ds)) = true) :
    flowPath d ds ≠ flowPath d ('0' :: ds) ∧ check digit isFile [flowPath d ds, flowPath d ('0' :: ds)] = .ok () ∧
    frames digit (flowPath d ds) = frames digit (flowPath d ('0' :: ds)) := by
  have hz : digit '0' = some 0 := hu.ascii '0' (by decide)
  have hn0 : Number digit ('0' :: ds) := ⟨by simp, fun c hc => by
    rcases List.mem_cons.mp hc with rfl | hc
    · rw [hz]; rfl
    · exact hn.2 c hc⟩
  have hv : value digit ('0' :: ds) = value digit ds := by
    unfold value
    rw [List.foldl_cons, hz]
    rfl
  refine ⟨?_, ?_, (C194_iff hu hd hd hn hn0).mpr ⟨rfl, hv.symm⟩⟩
  · intro h
    have := congrArg List.length h
    simp [flowPath] at this
  · refine check_of isFile ?_ ?_
    · intro p hp
      rcases List.mem_cons.mp hp with rfl | hp
      · exact suffix_flowPath _ _
      · rw [List.mem_singleton.mp hp]; exact suffix_flowPath _ _
    · intro p hp
      rcases List.mem_cons.mp hp with rfl | hp
      · exact ⟨_, _, C194_frames hu hd hn, h1, h2⟩
      · rw [List.mem_singleton.mp hp]
        refine ⟨_, _, C194_frames hu hd hn0, ?_, ?_⟩ <;> rw [hv] <;> assumption

/-- Which names match, and with which number. -/
theorem parse_iff {digit : Char → Option Nat} (hu : Unicode digit) (name : List Char) (t : Nat) :
    parse digit name = some t ↔ ∃ ds, Number digit ds ∧ value digit ds = t ∧
      (name = "flow_".toList ++ ds ++ ".npy".toList ∨ name = "flow_".toList ++ ds ++ ".npy\n".toList) := by
  constructor
  · intro h
    unfold parse at h
    split at h
    · rename_i hpre
      obtain ⟨r, rfl⟩ := hpre
      have hd : ("flow_".toList ++ r).drop 5 = r := rfl
      simp only [hd] at h
      split at h
      · rename_i hc
        refine ⟨_, ⟨hc.1, fun c hc => List.mem_takeWhile_imp (p := fun c => (digit c).isSome) hc⟩, Option.some.inj h, ?_⟩
        have e := List.takeWhile_append_dropWhile (p := fun c => (digit c).isSome) (l := r)
        rcases hc.2 with ht | ht
        · left; rw [List.append_assoc, ← ht, e]
        · right; rw [List.append_assoc, ← ht, e]
      · cases h
    · cases h
  · rintro ⟨ds, hn, rfl, h⟩
    have go (tail : List Char) (ht : tail = ".npy".toList ∨ tail = ".npy\n".toList) : parse digit ("flow_".toList ++ ds ++ tail) = some (value digit ds) := by
      have hs := span (P := fun c => (digit c).isSome) (ds := ds) (tail := tail) hn.2 (by
        intro c hc
        have : c = '.' := by rcases ht with rfl | rfl <;> simpa using hc.symm
        subst this
        exact none_of hu (by decide) (by decide))
      unfold parse
      have hd5 : ("flow_".toList ++ ds ++ tail).drop 5 = ds ++ tail := by
        rw [List.append_assoc]; rfl
      rw [if_pos (by rw [List.append_assoc]; exact List.prefix_append _ _)]
      simp only [hd5, hs.1, hs.2]
      rw [if_pos ⟨hn.1, ht⟩]
    rcases h with rfl | rfl
    · exact go _ (.inl rfl)
    · exact go _ (.inr rfl)

/-- **C194**, the constructor: with images it accepts a list of files iff every name is `flow_<digits>.npy` with digits of any script and both frames exist. (A name that `$` lets
pass because of a final newline is refused for its ending.) -/
theorem C194_check_iff {digit : Char → Option Nat} (hu : Unicode digit) (isFile : List Char → Bool) (files : List (List Char)) :
    check digit isFile files = .ok () ↔
      ∀ p ∈ files, ∃ ds, Number digit ds ∧ basename p = "flow_".toList ++ ds ++ ".npy".toList ∧
        ∃ a b, frames digit p = some (a, b) ∧ isFile a = true ∧ isFile b = true := by
  constructor
  · intro h
    unfold check at h
    split at h
    · rename_i hs
      rw [List.all_eq_true] at hs
      intro p hp
      have hfr : ∃ a b, frames digit p = some (a, b) ∧ isFile a = true ∧ isFile b = true := by
        clear hs
        induction files with
        | nil => cases hp
        | cons r l ih =>
          simp only [checkImages] at h
          split at h
          · cases h
          · rename_i a b hr
            split at h
            · rename_i hf
              rw [Bool.and_eq_true] at hf
              rcases List.mem_cons.mp hp with rfl | hp
              · exact ⟨a, b, hr, hf⟩
              · exact ih h hp
            · cases h
      obtain ⟨a, b, hf, ha, hb⟩ := hfr
      have hf' := hf
      unfold frames at hf'
      split at hf'
      · cases hf'
      · rename_i t ht
        obtain ⟨ds, hn, _, hname | hname⟩ := (parse_iff hu _ _).mp ht
        · exact ⟨ds, hn, hname, a, b, hf, ha, hb⟩
        · exfalso
          obtain ⟨q, hq⟩ := List.isSuffixOf_iff_suffix.mp (hs p hp)
          have e1 : p.getLast? = some 'y' := by rw [← hq, List.getLast?_append]; rfl
          have e2 : p.getLast? = some '\n' := by
            rw [← splitLast_append p, show (splitLast p).2 = _ from hname, List.getLast?_append, List.getLast?_append]; rfl
          rw [e1] at e2
          revert e2; decide
    · cases h
  · intro h
    refine check_of isFile (fun p hp => ?_) (fun p hp => by obtain ⟨_, _, _, h⟩ := h p hp; exact h)
    obtain ⟨ds, _, hname, _⟩ := h p hp
    rw [List.isSuffixOf_iff_suffix]
    refine ⟨(splitLast p).1 ++ ("flow_".toList ++ ds), ?_⟩
    rw [List.append_assoc, ← hname]
    exact splitLast_append p

/-- For names without digits of other scripts and without a final newline it is the model of C18. -/
theorem frames_ascii {digit : Char → Option Nat} (hu : Unicode digit) {p : List Char} (h : ∀ c ∈ p, c.toNat < 128) (hl : p.getLast? ≠ some '\n') :
    frames digit p = framePaths p := by
  have hb : ∀ c ∈ basename p, c.toNat < 128 := fun c hc => h c (by
    have := splitLast_append p
    rw [← this]
    exact List.mem_append_right _ hc)
  have hl' : ∀ r, basename p ≠ r ++ ['\n'] := by
    intro r hr
    apply hl
    have := splitLast_append p
    have hb' : (splitLast p).2 = r ++ ['\n'] := hr
    rw [hb', ← List.append_assoc] at this
    rw [← this, List.getLast?_append]
    rfl
  have hP : ∀ c, c.toNat < 128 → ((digit c).isSome) = isDigit c := by
    intro c hc
    cases hd : isDigit c with
    | true => rw [hu.ascii c hd]; rfl
    | false => rw [hu.other c hc hd]; rfl
  have tw {l : List Char} (hl : ∀ c ∈ l, c.toNat < 128) : l.takeWhile (fun c => (digit c).isSome) = l.takeWhile isDigit ∧
      l.dropWhile (fun c => (digit c).isSome) = l.dropWhile isDigit := by
    induction l with
    | nil => exact ⟨rfl, rfl⟩
    | cons a l ih =>
      have := ih (fun c hc => hl c (by simp [hc]))
      simp only [List.takeWhile_cons, List.dropWhile_cons, hP a (hl a (by simp)), this.1, this.2]
      exact ⟨trivial, trivial⟩
  have hp : parse digit (basename p) = parseFlowName (basename p) := by
    unfold parse parseFlowName
    split
    · rename_i hpre
      have ht := tw (l := (basename p).drop 5) (fun c hc => hb c (List.mem_of_mem_drop hc))
      simp only [ht.1, ht.2]
      have hno : ((basename p).drop 5).dropWhile isDigit ≠ ".npy\n".toList := by
        intro e
        apply hl' ((basename p).take 5 ++ ((basename p).drop 5).takeWhile isDigit ++ ".npy".toList)
        have e1 := List.takeWhile_append_dropWhile (p := isDigit) (l := (basename p).drop 5)
        have e2 := List.take_append_drop 5 (basename p)
        rw [← e1, e] at e2
        rw [List.append_assoc, List.append_assoc]
        exact e2.symm
      have hv : value digit (((basename p).drop 5).takeWhile isDigit) = digitsValue (((basename p).drop 5).takeWhile isDigit) :=
        value_ascii hu (fun c hc => List.mem_takeWhile_imp hc)
      simp only [hno, or_false, hv]
    · rfl
  unfold frames framePaths
  rw [hp]
  cases parseFlowName (basename p) <;> rfl

/-- The digits of ASCII and the Arabic-Indic ones, as an example of what Unicode knows. -/
def someDigits (c : Char) : Option Nat :=
  if isDigit c then some (c.toNat - '0'.toNat) else if 0x660 ≤ c.toNat ∧ c.toNat ≤ 0x669 then some (c.toNat - 0x660) else none

theorem someDigits_unicode : Unicode someDigits where
  ascii c h := by simp [someDigits, h]
  other c h h' := by
    unfold someDigits
    rw [if_neg (by simp [h']), if_neg (by omega)]
  small c n h := by
    unfold someDigits at h
    split at h
    · rename_i hd
      have : c.toNat ≤ '9'.toNat := by
        unfold isDigit at hd
        simp only [decide_eq_true_eq] at hd
        exact hd.2
      have h9 : '9'.toNat = 57 := rfl
      have h0 : '0'.toNat = 48 := rfl
      cases h
      omega
    · split at h
      · rename_i hr
        have := Option.some.inj h
        omega
      · cases h

/-- `d/flow_٧.npy` (an Arabic seven) and `d/flow_007.npy` have the same frames, `d/img_6.jpg` and `d/img_7.jpg`. -/
example : Dir ['d'] ∧ Number someDigits ['٧'] ∧ Number someDigits "007".toList ∧
    frames someDigits (flowPath ['d'] ['٧']) = frames someDigits (flowPath ['d'] "007".toList) ∧ flowPath ['d'] ['٧'] ≠ flowPath ['d'] "007".toList := by
  have hd : Dir ['d'] := ⟨by decide, by decide⟩
  have h1 : Number someDigits ['٧'] := ⟨by decide, by decide⟩
  have h2 : Number someDigits "007".toList := ⟨by decide, by decide⟩
  exact ⟨hd, h1, h2, (C194_iff someDigits_unicode hd hd h1 h2).mpr ⟨rfl, by decide⟩, by decide⟩

example : flowPath ['d'] (renderInt 7) ≠ flowPath ['e'] (renderInt 7) := by
  simp [flowPath]

end Verif.Digits
