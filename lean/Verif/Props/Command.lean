import Verif.Model.Command
import Verif.Props.Saved
/-!
# C129: the command line of the script for class 1
-/

namespace Verif.Command
open Verif Scripts

/-- A decimal numeral, as one types it. -/
def numeral (n : Nat) : List Char := Nat.toDigits 10 n

theorem digitChar_value : ∀ d, d < 10 → (Nat.digitChar d).isDigit = true ∧ (Nat.digitChar d).toNat - 48 = d := by decide

theorem digits_snoc (l : List Char) (h : ∀ c ∈ l, c.isDigit = true) (d : Nat) (hd : d < 10) : ∀ acc more v, digits acc more l = some v ∨ (l = [] ∧ v = acc) →
    digits acc more (l ++ [Nat.digitChar d]) = some (10 * v + d) := by
  obtain ⟨h1, h2⟩ := digitChar_value d hd
  induction l with
  | nil =>
    intro acc more v hv
    have : v = acc := by
      rcases hv with hv | hv
      · cases more <;> simp_all [digits]
      · exact hv.2
    subst this
    simp [digits, h1, h2]
  | cons c l ih =>
    intro acc more v hv
    have hc := h c (by simp)
    simp only [List.cons_append, digits, hc, if_true] at hv ⊢
    refine ih (fun c hc => h c (by simp [hc])) _ _ _ ?_
    rcases hv with hv | hv
    · exact .inl hv
    · simp at hv

theorem digits_numeral : ∀ n : Nat, digits 0 true (numeral n) = some n := by
  intro n
  induction n using Nat.strong_induction_on with
  | _ n ih =>
    unfold numeral at *
    rw [Nat.toDigits_eq_if (by decide)]
    split
    · rename_i hlt
      obtain ⟨h1, h2⟩ := digitChar_value n hlt
      simp [digits, h1, h2]
    · rename_i hge
      rw [digits_snoc _ (fun c hc => Nat.isDigit_of_mem_toDigits (by decide) (by decide) hc) (n % 10) (by omega) 0 true (n / 10) (.inl (ih (n / 10) (by omega)))]
      congr 1
      omega

theorem numeral_digit {n : Nat} {c : Char} (h : c ∈ numeral n) : c.isDigit = true := Nat.isDigit_of_mem_toDigits (by decide) (by decide) h

theorem strip_numeral (ws : Char → Bool) (hws : ∀ c, c.isDigit = true → ws c = false) (l : List Char) (h : ∀ c ∈ l, c.isDigit = true) : strip ws l = l := by
  unfold strip
  have hd : ∀ l : List Char, (∀ c ∈ l, c.isDigit = true) → l.dropWhile ws = l := by
    intro l hl
    cases l with
    | nil => rfl
    | cons c l => rw [List.dropWhile_cons_of_neg (by simp [hws c (hl c (by simp))])]
  rw [hd l h, hd l.reverse (fun c hc => h c (by simpa using hc)), List.reverse_reverse]

theorem pyInt_numeral (ws : Char → Bool) (hws : ∀ c, c.isDigit = true → ws c = false) (n : Nat) : pyInt ws (numeral n) = some (n : Int) := by
  have hall : ∀ c ∈ numeral n, c.isDigit = true := fun c hc => numeral_digit hc
  unfold pyInt
  rw [strip_numeral ws hws _ hall]
  have hdg := digits_numeral n
  split
  · rename_i l e
    exact absurd (hall '-' (by rw [e]; simp)) (by decide)
  · rename_i l e
    exact absurd (hall '+' (by rw [e]; simp)) (by decide)
  · rw [hdg]; rfl

theorem splitOn_ne (c : Char) : ∀ l : List Char, splitOn c l ≠ []
  | [] => by simp [splitOn]
  | x :: l => by
    rw [splitOn]
    split
    · simp
    · split <;> simp

theorem splitOn_none (c : Char) : ∀ l : List Char, c ∉ l → splitOn c l = [l]
  | [], _ => rfl
  | x :: l, h => by
    rw [splitOn, if_neg (by rintro rfl; simp at h), splitOn_none c l (fun hm => h (by simp [hm]))]

theorem splitOn_append (c : Char) (r : List Char) : ∀ l : List Char, c ∉ l → splitOn c (l ++ c :: r) = l :: splitOn c r
  | [], _ => by simp [splitOn]
  | x :: l, h => by
    rw [List.cons_append, splitOn, if_neg (by rintro rfl; simp at h), splitOn_append c r l (fun hm => h (by simp [hm]))]

/-- **C129**, the ratio as one types it: three numerals separated by slashes are read as these numbers. -/
theorem C129_ratio_read (ws : Char → Bool) (hws : ∀ c, c.isDigit = true → ws c = false) (a b c : Nat) :
    pyInts ws '/' (numeral a ++ '/' :: (numeral b ++ '/' :: numeral c)) = some [(a : Int), (b : Int), (c : Int)] := by
  have hs : ∀ n, '/' ∉ numeral n := fun n h => absurd (numeral_digit h) (by decide)
  unfold pyInts
  rw [splitOn_append _ _ _ (hs a), splitOn_append _ _ _ (hs b), splitOn_none _ _ (hs c)]
  simp [pyInt_numeral ws hws]

/-- **C129**, the target shape as one types it. -/
theorem C129_shape_read (ws : Char → Bool) (hws : ∀ c, c.isDigit = true → ws c = false) (h w : Nat) :
    pyInts ws 'x' (numeral h ++ 'x' :: numeral w) = some [(h : Int), (w : Int)] := by
  have hs : ∀ n, 'x' ∉ numeral n := fun n h => absurd (numeral_digit h) (by decide)
  unfold pyInts
  rw [splitOn_append _ _ _ (hs h), splitOn_none _ _ (hs w)]
  simp [pyInt_numeral ws hws]

/-- **C129**, the ratio: if the ratio is not three integers with sum 100, the program changes nothing and reports this, with status 1. -/
theorem C129_wrong_ratio {D : Type} (ws : Char → Bool) (steps : Steps D) (ratioArg shapeArg : List Char) (d : D)
    (h : ∀ a b c : Int, pyInts ws '/' ratioArg = some [a, b, c] → a + b + c ≠ 100) : program ws steps ratioArg shapeArg d = (⟨1, true, false⟩, d) := by
  unfold program
  split
  · rfl
  · rename_i ratios hr
    rw [if_neg]
    intro hok
    simp only [ratiosOk, decide_eq_true_eq] at hok
    obtain ⟨hlen, hsum⟩ := hok
    obtain ⟨a, b, c, rfl⟩ := List.length_eq_three.mp hlen
    exact h a b c hr (by simpa [add_assoc] using hsum)

/-- **C129**, the status: it is 0 exactly if the ratio is well-formed, fetching the lists raises nothing, and the target shape is malformed or the
rest of the work raises nothing; otherwise it is 1. -/
theorem C129_status_partial {D : Type} (ws : Char → Bool) (steps : Steps D) (ratioArg shapeArg : List Char) (d : D) :
    ((program ws steps ratioArg shapeArg d).1.status = 0 ↔ ∃ a b c : Int, pyInts ws '/' ratioArg = some [a, b, c] ∧ a + b + c = 100 ∧
      (steps.fetch [a, b, c] d).1 = .ok () ∧ ∀ shape, pyInts ws 'x' shapeArg = some shape → (steps.rest shape (steps.fetch [a, b, c] d).2).1 = .ok ()) ∧
    ((program ws steps ratioArg shapeArg d).1.status = 0 ∨ (program ws steps ratioArg shapeArg d).1.status = 1) := by
  by_cases hr : ∃ a b c : Int, pyInts ws '/' ratioArg = some [a, b, c] ∧ a + b + c = 100
  · obtain ⟨a, b, c, h1, h2⟩ := hr
    have hok : ratiosOk [a, b, c] = true := by simp [ratiosOk]; omega
    unfold program
    rw [h1]
    simp only [hok, if_true]
    have huniq : ∀ a' b' c' : Int, pyInts ws '/' ratioArg = some [a', b', c'] → a' = a ∧ b' = b ∧ c' = c := by
      intro a' b' c' h
      rw [h1] at h
      simp only [Option.some.injEq, List.cons.injEq, and_true] at h
      exact ⟨h.1.symm, h.2.1.symm, h.2.2.symm⟩
    rcases hf : steps.fetch [a, b, c] d with ⟨r1, d1⟩
    cases r1 with
    | error e =>
      refine ⟨⟨fun h => by simp at h, ?_⟩, .inr rfl⟩
      rintro ⟨a', b', c', h, _, hf', _⟩
      obtain ⟨rfl, rfl, rfl⟩ := huniq a' b' c' (h1.trans h)
      rw [hf] at hf'
      cases hf'
    | ok u =>
      dsimp only
      unfold main
      cases hx : pyInts ws 'x' shapeArg with
      | none => exact ⟨⟨fun _ => ⟨a, b, c, rfl, h2, by rw [hf], fun s hs => by cases hs⟩, fun _ => rfl⟩, .inl rfl⟩
      | some shape =>
        dsimp only
        rcases hq : steps.rest shape d1 with ⟨r2, d2⟩
        cases r2 with
        | error e =>
          refine ⟨⟨fun h => by simp at h, ?_⟩, .inr rfl⟩
          rintro ⟨a', b', c', h, _, _, hall⟩
          obtain ⟨rfl, rfl, rfl⟩ := huniq a' b' c' (h1.trans h)
          have := hall shape rfl
          rw [hf] at this
          dsimp only at this
          rw [hq] at this
          cases this
        | ok u2 =>
          refine ⟨⟨fun _ => ⟨a, b, c, rfl, h2, by rw [hf], fun s hs => ?_⟩, fun _ => rfl⟩, .inl rfl⟩
          cases hs
          rw [hf]
          dsimp only
          rw [hq]
  · have hw := C129_wrong_ratio ws steps ratioArg shapeArg d (fun a b c h e => hr ⟨a, b, c, h, e⟩)
    rw [hw]
    refine ⟨⟨fun h => by simp at h, ?_⟩, .inr rfl⟩
    rintro ⟨a, b, c, h1, h2, _⟩
    exact absurd ⟨a, b, c, h1, h2⟩ hr

/-- **C129** is false for the target shape: whatever malformed text it is, the lists are fetched first (and overwrite those on the disk), and the
program then ends with status 0 without having done anything else. -/
theorem C129_shape_refuted {D : Type} (ws : Char → Bool) (steps : Steps D) (ratioArg shapeArg : List Char) (d d1 : D) (a b c : Int)
    (h1 : pyInts ws '/' ratioArg = some [a, b, c]) (h2 : a + b + c = 100) (hf : steps.fetch [a, b, c] d = (.ok (), d1))
    (hs : pyInts ws 'x' shapeArg = none) : program ws steps ratioArg shapeArg d = (⟨0, false, true⟩, d1) := by
  have hok : ratiosOk [a, b, c] = true := by simp [ratiosOk]; omega
  unfold program
  rw [h1]
  simp only [hok, if_true, hf, main, hs]

theorem convert_fails {F I : Type} (src : Convert.Src F I) (hr : ∀ f, ∃ e, src.resize f = .error e) : ∀ flows (fs : Convert.Packs (F × I × I)),
    Convert.convert src flows fs = fs := by
  intro flows
  induction flows with
  | nil => intro fs; rfl
  | cons t l ih =>
    intro fs
    have h1 : Convert.convertOne src fs t = fs := by
      unfold Convert.convertOne
      dsimp only
      split
      · rename_i i1 i2 _ _
        have : ∀ x, Convert.packTriplet src t.1 t.2 i1 i2 ≠ .ok x := by
          intro x hx
          unfold Convert.packTriplet at hx
          split at hx
          · cases hx
          · rename_i f _
            obtain ⟨e, he⟩ := hr f
            rw [he] at hx
            split at hx
            · cases hx
            · split at hx <;> cases hx
        split
        · rename_i x hx; exact absurd hx (this x)
        · rfl
      · rfl
    show Convert.convert src l (Convert.convertOne src fs t) = fs
    rw [h1, ih]

/-- **C129** is false for target shapes that are numbers but not two positive ones (`256`, `256x256x3`, `0x256`), with which resizing fails: every triplet
fails, nothing is packed, and the program ends with status 0 and without a message about the shape, if there are all four lists. -/
theorem C129_useless_shape_refuted {F I : Type} (ws digit : Char → Bool) (src : Convert.Src F I) (resize : List Int → F → Except Exc F)
    (flows : List (List SplitCopy.Name × SplitCopy.Name)) (listing : Convert.Packs (F × I × I) → List (SplitCopy.Packed (F × I × I)))
    (fetch : List Int → Disk F I → Except Exc Unit × Disk F I) (ratioArg shapeArg : List Char) (d d1 : Disk F I) (a b c : Int) (shape : List Int)
    (h1 : pyInts ws '/' ratioArg = some [a, b, c]) (h2 : a + b + c = 100) (hf : fetch [a, b, c] d = (.ok (), d1))
    (hs : pyInts ws 'x' shapeArg = some shape) (hr : ∀ f, ∃ e, resize shape f = .error e) (sets : List (List SplitCopy.Name))
    (hl : Crash.load d1.lists = .ok sets) :
    ∃ d2, program ws ⟨fetch, rest digit src resize flows listing⟩ ratioArg shapeArg d = (⟨0, false, false⟩, d2) ∧ d2.packs = d1.packs := by
  have hok : ratiosOk [a, b, c] = true := by simp [ratiosOk]; omega
  have hc := convert_fails { src with resize := resize shape } hr flows d1.packs
  refine ⟨(rest digit src resize flows listing shape d1).2, ?_, ?_⟩
  · unfold program
    rw [h1]
    simp only [hok, if_true, hf, main, hs, rest, hl]
  · simp only [rest, hl]
    exact hc

/-- **C129** is false for the message: if one of the four lists is missing (its download having failed, say), the user is told, with any
ratio, that the ratio is in the wrong format. -/
theorem C129_message_refuted {F I : Type} (ws digit : Char → Bool) (src : Convert.Src F I) (resize : List Int → F → Except Exc F)
    (flows : List (List SplitCopy.Name × SplitCopy.Name)) (listing : Convert.Packs (F × I × I) → List (SplitCopy.Packed (F × I × I)))
    (fetch : List Int → Disk F I → Except Exc Unit × Disk F I) (ratioArg shapeArg : List Char) (d d1 : Disk F I) (a b c : Int) (shape : List Int)
    (h1 : pyInts ws '/' ratioArg = some [a, b, c]) (h2 : a + b + c = 100) (hf : fetch [a, b, c] d = (.ok (), d1))
    (hs : pyInts ws 'x' shapeArg = some shape) (s : Crash.Split) (hm : d1.lists s = none) :
    (program ws ⟨fetch, rest digit src resize flows listing⟩ ratioArg shapeArg d).1 = ⟨1, true, false⟩ := by
  have hok : ratiosOk [a, b, c] = true := by simp [ratiosOk]; omega
  have hl : Crash.load d1.lists = .error .fileNotFound := by
    unfold Crash.load
    split
    · cases s <;> simp_all
    · rfl
  unfold program
  rw [h1]
  simp only [hok, if_true, hf, main, hs, rest, hl]

/-- White space of ASCII. -/
def ascii (c : Char) : Bool := c = ' ' || c = '\n' || c = '\t' || c = '\r'

example : pyInts ascii '/' "80/10/10".toList = some [80, 10, 10] ∧ pyInts ascii '/' " 80 / 1_0/+10".toList = some [80, 10, 10] ∧
    pyInts ascii '/' "110/-5/-5".toList = some [110, -5, -5] ∧ pyInts ascii '/' "80/10/".toList = none ∧ pyInts ascii '/' "8 0/10/10".toList = none ∧
    pyInts ascii '/' "1__0/80/10".toList = none ∧ pyInts ascii '/' "80/10/_10".toList = none ∧ pyInts ascii '/' "80/10/10_".toList = none ∧
    pyInts ascii 'x' "256x256".toList = some [256, 256] ∧ pyInts ascii 'x' "256X256".toList = none ∧ pyInts ascii 'x' "256".toList = some [256] := by
  decide +kernel

/-- A run with the state counting what was done: with `256X256` the lists are fetched, nothing else is done, and the status is 0. -/
example : program ascii ⟨fun _ d => (.ok (), d ++ ["fetch"]), fun _ d => (.ok (), d ++ ["rest"])⟩ "80/10/10".toList "256X256".toList ([] : List String) =
    (⟨0, false, true⟩, ["fetch"]) ∧
    program ascii ⟨fun _ d => (.ok (), d ++ ["fetch"]), fun _ d => (.ok (), d ++ ["rest"])⟩ "80/10/10".toList "256x256".toList ([] : List String) =
    (⟨0, false, false⟩, ["fetch", "rest"]) ∧
    program ascii ⟨fun _ d => (.ok (), d ++ ["fetch"]), fun _ d => (.ok (), d ++ ["rest"])⟩ "80/10/20".toList "256x256".toList ([] : List String) =
    (⟨1, true, false⟩, []) := by decide +kernel

/-- One triplet and the shape `256`: nothing is packed, status 0. With `256x256` it is. -/
def demoRun (shape : String) : Report × Option (Nat × Nat × Nat) :=
  let r := program ascii ⟨fun _ d => (.ok (), d), rest (fun c => c.isDigit) ⟨fun _ _ => .ok 7, fun _ _ => some (.ok 1), .ok⟩
      (fun shape f => if shape.length = 2 then .ok f else .error .typeError) [([], "a_flow.flo".toList)] (fun _ => [])⟩
    "80/10/10".toList shape.toList ⟨fun _ => some [], fun _ => none, fun _ => none⟩
  (r.1, r.2.packs ([], "a.mat".toList))

example : demoRun "256" = (⟨0, false, false⟩, none) ∧ demoRun "256x256" = (⟨0, false, false⟩, some (7, 1, 1)) := by decide +kernel

end Verif.Command
