import Verif.Model.ReadFlow
import Verif.Proofs.ArrIx
import Verif.Proofs.Formats
import Mathlib.Tactic.Ring
import Mathlib.Tactic.Linarith
/-!
# Reading of flow files (C100)
-/

namespace Verif.ReadFlow
open Verif

/-- A number below `2^32` in four bytes, the least significant first. -/
def le32 (n : Nat) : List Byte :=
  [⟨n % 256, Nat.mod_lt _ (by decide)⟩, ⟨n / 256 % 256, Nat.mod_lt _ (by decide)⟩, ⟨n / 65536 % 256, Nat.mod_lt _ (by decide)⟩,
    ⟨n / 16777216 % 256, Nat.mod_lt _ (by decide)⟩]

/-- A `.flo` file as its authors define it: the letters PIEH, width, height, then for every row and every pixel of it the two
components as 32-bit words, row after row; `word j i c` are the bytes of component `c` of the pixel in row `j`, column `i`. -/
def floFile (height width : Nat) (word : Nat → Nat → Nat → List Byte) : List Byte :=
  [80, 73, 69, 72] ++ le32 width ++ le32 height ++
    (List.range height).flatMap (fun j => (List.range width).flatMap (fun i => word j i 0 ++ word j i 1))

/-- The array of shape `(height, width, 2)` with the given entries, row-major. -/
def flowOf (height width : Nat) (val : Nat → Nat → Nat → Rat) : Arr Rat :=
  ⟨[height, width, 2], (List.range height).flatMap (fun j => (List.range width).flatMap (fun i => [val j i 0, val j i 1]))⟩

theorem unpack_le32 {n : Nat} (h : n < 2147483648) : unpack (le32 n) = .ok (n : Int) := by
  unfold unpack le32
  simp only []
  have : n % 256 + 256 * (n / 256 % 256) + 65536 * (n / 65536 % 256) + 16777216 * (n / 16777216 % 256) = n := by omega
  rw [this, if_pos h]

theorem words_eq (f32 : List Byte → Rat) : ∀ (ws : List (List Byte)), (∀ w ∈ ws, w.length = 4) → ∀ (rest : List Byte),
    words f32 ws.length (ws.flatten ++ rest) = ws.map f32 := by
  intro ws
  induction ws with
  | nil => intro _ rest; simp [words]
  | cons w ws ih =>
    intro h rest
    have hw := h w List.mem_cons_self
    match w, hw with
    | [a, b, c, d], _ =>
      simp only [List.length_cons, List.flatten_cons, List.cons_append, List.nil_append, words, List.map_cons]
      rw [ih (fun w hw => h w (List.mem_cons_of_mem _ hw)) rest]

theorem words_length_le (f32 : List Byte → Rat) : ∀ (n : Nat) (l : List Byte), (words f32 n l).length ≤ n ∧ 4 * (words f32 n l).length ≤ l.length := by
  intro n
  induction n with
  | zero => intro l; simp [words]
  | succ n ih =>
    intro l
    match l with
    | [] => simp [words]
    | [_] => simp [words]
    | [_, _] => simp [words]
    | [_, _, _] => simp [words]
    | a :: b :: c :: d :: l =>
      have := ih l
      simp only [words, List.length_cons]
      omega

theorem words_full (f32 : List Byte → Rat) : ∀ (n : Nat) (l : List Byte), 4 * n ≤ l.length → (words f32 n l).length = n := by
  intro n
  induction n with
  | zero => intro l _; simp [words]
  | succ n ih =>
    intro l hl
    match l with
    | [] => simp at hl
    | [_] => simp at hl; omega
    | [_, _] => simp at hl; omega
    | [_, _, _] => simp at hl; omega
    | a :: b :: c :: d :: l =>
      simp only [words, List.length_cons]
      rw [ih l (by simp at hl; omega)]

theorem readFlo_count (f32 : List Byte → Rat) (height width : Nat) (l : List Byte) :
    (if 2 * (width : Int) * (height : Int) < 0 then words f32 (l.length / 4) l
      else words f32 (2 * (width : Int) * (height : Int)).toNat l) = words f32 (2 * width * height) l := by
  have e : 2 * (width : Int) * (height : Int) = ((2 * width * height : Nat) : Int) := by push_cast; rfl
  rw [e, if_neg (by omega), Int.toNat_natCast]

theorem reshape_nat (data : List Rat) (height width : Nat) : reshape data height width =
    if data.length = height * width * 2 then .ok ⟨[height, width, 2], data⟩ else .error .valueError := by
  unfold reshape
  rw [if_neg (by omega), if_neg (by omega), if_neg (by omega), Int.toNat_natCast, Int.toNat_natCast]

/-- The words of a file, one after the other. -/
def fileWords (height width : Nat) (word : Nat → Nat → Nat → List Byte) : List (List Byte) :=
  (List.range height).flatMap (fun j => (List.range width).flatMap (fun i => [word j i 0, word j i 1]))

theorem fileWords_length (height width : Nat) (word : Nat → Nat → Nat → List Byte) : (fileWords height width word).length = height * width * 2 := by
  unfold fileWords
  simp [List.length_flatMap]
  ring

theorem fileWords_flatten (height width : Nat) (word : Nat → Nat → Nat → List Byte) :
    (fileWords height width word).flatten =
      (List.range height).flatMap (fun j => (List.range width).flatMap (fun i => word j i 0 ++ word j i 1)) := by
  unfold fileWords
  simp [List.flatMap, List.flatten_flatten, List.map_flatten, Function.comp_def]

/-- **C100 (.flo).** Every file in the Middlebury format is read as the flow it was written from, whatever follows in the file. -/
theorem C100_flo_round_trip (f32 : List Byte → Rat) (height width : Nat) (hh : height < 2 ^ 31) (hw : width < 2 ^ 31)
    (word : Nat → Nat → Nat → List Byte) (hword : ∀ j i c, (word j i c).length = 4) (trailing : List Byte) :
    readFlo f32 (floFile height width word ++ trailing) = .ok (flowOf height width (fun j i c => f32 (word j i c))) := by
  have e0 : floFile height width word ++ trailing = [80, 73, 69, 72] ++ (le32 width ++ (le32 height ++ ((fileWords height width word).flatten ++ trailing))) := by
    rw [fileWords_flatten]; simp [floFile, List.append_assoc]
  have d4 : (floFile height width word ++ trailing).drop 4 = le32 width ++ (le32 height ++ ((fileWords height width word).flatten ++ trailing)) := by
    rw [e0]; rfl
  have d8 : (floFile height width word ++ trailing).drop 8 = le32 height ++ ((fileWords height width word).flatten ++ trailing) := by
    rw [e0]; rfl
  have d12 : (floFile height width word ++ trailing).drop 12 = (fileWords height width word).flatten ++ trailing := by
    rw [e0]; rfl
  have t4 : (floFile height width word ++ trailing).take 4 = magic := by rw [e0]; rfl
  have u1 : unpack ((le32 width ++ (le32 height ++ ((fileWords height width word).flatten ++ trailing))).take 4) = .ok (width : Int) :=
    unpack_le32 (by omega)
  have u2 : unpack ((le32 height ++ ((fileWords height width word).flatten ++ trailing)).take 4) = .ok (height : Int) :=
    unpack_le32 (by omega)
  unfold readFlo
  rw [t4, if_neg (by simp), d4, u1]
  simp only []
  rw [d8, u2]
  simp only []
  rw [readFlo_count, d12, show 2 * width * height = (fileWords height width word).length by rw [fileWords_length]; ring,
    words_eq f32 _ (by
      intro w hm
      unfold fileWords at hm
      simp only [List.mem_flatMap, List.mem_range, List.mem_cons, List.not_mem_nil, or_false] at hm
      obtain ⟨j, _, i, _, rfl | rfl⟩ := hm <;> exact hword _ _ _) trailing, reshape_nat, if_pos (by rw [List.length_map, fileWords_length])]
  unfold flowOf fileWords
  simp [List.map_flatMap]

/-- **C100 (.flo), damaged files.** A truncated file is never read as a flow. -/
theorem C100_flo_truncated (f32 : List Byte → Rat) (height width : Nat) (hh : height < 2 ^ 31) (hw : width < 2 ^ 31)
    (word : Nat → Nat → Nat → List Byte) (hword : ∀ j i c, (word j i c).length = 4) (n : Nat) (hn : n < (floFile height width word).length) :
    ∃ e, readFlo f32 ((floFile height width word).take n) = .error e := by
  have e0 : floFile height width word = [80, 73, 69, 72] ++ (le32 width ++ (le32 height ++ (fileWords height width word).flatten)) := by
    rw [fileWords_flatten]; simp [floFile, List.append_assoc]
  have hl : (floFile height width word).length = 12 + 4 * (height * width * 2) := by
    rw [e0]
    simp only [List.length_append, List.length_flatten]
    have : (List.map List.length (fileWords height width word)).sum = 4 * (height * width * 2) := by
      rw [← fileWords_length height width word]
      have hall : ∀ w ∈ fileWords height width word, w.length = 4 := by
        intro w hm
        unfold fileWords at hm
        simp only [List.mem_flatMap, List.mem_range, List.mem_cons, List.not_mem_nil, or_false] at hm
        obtain ⟨j, _, i, _, rfl | rfl⟩ := hm <;> exact hword _ _ _
      generalize fileWords height width word = l at hall
      induction l with
      | nil => rfl
      | cons w l ih =>
        simp only [List.map_cons, List.sum_cons, List.length_cons]
        rw [hall w List.mem_cons_self, ih (fun w hw => hall w (List.mem_cons_of_mem _ hw))]
        ring
    rw [this]
    simp [le32]
    omega
  unfold readFlo
  by_cases h4 : n < 4
  · rw [if_pos]
    · exact ⟨_, rfl⟩
    · intro hc
      have := congrArg List.length hc
      simp [magic] at this
      omega
  by_cases h8 : n < 8
  · have hu : ∃ e, unpack ((((floFile height width word).take n).drop 4).take 4) = .error e := by
      have hlen : ((((floFile height width word).take n).drop 4).take 4).length < 4 := by simp; omega
      generalize (((floFile height width word).take n).drop 4).take 4 = l at hlen
      match l with
      | [] => exact ⟨_, rfl⟩
      | [_] => exact ⟨_, rfl⟩
      | [_, _] => exact ⟨_, rfl⟩
      | [_, _, _] => exact ⟨_, rfl⟩
      | _ :: _ :: _ :: _ :: _ => simp at hlen; omega
    obtain ⟨e, hu⟩ := hu
    rw [hu]
    split
    · exact ⟨_, rfl⟩
    · exact ⟨_, rfl⟩
  by_cases h12 : n < 12
  · have hu : ∃ e, unpack ((((floFile height width word).take n).drop 8).take 4) = .error e := by
      have hlen : ((((floFile height width word).take n).drop 8).take 4).length < 4 := by simp; omega
      generalize (((floFile height width word).take n).drop 8).take 4 = l at hlen
      match l with
      | [] => exact ⟨_, rfl⟩
      | [_] => exact ⟨_, rfl⟩
      | [_, _] => exact ⟨_, rfl⟩
      | [_, _, _] => exact ⟨_, rfl⟩
      | _ :: _ :: _ :: _ :: _ => simp at hlen; omega
    obtain ⟨e, hu⟩ := hu
    rw [hu]
    split
    · exact ⟨_, rfl⟩
    · split <;> exact ⟨_, rfl⟩
  · have e1 : (floFile height width word).take n =
        [80, 73, 69, 72] ++ (le32 width ++ (le32 height ++ (fileWords height width word).flatten.take (n - 12))) := by
      obtain ⟨m, rfl⟩ : ∃ m, n = m + 12 := ⟨n - 12, by omega⟩
      rw [e0]
      rfl
    have t4 : ((floFile height width word).take n).take 4 = magic := by rw [e1]; rfl
    have u1 : unpack ((((floFile height width word).take n).drop 4).take 4) = .ok (width : Int) := by
      rw [e1]; exact unpack_le32 (n := width) (by omega)
    have u2 : unpack ((((floFile height width word).take n).drop 8).take 4) = .ok (height : Int) := by
      rw [e1]; exact unpack_le32 (n := height) (by omega)
    rw [t4, if_neg (by simp), u1]
    simp only []
    rw [u2]
    simp only []
    rw [readFlo_count, reshape_nat, if_neg]
    · exact ⟨_, rfl⟩
    · intro hc
      have := (words_length_le f32 (2 * width * height) (((floFile height width word).take n).drop 12)).2
      rw [hc] at this
      simp only [List.length_drop, List.length_take] at this
      omega

/-- The words of a list that holds them. -/
theorem words_split (f32 : List Byte → Rat) : ∀ (n : Nat) (l : List Byte), (words f32 n l).length = n →
    ∃ (ws : List (List Byte)) (rest : List Byte), ws.length = n ∧ (∀ w ∈ ws, w.length = 4) ∧ l = ws.flatten ++ rest := by
  intro n
  induction n with
  | zero => intro l _; exact ⟨[], l, rfl, by simp, by simp⟩
  | succ n ih =>
    intro l hl
    match l with
    | [] => simp [words] at hl
    | [_] => simp [words] at hl
    | [_, _] => simp [words] at hl
    | [_, _, _] => simp [words] at hl
    | a :: b :: c :: d :: l =>
      simp only [words, List.length_cons, Nat.add_right_cancel_iff] at hl
      obtain ⟨ws, rest, h1, h2, h3⟩ := ih l hl
      refine ⟨[a, b, c, d] :: ws, rest, by simp [h1], ?_, by simp [h3]⟩
      intro w hw
      rcases List.mem_cons.1 hw with rfl | hw
      · rfl
      · exact h2 w hw

/-- A list is its pieces of equal length, one after the other. -/
theorem pieces {α : Type} (k : Nat) : ∀ (n : Nat) (l : List α), l.length = n * k →
    (List.range n).flatMap (fun j => (l.drop (j * k)).take k) = l := by
  intro n
  induction n with
  | zero => intro l hl; simp at hl; simp [hl]
  | succ n ih =>
    intro l hl
    rw [List.range_succ, List.flatMap_append]
    have hlen : (l.take (n * k)).length = n * k := by rw [List.length_take, hl]; rw [Nat.add_mul]; omega
    have h1 : (List.range n).flatMap (fun j => (l.drop (j * k)).take k) = l.take (n * k) := by
      rw [← ih (l.take (n * k)) hlen]
      apply List.flatMap_congr
      intro j hj
      have hj := List.mem_range.1 hj
      have hle : (j + 1) * k ≤ n * k := Nat.mul_le_mul_right k hj
      rw [Nat.add_mul] at hle
      rw [List.drop_take, List.take_take, Nat.min_eq_left (by omega)]
    rw [h1]
    have h2 : (l.drop (n * k)).take k = l.drop (n * k) := List.take_of_length_le (by rw [List.length_drop, hl, Nat.add_mul]; omega)
    simp [h2, List.take_append_drop]

/-- Every list of words is the words of some flow. -/
theorem fileWords_of (height width : Nat) (ws : List (List Byte)) (hl : ws.length = height * (width * 2)) (h4 : ∀ w ∈ ws, w.length = 4) :
    ∃ word : Nat → Nat → Nat → List Byte, (∀ j i c, (word j i c).length = 4) ∧ fileWords height width word = ws := by
  let word : Nat → Nat → Nat → List Byte := fun j i c => ws.getD (j * (width * 2) + i * 2 + c) [0, 0, 0, 0]
  refine ⟨word, ?_, ?_⟩
  · intro j i c
    simp only [word, List.getD_eq_getElem?_getD]
    cases h : ws[j * (width * 2) + i * 2 + c]? with
    | none => rfl
    | some w => exact h4 w (List.mem_of_getElem? h)
  · conv => rhs; rw [← pieces (width * 2) height ws hl]
    unfold fileWords
    apply List.flatMap_congr
    intro j hj
    have hj := List.mem_range.1 hj
    have hle : (j + 1) * (width * 2) ≤ height * (width * 2) := Nat.mul_le_mul_right _ hj
    rw [Nat.add_mul] at hle
    have hrow : ((ws.drop (j * (width * 2))).take (width * 2)).length = width * 2 := by
      rw [List.length_take, List.length_drop, hl]; omega
    conv => rhs; rw [← pieces 2 width _ hrow]
    apply List.flatMap_congr
    intro i hi
    have hi := List.mem_range.1 hi
    apply List.ext_getElem?
    intro c
    have hin : j * (width * 2) + i * 2 + 1 < ws.length := by rw [hl]; omega
    rcases c with _ | _ | c
    · simp only [List.getElem?_cons_zero, List.getElem?_take, List.getElem?_drop, word]
      rw [if_pos (by omega), if_pos (by omega), List.getD_eq_getElem?_getD, List.getElem?_eq_getElem (by omega)]
      simp [Nat.add_assoc]
    · simp only [List.getElem?_cons_succ, List.getElem?_cons_zero, List.getElem?_take, List.getElem?_drop, word]
      rw [if_pos (by omega), if_pos (by omega), List.getD_eq_getElem?_getD, List.getElem?_eq_getElem (by omega)]
      simp [Nat.add_assoc]
    · simp only [List.getElem?_cons_succ, List.getElem?_nil, List.getElem?_take]
      rw [if_neg (by omega)]

/-- Four bytes are a number, which is negative iff the last one is at least 128. -/
theorem unpack_ok {l : List Byte} {n : Int} (h : unpack l = .ok n) :
    (∃ a b c d : Byte, l = [a, b, c, d] ∧ (0 ≤ n ↔ d.val < 128)) ∧ (0 ≤ n → n.toNat < 2 ^ 31 ∧ l = le32 n.toNat) := by
  match l, h with
  | [a, b, c, d], h =>
    have ha := a.isLt
    have hb := b.isLt
    have hc := c.isLt
    have hd := d.isLt
    simp only [unpack, Except.ok.injEq] at h
    refine ⟨⟨a, b, c, d, rfl, ?_⟩, ?_⟩
    · split at h <;> omega
    · intro hn
      split at h
      · have e : n.toNat = a.val + 256 * b.val + 65536 * c.val + 16777216 * d.val := by omega
        refine ⟨by omega, ?_⟩
        unfold le32
        simp only [List.cons.injEq, Fin.ext_iff, and_true]
        rw [e]
        omega
      · omega

/-- **C100 (.flo), what is accepted.** If the sides in the header are not negative (their last bytes are below 128), whatever is read was a file in the
Middlebury format, the result being the flow it was written from. -/
theorem C100_flo_accepts (f32 : List Byte → Rat) (bytes : List Byte) (a : Arr Rat) (h : readFlo f32 bytes = .ok a)
    (hw : ∀ b, bytes[7]? = some b → b.val < 128) (hh : ∀ b, bytes[11]? = some b → b.val < 128) :
    ∃ height width word trailing, height < 2 ^ 31 ∧ width < 2 ^ 31 ∧ (∀ j i c, (word j i c).length = 4) ∧
      bytes = floFile height width word ++ trailing ∧ a = flowOf height width (fun j i c => f32 (word j i c)) := by
  have hcopy := h
  unfold readFlo at h
  split at h
  · cases h
  rename_i hm
  have hm : bytes.take 4 = magic := by simpa using hm
  split at h
  · cases h
  rename_i width hwid
  split at h
  · cases h
  rename_i height hhei
  obtain ⟨⟨w0, w1, w2, w3, ew, hwn⟩, hw31⟩ := unpack_ok hwid
  obtain ⟨⟨h0, h1, h2, h3, eh, hhn⟩, hh31⟩ := unpack_ok hhei
  have e1 : bytes = magic ++ ([w0, w1, w2, w3] ++ ([h0, h1, h2, h3] ++ bytes.drop 12)) := by
    conv => lhs; rw [← List.take_append_drop 4 bytes, hm, ← List.take_append_drop 4 (bytes.drop 4), ew, List.drop_drop,
      ← List.take_append_drop 4 (bytes.drop (4 + 4)), eh, List.drop_drop]
  have n1 : 0 ≤ width := hwn.2 (hw w3 (by rw [e1]; rfl))
  have n2 : 0 ≤ height := hhn.2 (hh h3 (by rw [e1]; rfl))
  obtain ⟨w, rfl⟩ := Int.eq_ofNat_of_zero_le n1
  obtain ⟨k, rfl⟩ := Int.eq_ofNat_of_zero_le n2
  obtain ⟨w31, ew'⟩ := hw31 n1
  obtain ⟨h31, eh'⟩ := hh31 n2
  rw [ew, Int.toNat_natCast] at ew'
  rw [eh, Int.toNat_natCast] at eh'
  rw [Int.toNat_natCast] at w31 h31
  simp only [] at h
  rw [readFlo_count, reshape_nat] at h
  split at h
  swap
  · cases h
  rename_i hlen
  have hlen' : (words f32 (2 * w * k) (bytes.drop 12)).length = 2 * w * k := by rw [hlen]; ring
  obtain ⟨ws, rest, l1, l2, l3⟩ := words_split f32 _ _ hlen'
  obtain ⟨word, hw4, hfw⟩ := fileWords_of k w ws (by rw [l1]; ring) l2
  have hb : bytes = floFile k w word ++ rest := by
    rw [e1, l3, ew', eh', ← hfw, fileWords_flatten]
    simp [floFile, magic, List.append_assoc]
  refine ⟨k, w, word, rest, h31, w31, hw4, hb, ?_⟩
  rw [hb, C100_flo_round_trip f32 k w h31 w31 word hw4 rest] at hcopy
  exact (Except.ok.inj hcopy).symm

/-- A header with a negative side is not rejected: the side is inferred from the length of the file, here 2. -/
theorem C100_flo_refuted : readFlo (fun w => (w.getD 0 0).val)
    ([80, 73, 69, 72] ++ [255, 255, 255, 255] ++ le32 1 ++ [1, 0, 0, 0, 2, 0, 0, 0, 3, 0, 0, 0, 4, 0, 0, 0]) = .ok ⟨[1, 2, 2], [1, 2, 3, 4]⟩ := by
  decide +kernel

example : readFlo (fun w => (w.getD 0 0).val) (floFile 1 2 (fun j i c => [⟨(10 * j + 3 * i + c) % 256, Nat.mod_lt _ (by decide)⟩, 0, 0, 0]) ++ [9]) =
    .ok ⟨[1, 2, 2], [0, 1, 3, 4]⟩ := by decide +kernel

/-! ## `.mat` files -/

/-- The variable `k` of the file is no flow: it is missing, or its shape is neither `(h, w, 2)` nor `(2, h, w)`. -/
def NoFlow (mat : List (String × Arr Rat)) (k : String) : Prop :=
  ∀ a, mat.lookup k = some a → ¬ ∃ h w, a.shape = [h, w, 2] ∨ a.shape = [2, h, w]

theorem readVars_skip {mat : List (String × Arr Rat)} : ∀ {ks : List String}, (∀ k ∈ ks, NoFlow mat k) → ∀ (rest : List String),
    readVars mat (ks ++ rest) = readVars mat rest := by
  intro ks
  induction ks with
  | nil => intro _ rest; rfl
  | cons k ks ih =>
    intro h rest
    rw [List.cons_append, readVars]
    have hk := h k List.mem_cons_self
    have ih := ih (fun k hk => h k (List.mem_cons_of_mem _ hk)) rest
    cases hl : mat.lookup k with
    | none => exact ih
    | some a =>
      have hno := hk a hl
      simp only []
      have three : a.shape.length = 3 → ∃ x y z, a.shape = [x, y, z] := by
        intro h3
        match hs : a.shape, h3 with
        | [x, y, z], _ => exact ⟨x, y, z, rfl⟩
      rw [if_neg, if_neg]
      · exact ih
      · rintro ⟨h3, h2⟩
        obtain ⟨x, y, z, hs⟩ := three h3
        rw [hs] at h2
        simp only [List.getElem?_cons_zero, Option.some.injEq] at h2
        exact hno ⟨y, z, .inr (by rw [hs, h2])⟩
      · rintro ⟨h3, h2⟩
        obtain ⟨x, y, z, hs⟩ := three h3
        rw [hs] at h2
        simp only [List.getElem?_cons_succ, List.getElem?_cons_zero, Option.some.injEq] at h2
        exact hno ⟨x, y, .inl (by rw [hs, h2])⟩

/-- **C100 (.mat)** (partial). Of the variables V, flow, u, uv and F the first one that is a flow is taken: as it is if the components are the last
axis, with the axes put in order if they are the first; a file without any is rejected. Missing: flows with the components first that are two
pixels wide (`C100_refuted`). -/
theorem C100_mat_partial (mat : List (String × Arr Rat)) (before after : List String) (k : String)
    (hk : before ++ k :: after = ["V", "flow", "u", "uv", "F"]) (hno : ∀ k' ∈ before, NoFlow mat k') (a : Arr Rat) (ha : mat.lookup k = some a) (hw : a.WF) :
    (∀ h w, a.shape = [h, w, 2] → readMat mat = .ok a) ∧
    (∀ h w, a.shape = [2, h, w] → w ≠ 2 → ∃ t, readMat mat = .ok t ∧ t.shape = [h, w, 2] ∧
      ∀ y x c, y < h → x < w → c < 2 → t.at? [y, x, c] = a.at? [c, y, x]) ∧
    ((∀ k' ∈ k :: after, NoFlow mat k') → readMat mat = .error .valueError) := by
  have e : readMat mat = readVars mat (k :: after) := by
    unfold readMat
    rw [← hk, readVars_skip hno]
  refine ⟨?_, ?_, ?_⟩
  · intro h w hs
    rw [e, readVars, ha]
    simp [hs]
  · intro h w hs h2
    obtain ⟨t, ht, hts, _, hta⟩ := Formats.transpose120_spec hs hw
    refine ⟨t, ?_, hts, fun y x c hy hx hc => hta c y x hc hy hx⟩
    rw [e, readVars, ha]
    simp [hs, h2, ht]
  · intro hall
    rw [e]
    have := readVars_skip hall []
    rw [List.append_nil] at this
    rw [this]
    rfl

/-- **C100 is false** for the components first and two columns: the flow of one row with `u = 1, 2` and `v = 3, 4` is read as two rows of
one pixel. -/
theorem C100_refuted : readMat [("V", ⟨[2, 1, 2], [1, 2, 3, 4]⟩)] = .ok ⟨[2, 1, 2], [1, 2, 3, 4]⟩ ∧
    (⟨[2, 1, 2], [1, 2, 3, 4]⟩ : Arr Rat) ≠ flowOf 1 2 (fun _ i c => 1 + i + 2 * c) := by
  constructor
  · decide +kernel
  · decide +kernel

example : readMat [("x", ⟨[1], [5]⟩), ("F", ⟨[2, 1, 3], [1, 2, 3, 4, 5, 6]⟩), ("u", ⟨[2], [0, 0]⟩)] = .ok (flowOf 1 3 (fun _ i c => 1 + i + 3 * c)) ∧
    NoFlow [("x", ⟨[1], [5]⟩), ("F", ⟨[2, 1, 3], [1, 2, 3, 4, 5, 6]⟩), ("u", ⟨[2], [0, 0]⟩)] "u" := by
  refine ⟨by decide +kernel, ?_⟩
  intro a ha
  have : a = ⟨[2], [0, 0]⟩ := by
    have e : List.lookup "u" [("x", (⟨[1], [5]⟩ : Arr Rat)), ("F", ⟨[2, 1, 3], [1, 2, 3, 4, 5, 6]⟩), ("u", ⟨[2], [0, 0]⟩)] = some ⟨[2], [0, 0]⟩ := by decide +kernel
    rw [e] at ha
    exact (Option.some.inj ha).symm
  subst this
  rintro ⟨h, w, hc | hc⟩ <;> simp at hc

end Verif.ReadFlow
