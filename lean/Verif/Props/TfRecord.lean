import Verif.Model.TfRecord
import Verif.Props.ReadFlow
import Verif.Proofs.Formats
/-!
# C106: the samples made from the examples of a TFRecord
-/

namespace Verif.TfRecord
open Verif ReadFlow

/-- The bytes of an array of shape `(side, side, 2)`, row-major, `word y x c` being the four bytes of its entries. -/
def bytes (side : Nat) (word : Nat → Nat → Nat → List Byte) : List Byte :=
  (List.range side).flatMap (fun y => (List.range side).flatMap (fun x => word y x 0 ++ word y x 1))

theorem flowOf_wf (h w : Nat) (val : Nat → Nat → Nat → Rat) : (flowOf h w val).WF := by
  unfold flowOf Arr.WF Arr.size
  simp [List.length_flatMap]

theorem flowOf_at (h w : Nat) (val : Nat → Nat → Nat → Rat) (y x c : Nat) (hy : y < h) (hx : x < w) (hc : c < 2) :
    (flowOf h w val).at? [y, x, c] = some (val y x c) := by
  have he : flowOf h w val = Arr.build [h, w, 2] (fun idx => match idx with | [y, x, c] => val y x c | _ => 0) := by
    unfold flowOf Arr.build Arr.buildData Arr.buildData Arr.buildData Arr.buildData
    simp only [List.range_succ, List.range_zero, List.nil_append, List.flatMap_cons, List.flatMap_nil, List.append_nil, List.cons_append]
  rw [he, Arr.at_build _ _ _ (Arr.offset3 hy hx hc)]

theorem bytes_eq (side : Nat) (word : Nat → Nat → Nat → List Byte) : bytes side word = (fileWords side side word).flatten :=
  (fileWords_flatten side side word).symm

theorem fileWords_four (side : Nat) (word : Nat → Nat → Nat → List Byte) (hword : ∀ y x c, (word y x c).length = 4) :
    ∀ w ∈ fileWords side side word, w.length = 4 := by
  intro w hm
  unfold fileWords at hm
  simp only [List.mem_flatMap, List.mem_range, List.mem_cons, List.not_mem_nil, or_false] at hm
  obtain ⟨j, _, i, _, rfl | rfl⟩ := hm <;> exact hword _ _ _

theorem bytes_length (side : Nat) (word : Nat → Nat → Nat → List Byte) (hword : ∀ y x c, (word y x c).length = 4) :
    (bytes side word).length = 4 * (side * side * 2) := by
  rw [bytes_eq, List.length_flatten, ← fileWords_length side side word]
  have hall := fileWords_four side word hword
  generalize fileWords side side word = l at hall
  induction l with
  | nil => rfl
  | cons a l ih =>
    rw [List.map_cons, List.sum_cons, ih (fun w hw => hall w (by simp [hw])), hall a (by simp), List.length_cons]
    ring

theorem decode_bytes (f32 : List Byte → Rat) (side : Nat) (word : Nat → Nat → Nat → List Byte) (hword : ∀ y x c, (word y x c).length = 4) :
    decode f32 side (bytes side word) = some (flowOf side side (fun y x c => f32 (word y x c))) := by
  have hl := bytes_length side word hword
  have hw : words f32 (side * side * 2) (bytes side word) = (fileWords side side word).map f32 := by
    have := words_eq f32 (fileWords side side word) (fileWords_four side word hword) []
    rwa [List.append_nil, fileWords_length, ← bytes_eq] at this
  unfold decode frombuffer
  rw [if_pos (by omega), hl, Nat.mul_div_cancel_left _ (by omega), hw]
  dsimp only
  rw [if_neg (by rw [List.length_map, fileWords_length]; exact fun h => h rfl)]
  unfold flowOf fileWords
  simp [List.map_flatMap]

/-- A feature is decoded exactly if it has the right number of bytes. -/
theorem decode_none_iff (f32 : List Byte → Rat) (side : Nat) (b : List Byte) : decode f32 side b = none ↔ b.length ≠ 4 * (side * side * 2) := by
  unfold decode frombuffer
  by_cases h4 : b.length % 4 = 0
  · rw [if_pos h4]
    dsimp only
    have hl : (words f32 (b.length / 4) b).length = b.length / 4 := words_full f32 _ _ (by omega)
    rw [hl]
    by_cases h : b.length / 4 ≠ side * side * 2
    · rw [if_pos h]
      exact ⟨fun _ => by omega, fun _ => rfl⟩
    · rw [if_neg h]
      constructor
      · intro h; cases h
      · intro h; omega
  · rw [if_neg h4]
    exact ⟨fun _ => by omega, fun _ => rfl⟩

/-- **C106.** An example holding an image pair and a flow of the right size, interleaved pixel by pixel, is packed as they are: the flow as `V`, the
first channel of the images as `I0`, the second as `I1`. -/
theorem C106_sample (f32 : List Byte → Rat) (side : Nat) (hside : 0 < side) (image flow : Nat → Nat → Nat → List Byte)
    (hi : ∀ y x c, (image y x c).length = 4) (hf : ∀ y x c, (flow y x c).length = 4) :
    ∃ v i0 i1 : Arr Rat, record f32 side (some ⟨bytes side image, bytes side flow⟩) = .file [("V", v), ("I0", i0), ("I1", i1)] ∧
      v.shape = [side, side, 2] ∧ i0.shape = [side, side] ∧ i1.shape = [side, side] ∧ v.WF ∧ i0.WF ∧ i1.WF ∧
      ∀ y x, y < side → x < side → v.at? [y, x, 0] = some (f32 (flow y x 0)) ∧ v.at? [y, x, 1] = some (f32 (flow y x 1)) ∧
        i0.at? [y, x] = some (f32 (image y x 0)) ∧ i1.at? [y, x] = some (f32 (image y x 1)) := by
  have hne : ∀ word : Nat → Nat → Nat → List Byte, (∀ y x c, (word y x c).length = 4) → bytes side word ≠ [] := by
    intro word hword h
    have := bytes_length side word hword
    rw [h] at this
    have hp : 0 < side * side * 2 := by positivity
    simp only [List.length_nil] at this
    omega
  have w := flowOf_wf side side (fun y x c => f32 (image y x c))
  obtain ⟨s0, w0, a0⟩ := Formats.channel_spec (c := 0) (rfl : (flowOf side side (fun y x c => f32 (image y x c))).shape = [side, side, 2]) w (by omega)
  obtain ⟨s1, w1, a1⟩ := Formats.channel_spec (c := 1) (rfl : (flowOf side side (fun y x c => f32 (image y x c))).shape = [side, side, 2]) w (by omega)
  refine ⟨_, _, _, ?_, rfl, s0, s1, flowOf_wf side side (fun y x c => f32 (flow y x c)), w0, w1, ?_⟩
  · unfold record
    dsimp only
    rw [if_neg (by rintro (h | h); exacts [hne _ hi h, hne _ hf h]), decode_bytes f32 side image hi]
    dsimp only
    rw [decode_bytes f32 side flow hf]
  · intro y x hy hx
    refine ⟨flowOf_at _ _ _ y x 0 hy hx (by omega), flowOf_at _ _ _ y x 1 hy hx (by omega), ?_, ?_⟩
    · rw [a0 y x hy hx, flowOf_at _ _ _ y x 0 hy hx (by omega)]
    · rw [a1 y x hy hx, flowOf_at _ _ _ y x 1 hy hx (by omega)]

/-- **C106**, all other examples: no file is made, and no number used up (**C78**), exactly if the example cannot be parsed or one of its two features has not
the right number of bytes. -/
theorem C106_skipped (f32 : List Byte → Rat) (side : Nat) (hside : 0 < side) (e : Option Example) :
    record f32 side e = .skip ↔
      ∀ x, e = some x → x.target.length ≠ 4 * (side * side * 2) ∨ x.flow.length ≠ 4 * (side * side * 2) := by
  have hp : 0 < side * side * 2 := by positivity
  cases e with
  | none => exact ⟨fun _ x h => (by cases h), fun _ => rfl⟩
  | some x =>
    unfold record
    dsimp only
    by_cases hemp : x.target = [] ∨ x.flow = []
    · rw [if_pos hemp]
      refine ⟨fun _ y h => ?_, fun _ => rfl⟩
      cases h
      rcases hemp with h | h
      · left; rw [h, List.length_nil]; omega
      · right; rw [h, List.length_nil]; omega
    · rw [if_neg hemp]
      cases ht : decode f32 side x.target with
      | none =>
        refine ⟨fun _ y h => ?_, fun _ => rfl⟩
        cases h
        exact .inl ((decode_none_iff f32 side _).1 ht)
      | some t =>
        dsimp only
        have ht' : ¬ x.target.length ≠ 4 * (side * side * 2) := fun h => by rw [(decode_none_iff f32 side _).2 h] at ht; cases ht
        cases hf : decode f32 side x.flow with
        | none =>
          refine ⟨fun _ y h => ?_, fun _ => rfl⟩
          cases h
          exact .inr ((decode_none_iff f32 side _).1 hf)
        | some f =>
          have hf' : ¬ x.flow.length ≠ 4 * (side * side * 2) := fun h => by rw [(decode_none_iff f32 side _).2 h] at hf; cases hf
          refine ⟨fun h => (by cases h), fun h => ?_⟩
          rcases h x rfl with h | h
          exacts [absurd h ht', absurd h hf']

/-- **C106**, to the end: the MAT scheduler with images and the same size delivers the packed sample unchanged. The file is HDF5, which SciPy refuses with
`NotImplementedError`; the datasets are found in whatever order. -/
theorem C106_loaded (io : Formats.MatIO) (side : Nat) (p : String) (v i0 i1 : Arr Rat) (data : List (String × Arr Rat))
    (hs : v.shape = [side, side, 2]) (h0 : i0.shape = [side, side]) (h1 : i1.shape = [side, side])
    (hsc : io.scipy p = .error .notImplemented) (hh : io.isHdf5 p = true) (hd : io.hdf5 p = .ok data)
    (hv : data.lookup "V" = some v) (hi0 : data.lookup "I0" = some i0) (hi1 : data.lookup "I1" = some i1) :
    Formats.matLoad io ⟨true, side, side⟩ p = .ok ⟨v, some i0, some i1, some [p]⟩ := by
  have hr : Formats.matRead io p = .ok data := by
    unfold Formats.matRead
    rw [hsc]
    simp [hh, hd]
  unfold Formats.matLoad
  rw [hr]
  simp [hv, hi0, hi1, Formats.matImage, h0, h1, Formats.matFlow, hs, Formats.matFit]

/-- The hypotheses are met by `1 × 1` examples; the value of a word is taken to be its first byte here. -/
def firstByte (w : List Byte) : Rat := (w.headD 0).val

example : bytes 1 (fun _ _ c => [Fin.ofNat 256 (c + 7), 0, 0, 0]) = [7, 0, 0, 0, 8, 0, 0, 0] ∧
    record firstByte 1 (some ⟨[1, 0, 0, 0, 2, 0, 0, 0], [7, 0, 0, 0, 8, 0, 0, 0]⟩) =
      .file [("V", ⟨[1, 1, 2], [7, 8]⟩), ("I0", ⟨[1, 1], [1]⟩), ("I1", ⟨[1, 1], [2]⟩)] ∧
    record firstByte 1 (some ⟨[1, 0, 0, 0, 2, 0, 0], [7, 0, 0, 0, 8, 0, 0, 0]⟩) = .skip := by decide +kernel

example : ∃ io : Formats.MatIO, io.scipy "s" = .error .notImplemented ∧ io.isHdf5 "s" = true ∧
    Formats.matLoad io ⟨true, 1, 1⟩ "s" = .ok ⟨⟨[1, 1, 2], [7, 8]⟩, some ⟨[1, 1], [1]⟩, some ⟨[1, 1], [2]⟩, some ["s"]⟩ :=
  ⟨⟨fun _ => .error .notImplemented, fun _ => true, fun _ => .ok [("I0", ⟨[1, 1], [1]⟩), ("I1", ⟨[1, 1], [2]⟩), ("V", ⟨[1, 1, 2], [7, 8]⟩)],
    fun a _ _ => .ok a, fun a _ _ => .ok a⟩, rfl, rfl, by decide +kernel⟩

end Verif.TfRecord
