import Verif.Spec.Make
import Verif.Proofs.Types
/-!
# Auxiliary facts about `make`
-/

namespace Verif.Make
open Verif Spec

theorem andThen_ok {α β : Type} {a : Except Exc α} {f : α → Except Exc β} {y : β} :
    andThen a f = .ok y ↔ ∃ x, a = .ok x ∧ f x = .ok y := by
  unfold andThen
  split <;> simp

theorem andThen_err {α β : Type} {a : Except Exc α} {f : α → Except Exc β} {e : Exc} :
    andThen a f = .error e ↔ a = .error e ∨ ∃ x, a = .ok x ∧ f x = .error e := by
  unfold andThen
  split <;> simp

theorem raiseIf_ok {β : Type} {c : Bool} {e : Exc} {r : Except Exc β} {y : β} :
    raiseIf c e r = .ok y ↔ c = false ∧ r = .ok y := by
  unfold raiseIf
  cases c <;> simp

theorem raiseIf_err {β : Type} {c : Bool} {e e' : Exc} {r : Except Exc β} :
    raiseIf c e r = .error e' ↔ (c = true ∧ e = e') ∨ (c = false ∧ r = .error e') := by
  unfold raiseIf
  cases c <;> simp

theorem getBaseScheduler_ok {v : Val} {k : Kind} (h : getBaseScheduler v = .ok k) : v = .str (ext k) := by
  unfold getBaseScheduler at h
  split at h <;> simp_all <;> subst h <;> rfl

theorem getBaseScheduler_ext (k : Kind) : getBaseScheduler (.str (ext k)) = .ok k := by cases k <;> rfl

theorem getBaseScheduler_err {v : Val} {e : Exc} (h : getBaseScheduler v = .error e) : Documented e := by
  unfold getBaseScheduler at h
  split at h
  · cases h
  · cases h
  · cases h
  · cases hv : v.hashable <;> rw [hv] at h <;> cases h <;> simp [Documented]

theorem sizeOption_ok {d : Dict} {k : String} {z : Int} : sizeOption d k = .ok z ↔ NatOption d k z := by
  unfold sizeOption NatOption getD
  cases h : d.lookup k with
  | none =>
    simp only [Option.getD_none, Val.asInt]
    constructor
    · intro h'; simp at h'; subst h'; simp
    · rintro ⟨_, ⟨_, rfl⟩ | ⟨v, hv, _⟩⟩
      · rfl
      · cases hv
  | some v =>
    simp only [Option.getD_some]
    cases hv : v.asInt with
    | none => simp [hv]
    | some y =>
      by_cases hy : y < 0
      · simp only [if_pos hy]
        constructor
        · intro h'; cases h'
        · rintro ⟨h0, ⟨h1, _⟩ | ⟨v', h1, h2⟩⟩
          · cases h1
          · cases h1; rw [hv] at h2; cases h2; omega
      · simp only [if_neg hy]
        constructor
        · intro h'; cases h'; exact ⟨by omega, .inr ⟨v, rfl, hv⟩⟩
        · rintro ⟨h0, ⟨h1, _⟩ | ⟨v', h1, h2⟩⟩
          · cases h1
          · cases h1; rw [hv] at h2; cases h2; rfl

theorem sizeOption_err {d : Dict} {k : String} {e : Exc} (h : sizeOption d k = .error e) : Documented e := by
  unfold sizeOption at h
  repeat' split at h
  all_goals simp at h
  all_goals (subst h; simp [Documented])

theorem getD_valueOr (d : Dict) (k : String) (dflt : Val) : ValueOr d k dflt (getD d k dflt) := by
  unfold ValueOr getD
  cases h : d.lookup k <;> simp

theorem getD_images {d : Dict} {inc : Bool} : getD d "include_images" (.bool false) = .bool inc ↔
    (d.lookup "include_images" = none ∧ inc = false) ∨ d.lookup "include_images" = some (.bool inc) := by
  unfold getD
  cases h : d.lookup "include_images" with
  | none => simp [eq_comm]
  | some v => simp

theorem layers_prefetch (b buf : Int) (p : Pipe) :
    layers (withPrefetch b buf p) = (if 0 < buf then [Layer.prefetch b buf] else []) ++ layers p := by
  unfold withPrefetch
  split <;> rfl

theorem innermost_prefetch (b buf : Int) (p : Pipe) : innermost (withPrefetch b buf p) = innermost p := by
  unfold withPrefetch
  split <;> rfl

theorem episodeKeys_prefetch (b buf : Int) (p : Pipe) : episodeKeys (withPrefetch b buf p) = episodeKeys p := by
  unfold withPrefetch
  split <;> rfl

theorem withEpisodes_ok {w : World} {b len : Int} {k : KeyTerm} {a : BaseArgs} {p : Pipe}
    (h : withEpisodes w b len k (.base a) = .ok p) :
    layers p = (if 0 < len then [Layer.episodic b len] else []) ++ [Layer.base a.kind] ∧ innermost p = a ∧
    episodeKeys p = (if 0 < len then [k.split2.2] else []) := by
  unfold withEpisodes at h
  split at h
  · rename_i hl
    rw [andThen_ok] at h
    obtain ⟨_, _, h⟩ := h
    cases h
    simp [layers, innermost, episodeKeys, hl]
  · rename_i hl
    cases h
    simp [layers, innermost, episodeKeys, hl]

theorem synthFromConfig_ok {w : World} {p : Pipe} {d : Dict} {s : Smp} (h : synthFromConfig w p d = .ok s) :
    pipe s = p ∧ isReal s = false := by
  unfold synthFromConfig at h
  simp only [andThen_ok] at h
  obtain ⟨_, _, _, _, _, _, _, _, _, _, _, _, _, _, _, _, _, _, _, _, _, _, _, _, _, _, _, _, _, _, _, _, _, _, _, _, _, _,
    _, _, _, _, _, _, _, _, _, _, _, _, _, _, _, _, _, _, _, _, _, _, _, _, h⟩ := h
  cases h
  exact ⟨rfl, rfl⟩

theorem finish_ok {w : World} {d : Dict} {inc : Bool} {b len : Int} {p : Pipe} {s : Smp}
    (h : finish w d inc b len p = .ok s) :
    pipe s = p ∧ isReal s = inc ∧ (inc = false → ∃ v, d.lookup "batches_per_flow_batch" = some v ∧ v ≠ .none) := by
  unfold finish at h
  split at h
  · rename_i hi
    rw [andThen_ok] at h
    obtain ⟨_, _, h⟩ := h
    cases h
    exact ⟨rfl, hi.symm, by simp [hi]⟩
  · rename_i hi
    have hi : inc = false := by simpa using hi
    split at h
    · cases h
    · rename_i hne
      rw [andThen_ok] at h
      obtain ⟨_, _, h⟩ := h
      obtain ⟨h1, h2⟩ := synthFromConfig_ok h
      refine ⟨h1, by rw [h2, hi], ?_⟩
      intro _
      unfold getD at hne
      cases hl : d.lookup "batches_per_flow_batch" with
      | none => rw [hl] at hne; simp at hne
      | some v => rw [hl] at hne; exact ⟨v, rfl, by simpa using hne⟩

/-- The arguments a base scheduler of a class gets. -/
theorem baseFromConfig_kind (k : Kind) (kw : Kw) : (baseFromConfig k kw).kind = k := by cases k <;> rfl

/-- What a successful `make` has checked and built. -/
theorem fromDict_ok {w : World} {d : Dict} {s : Smp} (h : fromDict w d = .ok s) :
    ∃ kind b buf len inc root, Accepted d kind b buf len inc ∧ w.prngKey (getD d "seed" (.int 0)) = .ok root ∧
      isReal s = inc ∧ layers (pipe s) = expectedLayers kind b buf len ∧
      episodeKeys (pipe s) = (if 0 < len then [root.split2.1.split2.2] else []) ∧
      ∃ shape, (if inc then andThen (toTuple (getD d "image_shape" (.tuple [.int 256, .int 256]))) fun t => .ok (some t)
            else .ok none) = Except.ok (ε := Exc) shape ∧
      innermost (pipe s) = baseFromConfig kind
        { fileList := getD d "file_list" (.list []), randomize := getD d "randomize" (.bool false),
          loop := getD d "loop" (.bool true), key := root.split2.2, includeImages := inc, outputShape := shape } := by
  unfold fromDict at h
  split at h
  · cases h
  rename_i cls hcls
  rw [andThen_ok] at h
  obtain ⟨kind, hk, h⟩ := h
  split at h
  · cases h
  rename_i bs hbs
  split at h
  · cases h
  rename_i b hb
  rw [raiseIf_ok] at h
  obtain ⟨hb0, h⟩ := h
  split at h
  · rename_i inc hinc
    simp only [andThen_ok, raiseIf_ok] at h
    obtain ⟨buf, hbuf, len, hlen, hff, root, hroot, hmat, shape, hshape, _, _, p, hp, hfin⟩ := h
    obtain ⟨h1, h2, h3⟩ := finish_ok hfin
    obtain ⟨h4, h5, h6⟩ := withEpisodes_ok hp
    refine ⟨kind, b, buf, len, inc, root, ?_, hroot, h2, ?_, ?_, shape, ?_, ?_⟩
    · refine ⟨?_, ?_, getD_images.1 hinc, sizeOption_ok.1 hbuf, sizeOption_ok.1 hlen, ?_, ?_, h3⟩
      · rw [hcls, getBaseScheduler_ok hk]
      · exact ⟨by simpa using hb0, bs, hbs, hb⟩
      · cases hl : d.lookup "flow_fields_per_batch" with
        | none => simp [hl] at hff
        | some v => exact ⟨v, rfl⟩
      · intro hi; subst hi; simpa using hmat
    · rw [h1, layers_prefetch, h4, baseFromConfig_kind, expectedLayers, List.append_assoc]
    · rw [h1, episodeKeys_prefetch, h6]
    · cases inc
      · simpa using hshape
      · simpa using hshape
    · rw [h1, innermost_prefetch, h5]
  · cases h

/-! ### Exceptions -/

theorem toTuple_err {v : Val} {e : Exc} (h : toTuple v = .error e) : e = .typeError := by
  unfold toTuple at h
  split at h <;> simp at h
  exact h.symm

theorem tuples_err {l : List Val} {e : Exc} (h : tuples l = .error e) : e = .typeError := by
  induction l with
  | nil => cases h
  | cons v l ih =>
    unfold tuples at h
    rw [andThen_err] at h
    rcases h with h | ⟨_, _, h⟩
    · exact toTuple_err h
    · rw [andThen_err] at h
      rcases h with h | ⟨_, _, h⟩
      · exact ih h
      · cases h

theorem tupleList_err {v : Val} {e : Exc} (h : tupleList v = .error e) : e = .typeError := by
  unfold tupleList at h
  rw [andThen_err] at h
  rcases h with h | ⟨l, _, h⟩
  · unfold items at h
    split at h <;> simp at h
    exact h.symm
  · rw [andThen_err] at h
    rcases h with h | ⟨_, _, h⟩
    · exact tuples_err h
    · cases h

theorem ltNum_err {a : Num} {v : Val} {e : Exc} (h : Val.ltNum a v = .error e) : e = .typeError := by
  unfold Val.ltNum at h
  split at h <;> simp at h
  exact h.symm

theorem andE_err {a b : Except Exc Bool} {e : Exc} (h : andE a b = .error e) : a = .error e ∨ b = .error e := by
  unfold andE at h
  split at h <;> simp_all

theorem allE_err {α : Type} {p : α → Except Exc Bool} {l : List α} {e : Exc} (h : allE p l = .error e) :
    ∃ x ∈ l, p x = .error e := by
  induction l with
  | nil => cases h
  | cons a l ih =>
    rcases andE_err h with h | h
    · exact ⟨a, List.mem_cons_self, h⟩
    · obtain ⟨x, hx, h⟩ := ih h; exact ⟨x, List.mem_cons_of_mem _ hx, h⟩

theorem le_err {v w : Val} {e : Exc} (h : Val.le v w = .error e) : e = .typeError := by
  unfold Val.le Val.leNum at h
  repeat' split at h
  all_goals simp at h
  all_goals exact h.symm

theorem numLt_err {a : Num} {v : Val} {e : Exc} (h : Val.numLt v a = .error e) : e = .typeError := by
  unfold Val.numLt at h
  split at h <;> simp at h
  exact h.symm

theorem numLe_err {a : Num} {v : Val} {e : Exc} (h : Val.numLe v a = .error e) : e = .typeError := by
  unfold Val.numLe at h
  split at h <;> simp at h
  exact h.symm

theorem leNum_err {a : Num} {v : Val} {e : Exc} (h : Val.leNum a v = .error e) : e = .typeError := by
  unfold Val.leNum at h
  split at h <;> simp at h
  exact h.symm

theorem posRanges_err {l : List (Val × Val)} {e : Exc} (h : Types.posRanges l = .error e) : e = .typeError := by
  obtain ⟨x, _, h⟩ := allE_err h
  rcases andE_err h with h | h
  · exact ltNum_err h
  · exact le_err h

theorem rhoOK_err {l : List (Val × Val)} {e : Exc} (h : Types.rhoOK l = .error e) : e = .typeError := by
  obtain ⟨x, _, h⟩ := allE_err h
  rcases andE_err h with h | h
  · exact ltNum_err h
  · rcases andE_err h with h | h
    · exact le_err h
    · exact numLt_err h

theorem probability_err {v : Val} {e : Exc} (h : Types.probability v = .error e) : e = .typeError := by
  rcases andE_err h with h | h
  · exact leNum_err h
  · exact numLe_err h

theorem require_doc {c : Except Exc Bool} {r : Except Exc Unit} {e : Exc} (hc : ∀ e, c = .error e → e = .typeError)
    (hr : r = .error e → Documented e) (h : Types.require c r = .error e) : Documented e := by
  unfold Types.require at h
  split at h
  · simp at h; subst h; exact .inl (hc _ rfl)
  · simp at h; subst h; exact .inr (.inl rfl)
  · exact hr h

theorem requirePairs_doc {v : Val} {f : List (Val × Val) → Except Exc Bool} {r : Except Exc Unit} {e : Exc}
    (hc : ∀ l e, f l = .error e → e = .typeError)
    (hr : r = .error e → Documented e) (h : Types.requirePairs v f r = .error e) : Documented e := by
  unfold Types.requirePairs at h
  split at h
  · simp at h; subst h; exact .inr (.inl rfl)
  · exact require_doc (hc _) hr h

theorem construct_doc {s : Types.Spec} {e : Exc} (h : s.construct = .error e) : Documented e := by
  have hv : s.validate = .error e := by
    unfold Types.Spec.construct at h
    split at h
    · cases h
    · rename_i he; cases h; exact he
  clear h
  rename' hv => h
  unfold Types.Spec.validate at h
  refine require_doc (by simp) ?_ h; clear h; intro h
  refine require_doc (by simp) ?_ h; clear h; intro h
  refine require_doc (fun _ => probability_err) ?_ h; clear h; intro h
  refine require_doc (fun _ => probability_err) ?_ h; clear h; intro h
  refine require_doc (by simp) ?_ h; clear h; intro h
  refine require_doc (by simp) ?_ h; clear h; intro h
  refine require_doc (by simp) ?_ h; clear h; intro h
  refine require_doc (by simp) ?_ h; clear h; intro h
  refine requirePairs_doc (fun _ _ => posRanges_err) ?_ h; clear h; intro h
  refine requirePairs_doc (fun _ _ => posRanges_err) ?_ h; clear h; intro h
  refine requirePairs_doc (fun _ _ => rhoOK_err) ?_ h; clear h; intro h
  refine require_doc (by simp) ?_ h; clear h; intro h
  refine require_doc (by simp) ?_ h; clear h; intro h
  refine require_doc (by simp) ?_ h; clear h; intro h
  refine require_doc (by simp) ?_ h; clear h; intro h
  refine require_doc (by simp) ?_ h; clear h; intro h
  refine require_doc (by simp) ?_ h; clear h; intro h
  refine require_doc (by simp) ?_ h; clear h; intro h
  cases h

/-- An exception is documented, or a `KeyError` because a key of the list is missing. -/
def DocOrMissing (ks : List String) (d : Dict) (e : Exc) : Prop :=
  Documented e ∨ (e = .keyError ∧ ∃ k ∈ ks, d.lookup k = none)

theorem step_item {ks : List String} {d : Dict} {k : String} (hk : k ∈ ks) {β : Type} {f : Val → Except Exc β} {e : Exc}
    (hf : ∀ v, f v = .error e → DocOrMissing ks d e) (h : andThen (item d k) f = .error e) : DocOrMissing ks d e := by
  rw [andThen_err] at h
  rcases h with h | ⟨v, _, h⟩
  · unfold item at h
    split at h
    · cases h
    · rename_i hl; cases h; exact .inr ⟨rfl, k, hk, hl⟩
  · exact hf v h

theorem step_conv {ks : List String} {d : Dict} {k : String} (hk : k ∈ ks) {g : Val → Except Exc Val}
    (hg : ∀ v e, g v = .error e → e = .typeError) {β : Type} {f : Val → Except Exc β} {e : Exc}
    (hf : ∀ v, f v = .error e → DocOrMissing ks d e) (h : andThen (andThen (item d k) g) f = .error e) :
    DocOrMissing ks d e := by
  rw [andThen_err] at h
  rcases h with h | ⟨v, _, h⟩
  · exact step_item hk (fun v hv => .inl (.inl (hg v e hv))) h
  · exact hf v h

theorem step_doc {ks : List String} {d : Dict} {α β : Type} {a : Except Exc α} {f : α → Except Exc β} {e : Exc}
    (ha : a = .error e → Documented e)
    (hf : ∀ v, f v = .error e → DocOrMissing ks d e) (h : andThen a f = .error e) : DocOrMissing ks d e := by
  rw [andThen_err] at h
  rcases h with h | ⟨v, _, h⟩
  · exact .inl (ha h)
  · exact hf v h

theorem optionalFile_err {w : World} {load : String → Except Exc Unit} (hl : ∀ s e, load s = .error e → Documented e)
    {v : Val} {e : Exc} (h : optionalFile w load v = .error e) : Documented e := by
  unfold optionalFile at h
  split at h
  · cases h
  · split at h
    · rw [andThen_err] at h
      rcases h with h | ⟨_, _, h⟩
      · exact hl _ _ h
      · cases h
    · cases h; exact .inr (.inl rfl)
  · cases h; exact .inr (.inl rfl)

theorem synthFromConfig_err {w : World} (hw : WellBehaved w) {p : Pipe} {d : Dict} {e : Exc}
    (h : synthFromConfig w p d = .error e) :
    DocOrMissing ("batch_size" :: "flow_fields_per_batch" :: "batches_per_flow_batch" :: samplerKeys) d e := by
  unfold synthFromConfig at h
  refine step_doc (optionalFile_err hw.loadMask) ?_ h; clear h; intro _ h
  refine step_doc (optionalFile_err hw.loadHistogram) ?_ h; clear h; intro _ h
  refine step_item (by simp [samplerKeys]) ?_ h; clear h; intro _ h
  refine step_conv (by simp [samplerKeys]) (fun _ _ => toTuple_err) ?_ h; clear h; intro _ h
  refine step_conv (by simp [samplerKeys]) (fun _ _ => toTuple_err) ?_ h; clear h; intro _ h
  refine step_conv (by simp [samplerKeys]) (fun _ _ => toTuple_err) ?_ h; clear h; intro _ h
  refine step_item (by simp [samplerKeys]) ?_ h; clear h; intro _ h
  refine step_item (by simp [samplerKeys]) ?_ h; clear h; intro _ h
  refine step_conv (by simp [samplerKeys]) (fun _ _ => tupleList_err) ?_ h; clear h; intro _ h
  refine step_item (by simp [samplerKeys]) ?_ h; clear h; intro _ h
  refine step_conv (by simp [samplerKeys]) (fun _ _ => tupleList_err) ?_ h; clear h; intro _ h
  refine step_item (by simp [samplerKeys]) ?_ h; clear h; intro _ h
  refine step_conv (by simp [samplerKeys]) (fun _ _ => tupleList_err) ?_ h; clear h; intro _ h
  refine step_item (by simp [samplerKeys]) ?_ h; clear h; intro _ h
  refine step_item (by simp [samplerKeys]) ?_ h; clear h; intro _ h
  refine step_item (by simp [samplerKeys]) ?_ h; clear h; intro _ h
  refine step_item (by simp [samplerKeys]) ?_ h; clear h; intro _ h
  refine step_item (by simp [samplerKeys]) ?_ h; clear h; intro _ h
  refine step_doc construct_doc ?_ h; clear h; intro _ h
  refine step_item (by simp [samplerKeys]) ?_ h; clear h; intro _ h
  refine step_item (by simp [samplerKeys]) ?_ h; clear h; intro _ h
  refine step_conv (by simp [samplerKeys]) (fun _ _ => toTuple_err) ?_ h; clear h; intro _ h
  refine step_item (by simp [samplerKeys]) ?_ h; clear h; intro _ h
  refine step_item (by simp [samplerKeys]) ?_ h; clear h; intro _ h
  refine step_item (by simp [samplerKeys]) ?_ h; clear h; intro _ h
  refine step_item (by simp [samplerKeys]) ?_ h; clear h; intro _ h
  refine step_item (by simp [samplerKeys]) ?_ h; clear h; intro _ h
  refine step_item (by simp [samplerKeys]) ?_ h; clear h; intro _ h
  refine step_item (by simp [samplerKeys]) ?_ h; clear h; intro _ h
  refine step_item (by simp [samplerKeys]) ?_ h; clear h; intro _ h
  refine step_doc (hw.synthInit _ _ _) ?_ h; clear h; intro _ h
  cases h

/-- Which exceptions `make` raises for a dictionary. -/
theorem fromDict_err {w : World} (hw : WellBehaved w) {d : Dict} {e : Exc} (h : fromDict w d = .error e) :
    Documented e ∨ (e = .keyError ∧ (∃ k ∈ samplerKeys, d.lookup k = none) ∧
      ∃ kind b buf len, Accepted d kind b buf len false) := by
  have hV : Documented .valueError := .inr (.inl rfl)
  have hT : Documented .typeError := .inl rfl
  unfold fromDict at h
  split at h
  · cases h; exact .inl hV
  rename_i cls hcls
  rw [andThen_err] at h
  rcases h with h | ⟨kind, hk, h⟩
  · exact .inl (getBaseScheduler_err h)
  split at h
  · cases h; exact .inl hV
  rename_i bs hbs
  split at h
  · cases h; exact .inl hV
  rename_i b hb
  rw [raiseIf_err] at h
  rcases h with ⟨_, rfl⟩ | ⟨hb0, h⟩
  · exact .inl hV
  split at h
  · rename_i inc hinc
    rw [andThen_err] at h
    rcases h with h | ⟨buf, hbuf, h⟩
    · exact .inl (sizeOption_err h)
    rw [andThen_err] at h
    rcases h with h | ⟨len, hlen, h⟩
    · exact .inl (sizeOption_err h)
    rw [raiseIf_err] at h
    rcases h with ⟨_, rfl⟩ | ⟨hff, h⟩
    · exact .inl hV
    rw [andThen_err] at h
    rcases h with h | ⟨root, hroot, h⟩
    · exact .inl (hw.prngKey _ _ h)
    rw [raiseIf_err] at h
    rcases h with ⟨_, rfl⟩ | ⟨hmat, h⟩
    · exact .inl hV
    rw [andThen_err] at h
    rcases h with h | ⟨shape, hshape, h⟩
    · split at h
      · rw [andThen_err] at h
        rcases h with h | ⟨_, _, h⟩
        · rw [toTuple_err h]; exact .inl hT
        · cases h
      · cases h
    simp only at h
    rw [andThen_err] at h
    rcases h with h | ⟨_, hbase, h⟩
    · exact .inl (hw.baseInit _ _ h)
    rw [andThen_err] at h
    rcases h with h | ⟨p, hp, h⟩
    · unfold withEpisodes at h
      split at h
      · rw [andThen_err] at h
        rcases h with h | ⟨_, _, h⟩
        · exact .inl (hw.episodicInit _ _ _ _ _ h)
        · cases h
      · cases h
    unfold finish at h
    split at h
    · rw [andThen_err] at h
      rcases h with h | ⟨_, _, h⟩
      · exact .inl (hw.realInit _ _ _ h)
      · cases h
    rename_i hi
    have hi : inc = false := by simpa using hi
    subst hi
    split at h
    · cases h; exact .inl hV
    rename_i hne
    have hbpfb : ∃ v, d.lookup "batches_per_flow_batch" = some v ∧ v ≠ .none := by
      unfold getD at hne
      cases hl : d.lookup "batches_per_flow_batch" with
      | none => rw [hl] at hne; simp at hne
      | some v => rw [hl] at hne; exact ⟨v, rfl, by simpa using hne⟩
    have hff' : ∃ v, d.lookup "flow_fields_per_batch" = some v := by
      cases hl : d.lookup "flow_fields_per_batch" with
      | none => simp [hl] at hff
      | some v => exact ⟨v, rfl⟩
    rw [andThen_err] at h
    rcases h with h | ⟨_, _, h⟩
    · split at h
      · rw [ltNum_err h]; exact .inl hT
      · cases h
    rcases synthFromConfig_err hw h with h | ⟨rfl, k, hkm, hkn⟩
    · exact .inl h
    · refine .inr ⟨rfl, ?_, kind, b, buf, len, ?_⟩
      · simp only [List.mem_cons] at hkm
        rcases hkm with rfl | rfl | rfl | hkm
        · rw [hbs] at hkn; cases hkn
        · obtain ⟨v, hv⟩ := hff'; rw [hv] at hkn; cases hkn
        · obtain ⟨v, hv, _⟩ := hbpfb; rw [hv] at hkn; cases hkn
        · exact ⟨k, hkm, hkn⟩
      · exact ⟨by rw [hcls, getBaseScheduler_ok hk], ⟨by simpa using hb0, bs, hbs, hb⟩, getD_images.1 hinc,
          sizeOption_ok.1 hbuf, sizeOption_ok.1 hlen, hff', by simp, fun _ => hbpfb⟩
  · cases h; exact .inl hT

/-! ### Success -/

theorem fromDict_of_accepted {w : World} (hw : Healthy w) {d : Dict} {kind : Kind} {b buf len : Int} {inc : Bool}
    (h : Accepted d kind b buf len inc)
    (hshape : inc = true → ∃ t, toTuple (getD d "image_shape" (.tuple [.int 256, .int 256])) = .ok t) :
    ∃ p, layers p = expectedLayers kind b buf len ∧
      fromDict w d = (if inc then .ok (.real p b) else finish w d false b len p) := by
  obtain ⟨root, hroot⟩ := hw.prngKey (getD d "seed" (.int 0))
  obtain ⟨hb0, bs, hbs, hb⟩ := h.batchSize
  obtain ⟨ff, hff⟩ := h.flowFieldsPerBatch
  obtain ⟨shape, hs⟩ : ∃ shape, (if inc then andThen (toTuple (getD d "image_shape" (.tuple [.int 256, .int 256])))
      fun t => .ok (some t) else .ok none) = Except.ok (ε := Exc) shape := by
    cases inc
    · exact ⟨none, rfl⟩
    · obtain ⟨t, ht⟩ := hshape rfl; exact ⟨some t, by simp [ht, andThen]⟩
  have hmat : (inc && decide (kind ≠ .mat)) = false := by
    cases inc
    · rfl
    · simp [h.onlyMat rfl]
  obtain ⟨a, ha⟩ : ∃ a, a = baseFromConfig kind
        { fileList := getD d "file_list" (.list []), randomize := getD d "randomize" (.bool false),
          loop := getD d "loop" (.bool true), key := root.split2.2, includeImages := inc, outputShape := shape } :=
    ⟨_, rfl⟩
  obtain ⟨p, hp⟩ : ∃ p, withEpisodes w b len root.split2.1 (.base a) = .ok p := by
    unfold withEpisodes
    split
    · rw [hw.episodicInit]; exact ⟨_, rfl⟩
    · exact ⟨_, rfl⟩
  refine ⟨withPrefetch b buf p, ?_, ?_⟩
  · rw [layers_prefetch, (withEpisodes_ok hp).1, ha, baseFromConfig_kind, expectedLayers, List.append_assoc]
  · unfold fromDict
    simp only [h.schedulerClass, getBaseScheduler_ext, hbs, hb, getD_images.2 h.includeImages, sizeOption_ok.2 h.bufferSize,
      sizeOption_ok.2 h.episodeLength, hff, hroot, hmat, andThen, raiseIf, Option.isNone_some]
    rw [if_neg (by simpa using hb0)]
    simp only [Bool.false_eq_true, if_false]
    have hs' := hs
    simp only [andThen] at hs'
    rw [hs']
    simp only [← ha, hw.baseInit, hp]
    unfold finish
    cases inc
    · simp
    · simp [hw.realInit, andThen]

end Verif.Make
